import Verif.Lemmas.BrentRun
import Verif.Props.Degrade

/-!
# The search on a constant residue

When the curve of a sample does not depend on time, all candidates are equally good. Ties move the best
point, so the search walks to the upper bound.
-/

namespace Gerabaldi

attribute [local instance] fieldArith

open PyArith Props

/-- All remembered residues are `r`. -/
structure Flat (r : ℝ) (s : BState ℝ) : Prop where
  fx : s.fx = r
  fw : s.fw = r
  fv : s.fv = r

theorem Flat.step {r : ℝ} {s : BState ℝ} (h : Flat r s) : s.step cfgR = s.clamp cfgR (s.gold cfgR) := by
  rcases step_cases (k := cfgR) s with h1 | ⟨st, hp, -⟩
  · exact h1
  · exact absurd (by rw [h.fx, h.fw, h.fv]; ring) hp.q

theorem Flat.update {r : ℝ} {s : BState ℝ} (h : Flat r s) (st : ℝ) :
    Flat r (s.update st r) ∧ (s.update st r).x = s.x + st ∧
      (0 ≤ st → (s.update st r).a = s.x ∧ (s.update st r).b = s.b) ∧
      (st < 0 → (s.update st r).a = s.a ∧ (s.update st r).b = s.x) := by
  have e : le r s.fx = true := by rw [h.fx]; simp [fa_le]
  refine ⟨⟨?_, ?_, ?_⟩, ?_, fun h0 => ?_, fun h0 => ?_⟩
  · simp [BState.update, e]
  · simp only [BState.update, e, if_true]; exact h.fx
  · simp [BState.update, e, h.fw]
  · simp [BState.update, e, fa_add]
  · simp [BState.update, e, fa_add, PyArith.ge, fa_le, fa_lt, h0, not_lt.2 h0]
  · simp [BState.update, e, fa_add, PyArith.ge, fa_le, fa_lt, h0, not_le.2 h0]

theorem tol_small (s : BState ℝ) (h1 : -11 ≤ s.x) (h2 : s.x ≤ 11) :
    0 < s.tol cfgR ∧ s.tol cfgR ≤ 4 / 1000000 := by
  have h : |s.x| ≤ 11 := abs_le.2 ⟨by linarith, h2⟩
  have h0 := abs_nonneg s.x
  rw [tol_cfgR]
  constructor
  · positivity
  · norm_num; linarith

/-- The first phase: golden steps to the right. -/
structure Walk (r : ℝ) (n : Nat) (s : BState ℝ) : Prop where
  flat : Flat r s
  b : s.b = 10
  x : s.x = 10 - (1 - cfgR.gf2) * (10 - s.a)
  far : 5 / 1000 ≤ 10 - s.a
  near : 10 - s.a ≤ 13 * (61804 / 100000) ^ n

/-- The second phase: close to the upper bound. -/
structure Near (r : ℝ) (n : Nat) (s : BState ℝ) : Prop where
  flat : Flat r s
  a : 9995 / 1000 - n * (4 / 1000000) ≤ s.a
  x : 9995 / 1000 - n * (4 / 1000000) ≤ s.x
  x' : s.x ≤ 10 + n * (4 / 1000000)
  b : s.b ≤ 10 + n * (4 / 1000000)
  a' : s.a ≤ 10 + n * (4 / 1000000)
  b' : 9995 / 1000 - n * (4 / 1000000) ≤ s.b

theorem pow_le_13 (n : Nat) : (13 : ℝ) * (61804 / 100000) ^ n ≤ 13 := by
  have := pow_le_one₀ (n := n) (by norm_num : (0 : ℝ) ≤ 61804 / 100000) (by norm_num)
  linarith

theorem Walk.next {r : ℝ} {n : Nat} {s : BState ℝ} (h : Walk r n s) :
    s.done cfgR = false ∧
    (Walk r (n + 1) (s.update (s.step cfgR) r) ∨ Near r (n + 1) (s.update (s.step cfgR) r)) := by
  obtain ⟨g1, g2⟩ := gf2_bounds
  have h13 := pow_le_13 n
  set G := cfgR.gf2 with hG
  obtain ⟨W, hW⟩ : ∃ W, W = 10 - s.a := ⟨_, rfl⟩
  have ha : s.a = 10 - W := by linarith
  have hx : s.x = 10 - (1 - G) * W := by rw [h.x, hW]
  have hf : 5 / 1000 ≤ W := by rw [hW]; exact h.far
  have hn : W ≤ 13 * (61804 / 100000) ^ n := by rw [hW]; exact h.near
  have m1 : 61803 / 100000 * W ≤ (1 - G) * W := mul_le_mul_of_nonneg_right (by linarith) (by linarith)
  have m2 : (1 - G) * W ≤ 61804 / 100000 * W := mul_le_mul_of_nonneg_right (by linarith) (by linarith)
  obtain ⟨t0, t1⟩ := tol_small s (by linarith) (by linarith)
  have hgold : s.gold cfgR = G * ((1 - G) * W) := by
    simp only [BState.gold]
    rw [if_neg (by rw [h.b, ha, hx, not_le]; linarith), h.b, hx]
    ring
  have q1 : 38196 / 100000 * ((1 - G) * W) ≤ G * ((1 - G) * W) :=
    mul_le_mul_of_nonneg_right g1 (by linarith)
  have q2 : G * ((1 - G) * W) ≤ 38197 / 100000 * ((1 - G) * W) :=
    mul_le_mul_of_nonneg_right g2 (by linarith)
  have hstep : s.step cfgR = G * ((1 - G) * W) := by
    rw [h.flat.step, hgold]
    rcases clamp_cases s t0 (G * ((1 - G) * W)) with
      ⟨k | k, -⟩ | ⟨-, -, ⟨-, k⟩ | ⟨-, k, -⟩ | ⟨k, -, -⟩⟩
    · rw [hx, ha] at k; linarith
    · rw [hx, h.b] at k; linarith
    · exact k
    · linarith
    · linarith
  obtain ⟨u1, u2, u3, -⟩ := h.flat.update (s.step cfgR)
  obtain ⟨u3, u4⟩ := u3 (by rw [hstep]; linarith)
  refine ⟨?_, ?_⟩
  · rw [not_done_iff, h.b, ha, hx]
    left; linarith
  · have hnew : 10 - (s.update (s.step cfgR) r).a = (1 - G) * W := by rw [u3, hx]; ring
    by_cases hc : 5 / 1000 ≤ (1 - G) * W
    · left
      refine ⟨u1, u4.trans h.b, ?_, by rw [hnew]; exact hc, ?_⟩
      · rw [hnew, u2, hstep, hx, ← hG]; ring
      · rw [hnew, pow_succ]; linarith
    · right
      have hp : (0 : ℝ) ≤ ((n + 1 : Nat) : ℝ) * (4 / 1000000) := by positivity
      refine ⟨u1, ?_, ?_, ?_, ?_, ?_, ?_⟩
      · linarith
      · rw [u2, hstep, hx]; linarith
      · rw [u2, hstep, hx]; linarith
      · rw [u4, h.b]; linarith
      · linarith
      · rw [u4, h.b]; linarith

theorem Near.next {r : ℝ} {n : Nat} {s : BState ℝ} (h : Near r n s) (hn : n ≤ 50) :
    Near r (n + 1) (s.update (s.step cfgR) r) := by
  obtain ⟨hfl, ha, hx, hx', hb, ha', hb'⟩ := h
  obtain ⟨g1, g2⟩ := gf2_bounds
  have hn' : (n : ℝ) ≤ 50 := by exact_mod_cast hn
  obtain ⟨t0, t1⟩ := tol_small s (by linarith) (by linarith)
  obtain ⟨lo, hlo⟩ : ∃ lo : ℝ, lo = 9995 / 1000 - n * (4 / 1000000) := ⟨_, rfl⟩
  obtain ⟨hi, hhi⟩ : ∃ hi : ℝ, hi = 10 + n * (4 / 1000000) := ⟨_, rfl⟩
  rw [← hlo] at ha hx hb'
  rw [← hhi] at hx' hb ha'
  have key : lo - 4 / 1000000 ≤ s.x + s.step cfgR ∧ s.x + s.step cfgR ≤ hi + 4 / 1000000 := by
    have hg : lo ≤ s.x + s.gold cfgR ∧ s.x + s.gold cfgR ≤ hi := by
      simp only [BState.gold]
      have hG : (0 : ℝ) ≤ cfgR.gf2 := by linarith
      have hG' : (0 : ℝ) ≤ 1 - cfgR.gf2 := by linarith
      split_ifs
      · have h1 := mul_le_mul_of_nonneg_left ha hG
        have h2 := mul_le_mul_of_nonneg_left ha' hG
        have h3 := mul_le_mul_of_nonneg_left hx hG'
        have h4 := mul_le_mul_of_nonneg_left hx' hG'
        constructor <;> linarith
      · have h1 := mul_le_mul_of_nonneg_left hb hG
        have h2 := mul_le_mul_of_nonneg_left hb' hG
        have h3 := mul_le_mul_of_nonneg_left hx hG'
        have h4 := mul_le_mul_of_nonneg_left hx' hG'
        constructor <;> linarith
    rw [hfl.step]
    rcases clamp_cases s t0 (s.gold cfgR) with
      ⟨-, ⟨-, k⟩ | ⟨-, k⟩⟩ | ⟨-, -, ⟨-, k⟩ | ⟨-, -, k⟩ | ⟨-, -, k⟩⟩ <;> rw [k] <;>
      constructor <;> linarith [hg.1, hg.2]
  obtain ⟨u1, u2, u3, u4⟩ := hfl.update (s.step cfgR)
  rcases le_or_gt 0 (s.step cfgR) with h0 | h0
  · obtain ⟨u5, u6⟩ := u3 h0
    refine ⟨u1, ?_, ?_, ?_, ?_, ?_, ?_⟩ <;> push_cast <;> simp only [u2, u5, u6] <;>
      linarith [key.1, key.2]
  · obtain ⟨u5, u6⟩ := u4 h0
    refine ⟨u1, ?_, ?_, ?_, ?_, ?_, ?_⟩ <;> push_cast <;> simp only [u2, u5, u6] <;>
      linarith [key.1, key.2]

/-- The two phases along a trace. -/
theorem flat_trace {r : ℝ} : ∀ {us : List (ℝ × ℝ)} {s s₁ : BState ℝ} {n : Nat}, Trace cfgR s us s₁ →
    (∀ e ∈ us, e.2 = r) → n + us.length ≤ 50 → Walk r n s ∨ Near r n s →
    Walk r (n + us.length) s₁ ∨ Near r (n + us.length) s₁ := by
  intro us
  induction us with
  | nil => intro s s₁ n h _ _ hw; cases h; exact hw
  | cons e us ih =>
    intro s s₁ n h he hn hw
    cases h with
    | cons h =>
      rename_i fu
      have hfu : fu = r := he _ List.mem_cons_self
      subst hfu
      simp only [List.length_cons] at hn ⊢
      rw [show n + (us.length + 1) = n + 1 + us.length by omega]
      refine ih h (fun e' he' => he e' (by simp [he'])) (by omega) ?_
      rcases hw with hw | hw
      · exact hw.next.2
      · exact .inr (hw.next (by omega))

theorem walk_init (r : ℝ) : Walk r 0 (cfgR.init r) := by
  have hlo : cfgR.lo = -3 := by simp only [cfgR]; norm_num
  have hhi : cfgR.hi = 10 := by simp only [cfgR]; norm_num
  refine ⟨⟨rfl, rfl, rfl⟩, hhi, ?_, ?_, ?_⟩
  · simp only [MinCfg.init, MinCfg.x0, fa_add, fa_mul, fa_sub, hlo, hhi]; ring
  · simp only [MinCfg.init, hlo]; norm_num
  · simp only [MinCfg.init, hlo]; norm_num

/-- A search on a constant residue ends at the upper bound. -/
theorem flat_search {r : ℝ} {us : List (ℝ × ℝ)} {s₁ : BState ℝ} (h : Trace cfgR (cfgR.init r) us s₁)
    (he : ∀ e ∈ us, e.2 = r) (hlen : us.length ≤ 50)
    (hd : us.length < 50 → s₁.done cfgR = true) : 999 / 100 < s₁.x := by
  rcases flat_trace h he (by omega : 0 + us.length ≤ 50) (.inl (walk_init r)) with hw | hw
  · rw [zero_add] at hw
    rcases Nat.lt_or_ge us.length 50 with h1 | h1
    · rw [hw.next.1] at hd; exact absurd (hd h1) (by simp)
    · have h2 : us.length = 50 := by omega
      have h3 := hw.near
      have h4 := hw.far
      rw [h2] at h3
      norm_num at h3
      linarith
  · have h1 := hw.x
    have h2 : (us.length : ℝ) ≤ 50 := by exact_mod_cast hlen
    push_cast at h1
    linarith

end Gerabaldi
