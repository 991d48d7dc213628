import Verif.Lemmas.BrentStep
import Verif.Props.Minimize

/-!
# One iteration of the search on an increasing residue that flattens out
-/

namespace Gerabaldi

attribute [local instance] fieldArith

open PyArith Props

/-- Lower bound of the tolerance. -/
noncomputable def tau : ℝ := 1 / 300000

theorem tol_bounds (s : BState ℝ) (h1 : -4 ≤ s.x) (h2 : s.x ≤ 6) :
    tau ≤ s.tol cfgR ∧ s.tol cfgR ≤ 102 / 100 * tau := by
  have h : |s.x| ≤ 6 := abs_le.2 ⟨by linarith, h2⟩
  have h0 := abs_nonneg s.x
  simp only [BState.tol, fa_add, fa_mul, fa_abs, cfgR, tau]
  norm_num
  linarith

theorem gf2_bounds : (38196 : ℝ) / 100000 ≤ cfgR.gf2 ∧ cfgR.gf2 ≤ 38197 / 100000 := by
  simp only [cfgR]; norm_num

/-- A move to the left (`L`) or to the right (`R`) by `c`. -/
structure MoveL (s s' : BState ℝ) (c : ℝ) : Prop where
  a : s'.a = s.a
  x : s'.x = s.x - c
  b : s'.b = s.x
  e : |s'.e| = s.b - s.x
  v : s'.v = s'.b + |s'.e|

structure MoveR (s s' : BState ℝ) (c : ℝ) : Prop where
  a : s'.a = s.a
  x : s'.x = s.x
  b : s'.b = s.x + c
  e : |s'.e| = s.b - s.x
  v : s'.v = s'.x + |s'.e|

theorem Rising.left {g : ℝ → ℝ} (hg : Gentle g) {s : BState ℝ} (h : Rising g s) {st : ℝ} (hst : st < 0) :
    Rising g (s.update st (g (s.x + st))) ∧ MoveL s (s.update st (g (s.x + st))) (-st) := by
  have h5 : g (s.x + st) ≤ s.fx := by rw [h.fx]; exact (hg.mono _ _ (by linarith)).le
  have h3 : ¬ s.x ≤ s.x + st := by linarith
  have h4 : s.x + st < s.x := by linarith
  have hv : s.w = s.x + |s.d| := by rw [h.d, h.wb]; ring
  simp only [BState.update, fa_add, fa_le, fa_lt, PyArith.ge, h3, h4, h5, decide_true, decide_false,
    Bool.true_and, Bool.true_or, if_true, Bool.not_true, Bool.false_and, Bool.and_false,
    if_false, Bool.false_eq_true]
  refine ⟨⟨rfl, rfl, h.fx, h.fw, ?_, h4, ?_, .inl hv⟩, ⟨rfl, ?_, rfl, h.d, hv⟩⟩
  · simp only [abs_of_neg hst]; ring
  · simp only; rw [h.d]; linarith [h.xb]
  · simp

theorem Rising.right {g : ℝ → ℝ} (hg : Gentle g) {s : BState ℝ} (h : Rising g s) {st : ℝ} (hst : 0 < st)
    (hlt : 2 * st ≤ s.b - s.x) :
    Rising g (s.update st (g (s.x + st))) ∧ MoveR s (s.update st (g (s.x + st))) st := by
  have h5 : ¬ g (s.x + st) ≤ s.fx := by rw [h.fx]; exact not_le.2 (hg.mono _ _ (by linarith))
  have h3 : s.x ≤ s.x + st := by linarith
  have h4 : ¬ s.x + st < s.x := by linarith
  have h6 : g (s.x + st) ≤ s.fw := by rw [h.fw, h.wb]; exact (hg.mono _ _ (by linarith)).le
  have hv : s.w = s.x + |s.d| := by rw [h.d, h.wb]; ring
  simp only [BState.update, fa_add, fa_le, fa_lt, PyArith.ge, h3, h4, h5, h6, decide_true, decide_false,
    Bool.true_or, Bool.or_true, if_true, Bool.not_false, Bool.and_false, if_false, Bool.false_eq_true, Bool.and_true]
  refine ⟨⟨rfl, h.fx, rfl, h.fw, ?_, ?_, ?_, .inr ⟨hv, ?_⟩⟩, ⟨rfl, rfl, rfl, h.d, hv⟩⟩
  · simp only [abs_of_pos hst]; ring
  · simp only; linarith
  · simp only; rw [h.d]; linarith [h.xb]
  · simp only; rw [h.d]; linarith

/-- The moves that can happen. -/
inductive Move (s s' : BState ℝ) : Prop
  | para (c : ℝ) (far : s.far) (c0 : tau ≤ c) (hc : c ≤ max (|s.e| / 2) (2 * tau))
      (m : MoveL s s' c ∨ (MoveR s s' c ∧ 2 * c ≤ s.b - s.x))
  | gl (c : ℝ) (hDP : s.b - s.x ≤ s.x - s.a) (c0 : tau ≤ c) (m : MoveL s s' c)
      (hc : c = cfgR.gf2 * (s.x - s.a) ∨ (c ≤ 102 / 100 * tau ∧ tau ≤ c ∧ 2 * c ≤ s.x - s.a ∧
        (s.x - s.a < 331 / 100 * tau ∨ s.b - s.x + cfgR.gf2 * (s.x - s.a) < 204 / 100 * tau)))
  | gr (c : ℝ) (hDP : s.x - s.a < s.b - s.x) (c0 : tau ≤ c) (m : MoveR s s' c) (h2 : 2 * c ≤ s.b - s.x)
      (hc : c = cfgR.gf2 * (s.b - s.x) ∨ (c ≤ 102 / 100 * tau ∧ tau ≤ c))

/-- The iterations of an element that is not converged. -/
theorem Rising.move {g : ℝ → ℝ} (hg : Gentle g) {s : BState ℝ} (h : Rising g s) (h1 : -4 ≤ s.x)
    (h2 : s.x ≤ 6) (hax : s.a < s.x) (hnd : s.done cfgR = false) :
    Rising g (s.update (s.step cfgR) (g (s.x + s.step cfgR))) ∧
    Move s (s.update (s.step cfgR) (g (s.x + s.step cfgR))) ∧
    s.a < (s.update (s.step cfgR) (g (s.x + s.step cfgR))).x ∧
    (s.update (s.step cfgR) (g (s.x + s.step cfgR))).x ≤ s.x := by
  have htau : (0 : ℝ) < tau := by unfold tau; norm_num
  obtain ⟨t1, t2⟩ := tol_bounds s h1 h2
  have ht : 0 < s.tol cfgR := by linarith
  have hbr := (step_bracket s ht hnd hax h.xb).1
  have hbr2 := (step_bracket s ht hnd hax h.xb).2
  rw [not_done_iff] at hnd
  obtain ⟨g1, g2⟩ := gf2_bounds
  have hxb := h.xb
  -- from a classified step to the conclusion
  have finL : ∀ st, s.step cfgR = st → st < 0 →
      (∀ s', MoveL s s' (-st) → tau ≤ -st → Move s s') →
      Rising g (s.update (s.step cfgR) (g (s.x + s.step cfgR))) ∧
      Move s (s.update (s.step cfgR) (g (s.x + s.step cfgR))) ∧
      s.a < (s.update (s.step cfgR) (g (s.x + s.step cfgR))).x ∧
      (s.update (s.step cfgR) (g (s.x + s.step cfgR))).x ≤ s.x := by
    intro st e h0 hm
    have hb := step_big s ht
    rw [e] at hbr hb ⊢
    rw [abs_of_neg h0] at hb
    obtain ⟨r1, r2⟩ := h.left hg h0
    refine ⟨r1, hm _ r2 (by linarith), ?_, ?_⟩
    · rw [r2.x]; linarith
    · rw [r2.x]; linarith
  have finR : ∀ st, s.step cfgR = st → 0 < st → 2 * st ≤ s.b - s.x →
      (∀ s', MoveR s s' st → tau ≤ st → Move s s') →
      Rising g (s.update (s.step cfgR) (g (s.x + s.step cfgR))) ∧
      Move s (s.update (s.step cfgR) (g (s.x + s.step cfgR))) ∧
      s.a < (s.update (s.step cfgR) (g (s.x + s.step cfgR))).x ∧
      (s.update (s.step cfgR) (g (s.x + s.step cfgR))).x ≤ s.x := by
    intro st e h0 hl hm
    have hb := step_big s ht
    rw [e] at hb ⊢
    rw [abs_of_pos h0] at hb
    obtain ⟨r1, r2⟩ := h.right hg h0 hl
    refine ⟨r1, hm _ r2 (by linarith), ?_, ?_⟩
    · rw [r2.x]; linarith
    · rw [r2.x]
  rcases step_cases (k := cfgR) s with hs | ⟨st, hp, hs⟩
  · -- golden
    by_cases hm : (s.b + s.a) / 2 ≤ s.x
    · have hgold : s.gold cfgR = cfgR.gf2 * (s.a - s.x) := by simp [BState.gold, hm]
      have hP : 2 * s.tol cfgR ≤ s.x - s.a := by rcases hnd with h3 | h3 <;> linarith
      rcases clamp_cases s ht (s.gold cfgR) with ⟨hcl, ⟨hx, -⟩ | ⟨-, hc⟩⟩ |
        ⟨hl, hu, ⟨-, hc⟩ | ⟨hp0, -, -⟩ | ⟨-, hlt, -⟩⟩
      · linarith
      · refine finL _ (hs.trans hc) (by linarith) fun s' m hc0 => .gl _ (by linarith) hc0 m
          (.inr ⟨by linarith, by linarith, by linarith, ?_⟩)
        rw [hgold] at hcl
        rcases hcl with h3 | h3
        · left; nlinarith
        · right; nlinarith
      · have h0 : 0 < cfgR.gf2 * (s.x - s.a) := by
          apply mul_pos <;> linarith
        refine finL _ (hs.trans hc) (by rw [hgold]; linarith) fun s' m hc0 =>
          .gl _ (by linarith) hc0 m (.inl (by rw [hgold]; ring))
      · rw [hgold] at hp0; nlinarith
      · rw [hgold] at hlt hl; nlinarith
    · have hgold : s.gold cfgR = cfgR.gf2 * (s.b - s.x) := by simp [BState.gold, hm]
      rw [not_le] at hm
      have hD : 2 * s.tol cfgR ≤ s.b - s.x := by rcases hnd with h3 | h3 <;> linarith
      rcases clamp_cases s ht (s.gold cfgR) with ⟨hcl, ⟨hx, hc⟩ | ⟨hx, -⟩⟩ |
        ⟨hl, hu, ⟨-, hc⟩ | ⟨-, hlt, -⟩ | ⟨hp0, -, -⟩⟩
      · exact finR _ (hs.trans hc) (by linarith) (by linarith) fun s' m hc0 => .gr _ (by linarith)
          hc0 m (by linarith) (.inr ⟨by linarith, by linarith⟩)
      · linarith
      · have h0 : 0 < cfgR.gf2 * (s.b - s.x) := by
          apply mul_pos <;> linarith
        have h02 : 2 * (cfgR.gf2 * (s.b - s.x)) ≤ s.b - s.x := by nlinarith
        exact finR _ (hs.trans hc) (by rw [hgold]; linarith) (by rw [hgold]; linarith) fun s' m hc0 =>
          .gr _ (by linarith) hc0 m (by rw [hgold]; linarith) (.inl hgold)
      · rw [hgold] at hlt hu; nlinarith
      · rw [hgold] at hp0; nlinarith
  · -- parabolic
    obtain ⟨hhalf, hfar⟩ := h.para hg hp
    have hsm := hp.small
    rcases clamp_cases s ht st with ⟨hcl, ⟨hx, hc⟩ | ⟨hx, hc⟩⟩ |
        ⟨hl, hu, ⟨hbig, hc⟩ | ⟨hp0, hlt, hc⟩ | ⟨hp0, hlt, hc⟩⟩
    · have hD : 2 * s.tol cfgR ≤ s.b - s.x := by rcases hnd with h3 | h3 <;> linarith
      exact finR _ (hs.trans hc) (by linarith) (by linarith) fun s' m hc0 => .para _ hfar hc0
        (le_max_of_le_right (by linarith)) (.inr ⟨m, by linarith⟩)
    · exact finL _ (hs.trans hc) (by linarith) fun s' m hc0 => .para _ hfar hc0
        (le_max_of_le_right (by linarith)) (.inl m)
    · rcases lt_trichotomy st 0 with h0 | h0 | h0
      · rw [abs_of_neg h0] at hsm
        exact finL _ (hs.trans hc) h0 fun s' m hc0 => .para _ hfar hc0
          (le_max_of_le_left hsm) (.inl m)
      · rw [h0, abs_zero] at hbig; linarith
      · rw [abs_of_pos h0] at hsm
        exact finR _ (hs.trans hc) h0 (by linarith) fun s' m hc0 => .para _ hfar hc0
          (le_max_of_le_left hsm) (.inr ⟨m, by linarith⟩)
    · exact finR _ (hs.trans hc) (by linarith) (by linarith) fun s' m hc0 => .para _ hfar hc0
        (le_max_of_le_right (by linarith)) (.inr ⟨m, by linarith⟩)
    · exact finL _ (hs.trans hc) (by linarith) fun s' m hc0 => .para _ hfar hc0
        (le_max_of_le_right (by linarith)) (.inl m)

end Gerabaldi
