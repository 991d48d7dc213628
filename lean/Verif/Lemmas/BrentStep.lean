import Verif.Lemmas.Gentle
import Verif.Lemmas.MinimizeField

/-!
# Steps of the search on an increasing residue that flattens out

`x` is the best point, `b` the upper end of the bracket; the lower end `a` never moves.
-/

namespace Gerabaldi

attribute [local instance] fieldArith

open PyArith

variable {k : MinCfg ℝ}

/-- The golden step. -/
noncomputable def BState.gold (k : MinCfg ℝ) (s : BState ℝ) : ℝ :=
  if (s.b + s.a) / 2 ≤ s.x then k.gf2 * (s.a - s.x) else k.gf2 * (s.b - s.x)

/-- A parabolic step is tried and accepted. -/
structure BState.Para (k : MinCfg ℝ) (s : BState ℝ) (st : ℝ) : Prop where
  big : s.tol k < |s.e|
  q : (s.x - s.v) * (s.fx - s.fw) - (s.x - s.w) * (s.fx - s.fv) ≠ 0
  eq : st = -((s.x - s.v) * ((s.x - s.v) * (s.fx - s.fw)) - (s.x - s.w) * ((s.x - s.w) * (s.fx - s.fv))) /
    (2 * ((s.x - s.v) * (s.fx - s.fw) - (s.x - s.w) * (s.fx - s.fv)))
  up : s.x + st ≤ s.b
  low : s.a ≤ s.x + st
  small : |st| ≤ |s.e| / 2

/-- A step is golden or an accepted parabolic step, both corrected near the ends. -/
theorem step_cases (s : BState ℝ) : s.step k = s.clamp k (s.gold k) ∨
    ∃ st, s.Para k st ∧ s.step k = s.clamp k st := by
  have hgold : mul k.gf2 (sub (if ge s.x s.mid then s.a else s.b) s.x) = s.gold k := by
    simp only [BState.gold, BState.mid, PyArith.ge, fa_mul, fa_sub, fa_le, fa_div, fa_add, fa_ofRat,
      decide_eq_true_eq]
    push_cast
    split_ifs <;> rfl
  rw [BState.step_eq]
  simp only [BState.stepTail, hgold]
  by_cases hu : s.usePara k = true
  · have hu' := hu
    simp only [BState.usePara, PyArith.gt, fa_lt, fa_abs, fa_eq, fa_ofRat, Bool.and_eq_true,
      decide_eq_true_eq, Bool.not_eq_true', decide_eq_false_iff_not] at hu'
    obtain ⟨hbig, hq⟩ := hu'
    simp only [hu, if_true, Bool.true_and]
    have hQ : s.paraQ k = 2 * ((s.x - s.v) * (s.fx - s.fw) - (s.x - s.w) * (s.fx - s.fv)) := by
      simp only [BState.paraQ, PyArith.gt, fa_lt, fa_abs, fa_sub, fa_mul, fa_ofRat, hbig, decide_true,
        if_true]
      push_cast; rfl
    have hP : s.paraP k = (s.x - s.v) * ((s.x - s.v) * (s.fx - s.fw)) -
        (s.x - s.w) * ((s.x - s.w) * (s.fx - s.fv)) := by
      simp only [BState.paraP, PyArith.gt, fa_lt, fa_abs, fa_sub, fa_mul, hbig, decide_true, if_true]
    have hq0 : s.paraQ k ≠ 0 := by simpa using hq
    have hst : div (if gt (s.paraQ k) (ofRat 0) then neg (s.paraP k) else s.paraP k)
        (PyArith.abs (s.paraQ k)) = -s.paraP k / s.paraQ k := by
      simp only [PyArith.gt, fa_lt, fa_ofRat, fa_neg, fa_div, fa_abs, decide_eq_true_eq, Rat.cast_zero]
      split_ifs with h
      · rw [abs_of_pos h]
      · rw [abs_of_nonpos (not_lt.1 h), div_neg, neg_div]
    rw [hst]
    generalize hc : (_ || _ || _ : Bool) = chg
    cases chg with
    | true => left; rfl
    | false =>
      right
      refine ⟨-s.paraP k / s.paraQ k, ?_, rfl⟩
      simp only [PyArith.gt, fa_lt, fa_add, fa_abs, fa_mul, fa_ofRat, Bool.or_eq_false_iff,
        decide_eq_false_iff_not, not_lt] at hc
      obtain ⟨⟨h1, h2⟩, h3⟩ := hc
      refine ⟨hbig, ?_, by rw [hP, hQ], h1, h2, ?_⟩
      · intro h0; rw [hQ, h0, mul_zero] at hq0; exact hq0 rfl
      · push_cast at h3; linarith
  · left
    simp only [hu]
    rfl

/-- What the corrections do. -/
theorem clamp_cases (s : BState ℝ) (ht : 0 < s.tol k) (st : ℝ) :
    ((s.x + st - s.a < 2 * s.tol k ∨ s.b - (s.x + st) < 2 * s.tol k) ∧
      ((s.x < (s.b + s.a) / 2 ∧ s.clamp k st = s.tol k) ∨
        ((s.b + s.a) / 2 ≤ s.x ∧ s.clamp k st = -s.tol k))) ∨
    (2 * s.tol k ≤ s.x + st - s.a ∧ 2 * s.tol k ≤ s.b - (s.x + st) ∧
      ((s.tol k ≤ |st| ∧ s.clamp k st = st) ∨ (0 < st ∧ st < s.tol k ∧ s.clamp k st = s.tol k) ∨
        (st ≤ 0 ∧ -st < s.tol k ∧ s.clamp k st = -s.tol k))) := by
  simp only [BState.clamp, BState.tol2, BState.mid, fa_add, fa_lt, fa_sub, fa_mul, fa_div, fa_abs,
    fa_neg, fa_ofRat, decide_eq_true_eq, PyArith.gt, Bool.or_eq_true]
  push_cast
  generalize s.tol k = t at *
  by_cases hnear : s.x + st - s.a < t * 2 ∨ s.b - (s.x + st) < t * 2
  · left
    simp only [if_pos hnear]
    refine ⟨by simpa only [mul_comm] using hnear, ?_⟩
    by_cases hm : s.x < (s.b + s.a) / 2
    · left; simp [hm, abs_of_pos ht]
    · right; simp [hm, abs_of_pos ht, not_lt.1 hm]
  · right
    simp only [if_neg hnear]
    rw [not_or, not_lt, not_lt] at hnear
    refine ⟨by linarith, by linarith, ?_⟩
    by_cases h1 : |st| < t
    · by_cases h2 : 0 < st
      · right; left; rw [abs_of_pos h2] at h1; simp [h2, h1, abs_of_pos h2]
      · right; right
        rw [abs_of_nonpos (not_lt.1 h2)] at h1
        simp [h2, h1, abs_of_nonpos (not_lt.1 h2), not_lt.1 h2]
    · left; simp [h1, not_lt.1 h1]

/-- The loop variables from the third iteration on. -/
structure Rising (g : ℝ → ℝ) (s : BState ℝ) : Prop where
  wb : s.w = s.b
  fx : s.fx = g s.x
  fw : s.fw = g s.w
  fv : s.fv = g s.v
  d : |s.d| = s.b - s.x
  xb : s.x < s.b
  e : 0 < |s.e|
  v : s.v = s.b + |s.e| ∨ (s.v = s.x + |s.e| ∧ 2 * (s.b - s.x) ≤ |s.e|)

/-- Distances at which a parabolic step can be accepted. -/
def BState.far (s : BState ℝ) : Prop :=
  (s.v = s.b + |s.e| ∧ 53 / 100 < s.b - s.x + |s.e|) ∨ (s.v = s.x + |s.e| ∧ 2 / 5 < |s.e|)

theorem Rising.para {g : ℝ → ℝ} (hg : Gentle g) {s : BState ℝ} (h : Rising g s) {st : ℝ}
    (hp : s.Para k st) : 2 * st < s.b - s.x ∧ s.far := by
  obtain ⟨-, hq, heq, hup, -, hsm⟩ := hp
  have hvb : s.b < s.v := by
    rcases h.v with h1 | ⟨h1, h2⟩
    · linarith [h.e]
    · linarith [h.xb]
  have hw := h.wb
  have hF1 : 0 < s.fw - s.fx := by rw [h.fw, h.fx, hw]; exact sub_pos.2 (hg.mono _ _ h.xb)
  have hF2 : 0 < s.fv - s.fw := by rw [h.fw, h.fv, hw]; exact sub_pos.2 (hg.mono _ _ hvb)
  have hxb := h.xb
  have hE := h.e
  have hlow : -(|s.e| / 2) ≤ st := (abs_le.1 hsm).1
  -- names
  obtain ⟨d, hd⟩ : ∃ d, d = s.b - s.x := ⟨_, rfl⟩
  obtain ⟨y, hy⟩ : ∃ y, y = s.v - s.b := ⟨_, rfl⟩
  obtain ⟨F1, hf1⟩ : ∃ z, z = s.fw - s.fx := ⟨_, rfl⟩
  obtain ⟨F2, hf2⟩ : ∃ z, z = s.fv - s.fw := ⟨_, rfl⟩
  have hd0 : 0 < d := by linarith
  have hy0 : 0 < y := by linarith
  rw [← hf1] at hF1
  rw [← hf2] at hF2
  have eQ : (s.x - s.v) * (s.fx - s.fw) - (s.x - s.w) * (s.fx - s.fv) = y * F1 - d * F2 := by
    rw [hw, hd, hy, hf1, hf2]; ring
  have eP : -((s.x - s.v) * ((s.x - s.v) * (s.fx - s.fw)) - (s.x - s.w) * ((s.x - s.w) * (s.fx - s.fv))) =
      y * (2 * d + y) * F1 - d * d * F2 := by
    rw [hw, hd, hy, hf1, hf2]; ring
  rw [eQ] at hq
  rw [eQ, eP] at heq
  have hst : st * (2 * (y * F1 - d * F2)) = y * (2 * d + y) * F1 - d * d * F2 := by
    rw [heq, div_mul_cancel₀ _ (by simpa using hq)]
  have hst' : st ≤ d := by linarith
  have hyF : 0 < y * y * F1 := by positivity
  have hdF : 0 < d * d * F2 := by positivity
  have hydF : 0 < y * (d + y) * F1 := by positivity
  have hneg : y * F1 - d * F2 < 0 := by
    rcases lt_or_gt_of_ne hq with h1 | h1
    · exact h1
    · exfalso
      have := mul_le_mul_of_nonneg_right hst' (by linarith : 0 ≤ 2 * (y * F1 - d * F2))
      nlinarith
  have hhalf : 2 * st < d := by
    by_contra hc
    have := mul_le_mul_of_nonpos_right (not_lt.1 hc) hneg.le
    nlinarith
  refine ⟨by linarith, ?_⟩
  have hacc : y * (2 * d + y + |s.e|) * F1 ≤ d * (d + |s.e|) * F2 := by
    have := mul_le_mul_of_nonpos_right hlow (by linarith : 2 * (y * F1 - d * F2) ≤ 0)
    rw [hst] at this
    nlinarith
  have hfv2 : F2 = g s.v - g s.b := by rw [hf2, h.fv, h.fw, hw]
  have hfv1 : F1 = g s.b - g s.x := by rw [hf1, h.fx, h.fw, hw]
  rcases h.v with h1 | ⟨h1, h2⟩
  · left
    refine ⟨h1, ?_⟩
    by_contra hc
    have hr := hg.ratio_left hxb hvb (by linarith)
    rw [← hfv1, ← hfv2, ← hd, ← hy] at hr
    have hey : |s.e| = y := by linarith
    rw [hey] at hacc
    have h5 : (d + y) * (2 * (F1 * y)) ≤ (d + y) * (F2 * d) := by
      have e1 : y * (2 * d + y + y) * F1 = (d + y) * (2 * (F1 * y)) := by ring
      have e2 : d * (d + y) * F2 = (d + y) * (F2 * d) := by ring
      linarith
    have := le_of_mul_le_mul_left h5 (by linarith)
    linarith
  · right
    refine ⟨h1, ?_⟩
    by_contra hc
    have hr := hg.ratio_right hxb hvb (by linarith)
    rw [← hfv1, ← hfv2, ← hd, ← hy] at hr
    have hey : |s.e| = d + y := by linarith
    rw [hey] at hacc
    have hdy : d ≤ y := by linarith
    have h5 : (2 * d + y) * (5 / 3 * (F1 * y)) ≤ (2 * d + y) * (F2 * d) := by
      have h6 : 0 ≤ (y - d) * (y * F1) := mul_nonneg (by linarith) (by positivity)
      have e1 : y * (2 * d + y + (d + y)) * F1 = (2 * d + y) * (5 / 3 * (F1 * y)) +
        1 / 3 * ((y - d) * (y * F1)) := by ring
      have e2 : d * (d + (d + y)) * F2 = (2 * d + y) * (F2 * d) := by ring
      linarith
    have := le_of_mul_le_mul_left h5 (by linarith)
    linarith

end Gerabaldi
