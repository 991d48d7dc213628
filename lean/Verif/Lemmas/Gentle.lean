import Mathlib.Analysis.Convex.Deriv
import Mathlib.Analysis.Complex.ExponentialBounds
import Mathlib.Analysis.SpecialFunctions.Pow.Real
import Mathlib.Analysis.SpecialFunctions.Trigonometric.DerivHyp
import Mathlib.Analysis.Convex.SpecificFunctions.Basic

/-!
# Slopes of concave curves on a logarithmic time axis

A concave curve over `u = log10 t` is not steeper than `10 ** u` relative to its earlier slope.
-/

namespace Gerabaldi

theorem sinh_convex : ConvexOn ℝ (Set.Ici 0) Real.sinh := by
  refine convexOn_of_deriv2_nonneg (convex_Ici 0) Real.continuous_sinh.continuousOn
    Real.differentiable_sinh.differentiableOn ?_ ?_
  · rw [Real.deriv_sinh]; exact Real.differentiable_cosh.differentiableOn
  · intro x hx
    rw [interior_Ici] at hx
    simp only [Function.iterate_succ, Function.iterate_zero, Function.comp, id, Real.deriv_sinh,
      Real.deriv_cosh]
    exact (Real.sinh_pos_iff.2 hx).le

/-- `sinh y / y` grows. -/
theorem sinh_div_mono {x y : ℝ} (hx : 0 < x) (hxy : x ≤ y) : Real.sinh x * y ≤ Real.sinh y * x := by
  rcases hxy.lt_or_eq with h | rfl
  · have := sinh_convex.secant_mono (a := 0) (x := x) (y := y) (by simp) (Set.mem_Ici.2 hx.le)
      (Set.mem_Ici.2 (hx.trans h).le) hx.ne' (hx.trans h).ne' hxy
    simp only [Real.sinh_zero, sub_zero] at this
    rwa [div_le_div_iff₀ hx (hx.trans h)] at this
  · rfl

theorem exp_sub_eq (a b : ℝ) : Real.exp b - Real.exp a =
    2 * Real.exp ((a + b) / 2) * Real.sinh ((b - a) / 2) := by
  rw [Real.sinh_eq]
  have h1 : Real.exp b = Real.exp ((a + b) / 2) * Real.exp ((b - a) / 2) := by
    rw [← Real.exp_add]; ring_nf
  have h2 : Real.exp a = Real.exp ((a + b) / 2) * Real.exp (-((b - a) / 2)) := by
    rw [← Real.exp_add]; ring_nf
  rw [h1, h2]; ring

/-- The ratio of two neighbouring slopes of the exponential function is at most the slope from 0 of the
whole distance. -/
theorem exp_slope_ratio {x w v : ℝ} (h1 : x < w) (h2 : w < v) :
    (Real.exp v - Real.exp w) * (w - x) * (v - x) ≤
      (Real.exp w - Real.exp x) * (v - w) * (Real.exp (v - x) - 1) := by
  have e0 : Real.exp (v - x) - 1 = 2 * Real.exp ((v - x) / 2) * Real.sinh ((v - x) / 2) := by
    have := exp_sub_eq 0 (v - x)
    simpa using this
  rw [exp_sub_eq w v, exp_sub_eq x w, e0]
  have hs1 : (v - w) / 2 * 1 ≤ Real.sinh ((v - w) / 2) := by
    rw [mul_one]; exact Real.self_le_sinh_iff.2 (by linarith)
  have hs2 : (w - x) / 2 ≤ Real.sinh ((w - x) / 2) := Real.self_le_sinh_iff.2 (by linarith)
  have hm := sinh_div_mono (x := (v - w) / 2) (y := (v - x) / 2) (by linarith) (by linarith)
  have he : Real.exp ((w + v) / 2) = Real.exp ((x + w) / 2) * Real.exp ((v - x) / 2) := by
    rw [← Real.exp_add]; ring_nf
  rw [he]
  have hp1 := Real.exp_pos ((x + w) / 2)
  have hp2 := Real.exp_pos ((v - x) / 2)
  have hsv : 0 < Real.sinh ((v - x) / 2) := Real.sinh_pos_iff.2 (by linarith)
  have hvw : 0 < v - w := by linarith
  have key : Real.sinh ((v - w) / 2) * (w - x) * (v - x) ≤
      2 * Real.sinh ((w - x) / 2) * (v - w) * Real.sinh ((v - x) / 2) := by
    calc Real.sinh ((v - w) / 2) * (w - x) * (v - x)
        = (Real.sinh ((v - w) / 2) * ((v - x) / 2)) * (2 * (w - x)) := by ring
      _ ≤ (Real.sinh ((v - x) / 2) * ((v - w) / 2)) * (2 * (w - x)) :=
          mul_le_mul_of_nonneg_right hm (by linarith)
      _ = (2 * (v - w) * Real.sinh ((v - x) / 2)) * ((w - x) / 2) := by ring
      _ ≤ (2 * (v - w) * Real.sinh ((v - x) / 2)) * Real.sinh ((w - x) / 2) :=
          mul_le_mul_of_nonneg_left hs2 (by positivity)
      _ = _ := by ring
  calc 2 * (Real.exp ((x + w) / 2) * Real.exp ((v - x) / 2)) * Real.sinh ((v - w) / 2) * (w - x) * (v - x)
      = 2 * (Real.exp ((x + w) / 2) * Real.exp ((v - x) / 2)) *
        (Real.sinh ((v - w) / 2) * (w - x) * (v - x)) := by ring
    _ ≤ 2 * (Real.exp ((x + w) / 2) * Real.exp ((v - x) / 2)) *
        (2 * Real.sinh ((w - x) / 2) * (v - w) * Real.sinh ((v - x) / 2)) :=
        mul_le_mul_of_nonneg_left key (by positivity)
    _ = _ := by ring

/-- The slope of `exp` from 0 grows. -/
theorem exp_secant {T T0 : ℝ} (h : 0 < T) (hT : T ≤ T0) :
    (Real.exp T - 1) * T0 ≤ (Real.exp T0 - 1) * T := by
  rcases hT.lt_or_eq with h' | rfl
  · have := convexOn_exp.secant_mono (a := 0) (x := T) (y := T0) trivial trivial trivial h.ne'
      (h.trans h').ne' hT
    simp only [Real.exp_zero, sub_zero] at this
    rwa [div_le_div_iff₀ h (h.trans h')] at this
  · rfl

/-- Growth of a residue over the logarithm of time that is at most as fast as that of the time itself,
in terms of divided differences. -/
structure Gentle (g : ℝ → ℝ) : Prop where
  mono : ∀ x y, x < y → g x < g y
  slow : ∀ x w v, x < w → w < v →
    (g v - g w) * ((10 : ℝ) ^ w - 10 ^ x) ≤ (g w - g x) * ((10 : ℝ) ^ v - 10 ^ w)

theorem ten_exp (u : ℝ) : (10 : ℝ) ^ u = Real.exp (Real.log 10 * u) :=
  Real.rpow_def_of_pos (by norm_num) u

theorem log_ten : (2302 : ℝ) / 1000 < Real.log 10 := by
  rw [Real.log_ten_eq]
  have h2 := Real.log_two_gt_d9
  have h5 : Real.log 5 = 2 * Real.log 2 + Real.log (5 / 4) := by
    rw [show (5 : ℝ) = 2 ^ 2 * (5 / 4) by norm_num, Real.log_mul (by norm_num) (by norm_num),
      Real.log_pow]
    norm_num
  have h54 : (2231 : ℝ) / 10000 < Real.log (5 / 4) := by
    rw [Real.lt_log_iff_exp_lt (by norm_num)]
    have := Real.exp_bound' (x := 2231 / 10000) (by norm_num) (by norm_num) (n := 6) (by norm_num)
    refine this.trans_lt ?_
    norm_num [Finset.sum_range_succ, Nat.factorial]
  rw [h5]
  norm_num at *
  linarith

theorem ten_pow_lt {p q : ℕ} (hq : 0 < q) {z : ℝ} (hz : 0 < z) (h : (10 : ℝ) ^ p < z ^ q) :
    (10 : ℝ) ^ ((p : ℝ) / q) < z := by
  have hq' : (q : ℝ) ≠ 0 := by exact_mod_cast hq.ne'
  by_contra hc
  rw [not_lt] at hc
  have := pow_le_pow_left₀ hz.le hc q
  rw [← Real.rpow_natCast ((10 : ℝ) ^ ((p : ℝ) / q)) q, ← Real.rpow_mul (by norm_num),
    div_mul_cancel₀ _ hq', Real.rpow_natCast] at this
  linarith

/-- Neighbouring divided differences of a gentle function differ by less than the factor `κ` on distances
below `T0`. -/
theorem Gentle.ratio {g : ℝ → ℝ} (hg : Gentle g) {T0 κ : ℝ} (hT : 0 < T0)
    (hκ : (10 : ℝ) ^ T0 - 1 < κ * T0 * Real.log 10) {x w v : ℝ} (h1 : x < w) (h2 : w < v)
    (h3 : v - x ≤ T0) : (g v - g w) * (w - x) < κ * ((g w - g x) * (v - w)) := by
  have hl : 0 < Real.log 10 := by have := log_ten; linarith
  set L := Real.log 10 with hL
  have hs := hg.slow x w v h1 h2
  have hr := exp_slope_ratio (x := L * x) (w := L * w) (v := L * v) (by nlinarith) (by nlinarith)
  have he := exp_secant (T := L * (v - x)) (T0 := L * T0) (by nlinarith) (by nlinarith)
  rw [ten_exp, ← hL] at hκ
  simp only [ten_exp, ← hL] at hs
  have hA : 0 < Real.exp (L * w) - Real.exp (L * x) := sub_pos.2 (Real.exp_lt_exp.2 (by nlinarith))
  have hg1 : 0 < g w - g x := sub_pos.2 (hg.mono _ _ h1)
  have hw : 0 < w - x := by linarith
  have hv : 0 < v - w := by linarith
  have hvx : 0 < v - x := by linarith
  set A := Real.exp (L * w) - Real.exp (L * x)
  set B := Real.exp (L * v) - Real.exp (L * w)
  rw [show L * v - L * x = L * (v - x) by ring, show L * w - L * x = L * (w - x) by ring,
    show L * v - L * w = L * (v - w) by ring] at hr
  -- B (w-x) ≤ κ A (v-w)
  have hB : B * (w - x) < κ * (A * (v - w)) := by
    have h5 : (Real.exp (L * (v - x)) - 1) < κ * (L * (v - x)) := by
      have h6 : (Real.exp (L * T0) - 1) * (L * (v - x)) < κ * T0 * L * (L * (v - x)) :=
        mul_lt_mul_of_pos_right hκ (by positivity)
      have h7 : (Real.exp (L * (v - x)) - 1) * (L * T0) < κ * (L * (v - x)) * (L * T0) := by
        calc _ ≤ _ := he
          _ < _ := h6
          _ = _ := by ring
      exact lt_of_mul_lt_mul_right h7 (by positivity)
    have h8 : B * (w - x) * (v - x) * (L * L) < κ * (A * (v - w)) * (v - x) * (L * L) := by
      calc B * (w - x) * (v - x) * (L * L) = B * (L * (w - x)) * (L * (v - x)) := by ring
        _ ≤ A * (L * (v - w)) * (Real.exp (L * (v - x)) - 1) := hr
        _ < A * (L * (v - w)) * (κ * (L * (v - x))) :=
            mul_lt_mul_of_pos_left h5 (by positivity)
        _ = _ := by ring
    have h9 := lt_of_mul_lt_mul_right h8 (by positivity)
    exact lt_of_mul_lt_mul_right h9 hvx.le
  have h10 : (g v - g w) * (w - x) * A < κ * ((g w - g x) * (v - w)) * A := by
    calc (g v - g w) * (w - x) * A = ((g v - g w) * A) * (w - x) := by ring
      _ ≤ ((g w - g x) * B) * (w - x) := mul_le_mul_of_nonneg_right hs hw.le
      _ = (g w - g x) * (B * (w - x)) := by ring
      _ < (g w - g x) * (κ * (A * (v - w))) := mul_lt_mul_of_pos_left hB hg1
      _ = _ := by ring
  exact lt_of_mul_lt_mul_right h10 hA.le

theorem Gentle.ratio_left {g : ℝ → ℝ} (hg : Gentle g) {x w v : ℝ} (h1 : x < w) (h2 : w < v)
    (h3 : v - x ≤ 53 / 100) : (g v - g w) * (w - x) < 2 * ((g w - g x) * (v - w)) := by
  refine hg.ratio (T0 := 53 / 100) (by norm_num) ?_ h1 h2 h3
  have h := ten_pow_lt (p := 53) (q := 100) (by norm_num) (z := 339 / 100) (by norm_num) (by norm_num)
  have := log_ten
  norm_num at h ⊢
  linarith

theorem Gentle.ratio_right {g : ℝ → ℝ} (hg : Gentle g) {x w v : ℝ} (h1 : x < w) (h2 : w < v)
    (h3 : v - x ≤ 2 / 5) : (g v - g w) * (w - x) < 5 / 3 * ((g w - g x) * (v - w)) := by
  refine hg.ratio (T0 := 2 / 5) (by norm_num) ?_ h1 h2 h3
  have h := ten_pow_lt (p := 2) (q := 5) (by norm_num) (z := 2512 / 1000) (by norm_num) (by norm_num)
  have := log_ten
  norm_num at h ⊢
  linarith

end Gerabaldi
