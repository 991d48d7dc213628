import Verif.Model.RandomVars
import Verif.Model.Field
import Verif.Spec.RandomVars
import Mathlib.Analysis.SpecialFunctions.Gaussian.GaussianIntegral
import Mathlib.Analysis.SpecialFunctions.Pow.Real
import Mathlib.Tactic.NormNum
import Mathlib.Tactic.FieldSimp

/-!
# C13: the same distribution is described to every framework
-/

namespace Gerabaldi.Props
open Gerabaldi Gerabaldi.Spec Real

noncomputable section

attribute [local instance] fieldArith

theorem gamma_numpy {alpha beta : ℝ} (hb : beta ≠ 0) :
    (Dist.gamma alpha beta).getDistParams "numpy" = .ok [("shape", alpha), ("scale", 1 / beta)] := by
  show (if decide (beta = ((0 : ℚ) : ℝ)) = true then Except.error Err.zeroDivision
    else Except.ok [("shape", alpha), ("scale", ((1 : ℚ) : ℝ) / beta)]) = _
  simp [hb]

theorem pymcNormal_eq {m s : ℝ} (hs : 0 < s) : pymcNormal m s = numpyNormal m s := by
  funext x
  unfold pymcNormal numpyNormal
  congr 1
  · rw [← Real.sqrt_one, ← Real.sqrt_div (by norm_num)]
    congr 1
    rw [Real.sqrt_one, div_div, mul_comm (s ^ 2)]
  · congr 1
    have : s ≠ 0 := hs.ne'
    field_simp

theorem pyroNormal_eq {m s : ℝ} (hs : 0 < s) : pyroNormal m s = numpyNormal m s := by
  funext x
  unfold pyroNormal numpyNormal
  have hp : 0 < √(2 * π) := Real.sqrt_pos.2 (by positivity)
  rw [sub_sub, exp_sub, exp_add, exp_log hs, exp_log hp, Real.sqrt_mul (by positivity) (s ^ 2),
    Real.sqrt_sq hs.le]
  field_simp

theorem numpyGamma_eq {a b : ℝ} (hb : 0 < b) : numpyGamma a (1 / b) = pymcGamma a b := by
  funext x
  unfold numpyGamma pymcGamma
  split
  · have h1 : (1 / b) ^ a = (b ^ a)⁻¹ := by rw [one_div, Real.inv_rpow hb.le]
    have h2 : b ^ a ≠ 0 := (Real.rpow_pos_of_pos hb a).ne'
    have h3 : -x / (1 / b) = -b * x := by field_simp
    rw [h1, h3]
    field_simp
  · rfl

theorem pyroGamma_eq {a b : ℝ} (ha : 0 < a) (hb : 0 < b) : pyroGamma a b = pymcGamma a b := by
  funext x
  unfold pyroGamma pymcGamma
  split
  · rename_i hx
    rw [exp_sub, exp_sub, exp_add, exp_log (Real.Gamma_pos_of_pos ha),
      Real.rpow_def_of_pos hb, Real.rpow_def_of_pos hx, mul_comm a, mul_comm (a - 1),
      show -b * x = -(b * x) by ring, exp_neg, div_eq_mul_inv (_ * _) (exp (b * x))]
  · rfl

/-- **C13.** For every valid `Normal`, `Gamma` or `Uniform` variable the distribution that numpy samples
from, and the distributions declared to PyMC and to Pyro, all have the density the user asked for. -/
theorem C13_same_distribution (r : RVar ℝ) (h : ValidDist r.dist) :
    ∃ f, intendedPdf r.dist = some f ∧
      (∃ ps, r.dist.getDistParams "numpy" = .ok ps ∧ libPdf "numpy" r.dist.typeName ps = some f) ∧
      (∃ form, r.getCbiForm "pymc" = .ok form ∧ form.name = r.name ∧
        libPdf form.framework form.cls form.params = some f) ∧
      (∃ form, r.getCbiForm "pyro" = .ok form ∧ form.name = r.name ∧
        libPdf form.framework form.cls form.params = some f) := by
  obtain ⟨i, d, n⟩ := r
  cases d with
  | deterministic v => exact h.elim
  | normal mu sigma =>
    refine ⟨_, rfl, ⟨_, rfl, rfl⟩, ⟨_, rfl, rfl, ?_⟩, ⟨_, rfl, rfl, ?_⟩⟩
    · exact congrArg some (pymcNormal_eq h)
    · exact congrArg some (pyroNormal_eq h)
  | gamma alpha beta =>
    obtain ⟨ha, hb⟩ := h
    refine ⟨_, rfl, ⟨[("shape", alpha), ("scale", 1 / beta)], ?_, ?_⟩, ⟨_, rfl, rfl, rfl⟩,
      ⟨_, rfl, rfl, ?_⟩⟩
    · exact gamma_numpy hb.ne'
    · exact congrArg some (numpyGamma_eq hb)
    · exact congrArg some (pyroGamma_eq ha hb)
  | uniform start stop =>
    exact ⟨_, rfl, ⟨_, rfl, rfl⟩, ⟨_, rfl, rfl, rfl⟩, ⟨_, rfl, rfl, rfl⟩⟩

/-- A gamma variable with rate 4: numpy receives scale 1/4. -/
example : ValidDist (Dist.gamma (2 : ℝ) 4) ∧
    (Dist.gamma (2 : ℝ) 4).getDistParams "numpy" = .ok [("shape", 2), ("scale", 1 / 4)] := by
  exact ⟨⟨by norm_num, by norm_num⟩, gamma_numpy (by norm_num)⟩

end

end Gerabaldi.Props
