import Verif.Model.RandomVars
import Mathlib.MeasureTheory.Integral.Gamma

/-!
# Documented densities of numpy, PyMC and Pyro distributions

Taken from the documentation of the three libraries, by class (method) name and keyword parameters.
Endpoint conventions of the uniform distribution differ between the libraries on a set of measure
zero; the densities here are zero outside the open interval.
-/

namespace Gerabaldi.Spec
open Real

/-- numpy `Generator.normal(loc, scale)`:
`1/sqrt(2 pi s^2) exp(-(x-m)^2/(2 s^2))`. -/
noncomputable def numpyNormal (m s x : ℝ) : ℝ := 1 / √(2 * π * s ^ 2) * exp (-(x - m) ^ 2 / (2 * s ^ 2))

/-- numpy `Generator.gamma(shape, scale)`: `x^(k-1) exp(-x/θ) / (θ^k Γ(k))` for `x > 0`. -/
noncomputable def numpyGamma (k θ x : ℝ) : ℝ :=
  if 0 < x then x ^ (k - 1) * (exp (-x / θ) / (θ ^ k * Gamma k)) else 0

/-- Uniform density on an interval, all three libraries: `1/(b-a)`. -/
noncomputable def uniformPdf (a b x : ℝ) : ℝ := if a < x ∧ x < b then 1 / (b - a) else 0

/-- PyMC `Normal(mu, sigma)`: `sqrt(τ/(2π)) exp(-τ/2 (x-μ)^2)` with `τ = 1/σ^2`. -/
noncomputable def pymcNormal (mu sigma x : ℝ) : ℝ :=
  √((1 / sigma ^ 2) / (2 * π)) * exp (-(1 / sigma ^ 2) / 2 * (x - mu) ^ 2)

/-- PyMC `Gamma(alpha, beta)`: `β^α x^(α-1) exp(-βx) / Γ(α)` for `x > 0`. -/
noncomputable def pymcGamma (alpha beta x : ℝ) : ℝ :=
  if 0 < x then beta ^ alpha * x ^ (alpha - 1) * exp (-beta * x) / Gamma alpha else 0

/-- Pyro (torch) `Normal(loc, scale)`, exponential of
`-(x-loc)^2/(2 scale^2) - log(scale) - log(sqrt(2π))`. -/
noncomputable def pyroNormal (loc scale x : ℝ) : ℝ :=
  exp (-(x - loc) ^ 2 / (2 * scale ^ 2) - log scale - log (√(2 * π)))

/-- Pyro (torch) `Gamma(concentration, rate)`, exponential of
`concentration log(rate) + (concentration-1) log(x) - rate x - log Γ(concentration)`. -/
noncomputable def pyroGamma (conc rate x : ℝ) : ℝ :=
  if 0 < x then exp (conc * log rate + (conc - 1) * log x - rate * x - log (Gamma conc)) else 0

/-- The density a library gives to a distribution named `cls` with keyword parameters `ps`; `none`
when the library has no such distribution with exactly these parameters. -/
noncomputable def libPdf (lib cls : String) (ps : Dict ℝ) : Option (ℝ → ℝ) :=
  match lib, cls, ps with
  | "numpy", "normal", [("loc", m), ("scale", s)] => some (numpyNormal m s)
  | "numpy", "gamma", [("shape", k), ("scale", θ)] => some (numpyGamma k θ)
  | "numpy", "uniform", [("low", a), ("high", b)] => some (uniformPdf a b)
  | "pymc", "Normal", [("mu", m), ("sigma", s)] => some (pymcNormal m s)
  | "pymc", "Gamma", [("alpha", a), ("beta", b)] => some (pymcGamma a b)
  | "pymc", "Uniform", [("lower", a), ("upper", b)] => some (uniformPdf a b)
  | "pyro", "Normal", [("loc", m), ("scale", s)] => some (pyroNormal m s)
  | "pyro", "Gamma", [("concentration", a), ("rate", b)] => some (pyroGamma a b)
  | "pyro", "Uniform", [("low", a), ("high", b)] => some (uniformPdf a b)
  | _, _, _ => none

/-- Density of the distribution that the user of a `Normal`, `Gamma` or `Uniform` variable asked for
(`mu`, `sigma` / shape `alpha`, rate `beta` / interval). -/
noncomputable def intendedPdf : Dist ℝ → Option (ℝ → ℝ)
  | .normal mu sigma => some (numpyNormal mu sigma)
  | .gamma alpha beta => some (pymcGamma alpha beta)
  | .uniform start stop => some (uniformPdf start stop)
  | .deterministic _ => none

/-- Parameters for which the distribution exists. -/
def ValidDist : Dist ℝ → Prop
  | .normal _ sigma => 0 < sigma
  | .gamma alpha beta => 0 < alpha ∧ 0 < beta
  | .uniform start stop => start < stop
  | .deterministic _ => False

end Gerabaldi.Spec
