import Verif.Model.Latent
import Verif.Model.Ext
import Verif.Spec.CbiExport
import Mathlib.Probability.Distributions.Gaussian.Real
import Mathlib.Probability.Moments.Covariance
import Mathlib.Tactic.DeriveFintype

/-!
# Ideal random generators

Every generator has an endless tape of independent standard random numbers and turns one of them into each
number it is asked for.
-/

namespace Gerabaldi.Spec
open Gerabaldi MeasureTheory ProbabilityTheory

/-- How the methods of numpy's generators make a number from a standard random number, for their two
parameters: `normal(loc, scale)`, `gamma(shape, scale)`, `uniform(low, high)`. -/
structure Numpy where
  normal : ℝ → ℝ → ℝ → ℝ
  gamma : ℝ → ℝ → ℝ → ℝ
  uniform : ℝ → ℝ → ℝ → ℝ

/-- The number made by the method with the given name and keyword parameters. -/
def Numpy.number (N : Numpy) (method : String) (ps : Dict (Ext ℝ)) (u : ℝ) : Ext ℝ :=
  if method = "normal" then
    match ps.get? "loc", ps.get? "scale" with
    | some (.fin a), some (.fin b) => .fin (N.normal a b u)
    | _, _ => .nan
  else if method = "gamma" then
    match ps.get? "shape", ps.get? "scale" with
    | some (.fin a), some (.fin b) => .fin (N.gamma a b u)
    | _, _ => .nan
  else if method = "uniform" then
    match ps.get? "low", ps.get? "high" with
    | some (.fin a), some (.fin b) => .fin (N.uniform a b u)
    | _, _ => .nan
  else .nan

/-- The tapes, and the place on each that comes next. -/
structure Tapes (N : Numpy) where
  tape : Nat → Nat → ℝ
  next : Nat → Nat

/-- The generators. -/
noncomputable instance (N : Numpy) : Rng (Tapes N) (Ext ℝ) where
  draw := fun id method ps n w =>
    (.ok ((List.range n).map fun i => N.number method ps (w.tape id (w.next id + i))),
      ⟨w.tape, fun j => if j = id then w.next id + n else w.next j⟩)

/-- How a distribution with finite parameters makes its values from standard random numbers. -/
noncomputable def Numpy.value (N : Numpy) : Dist (Ext ℝ) → Option (ℝ → ℝ)
  | .deterministic (.fin a) => some fun _ => a
  | .normal (.fin mu) (.fin sigma) => some (N.normal mu sigma)
  | .gamma (.fin alpha) (.fin beta) => if beta = 0 then none else some (N.gamma alpha (1 / beta))
  | .uniform (.fin start) (.fin stop) => some (N.uniform start stop)
  | _ => none

/-- Standard random numbers with the distribution `P₀` become normally distributed numbers by the method
`normal`; the methods are measurable. -/
structure Numpy.Correct (N : Numpy) (P₀ : Measure ℝ) : Prop where
  normal : ∀ a b, Measurable (N.normal a b)
  gamma : ∀ a b, Measurable (N.gamma a b)
  uniform : ∀ a b, Measurable (N.uniform a b)
  gaussian : ∀ (mu : ℝ) (sigma : NNReal), P₀.map (N.normal mu sigma) = gaussianReal mu (sigma ^ 2)

/-- All numbers on the tapes are independent and have the distribution `P₀`. -/
structure Standard {Ω : Type} [MeasurableSpace Ω] (P : Measure Ω) (P₀ : Measure ℝ) (raw : Nat → Nat → Ω → ℝ) :
    Prop where
  indep : iIndepFun (fun p : Nat × Nat => raw p.1 p.2) P
  meas : ∀ i j, Measurable (raw i j)
  law : ∀ i j, P.map (raw i j) = P₀

/-- What varies: lots, chips and devices. -/
inductive Part (L C D : Nat)
  | lot (l : Fin L)
  | chp (l : Fin L) (c : Fin C)
  | dev (l : Fin L) (c : Fin C) (d : Fin D)
  deriving DecidableEq, Fintype

/-- The value of a device from a base value and what its lot, its chip and the device itself contribute. -/
def layeredValue {L C D : Nat} (t : VType) (base : Option ℝ) (x : Part L C D → ℝ) (l : Fin L) (c : Fin C)
    (d : Fin D) : ℝ :=
  match t with
  | .offset => base.getD 0 + x (.dev l c d) + x (.chp l c) + x (.lot l)
  | .scaling => base.getD 1 * x (.dev l c d) * x (.chp l c) * x (.lot l)

/-- The contribution of a part: lots by `fl`, chips by `fc`, devices by `fd`. -/
def layerOfPart {L C D : Nat} (fl fc fd : ℝ → ℝ) : Part L C D → ℝ → ℝ
  | .lot _ => fl
  | .chp _ _ => fc
  | .dev _ _ _ => fd

/-- A layer with normal variation, perhaps none at all. -/
def NormalLayer (r : RVar (Ext ℝ)) (mu : ℝ) (sigma : NNReal) : Prop :=
  r.dist = .normal (.fin mu) (.fin sigma) ∨ (r.dist = .deterministic (.fin mu) ∧ sigma = 0)

/-- A distribution with the given finite parameters. -/
def finiteDist : Dist ℝ → Dist (Ext ℝ)
  | .deterministic v => .deterministic (.fin v)
  | .normal mu sigma => .normal (.fin mu) (.fin sigma)
  | .gamma alpha beta => .gamma (.fin alpha) (.fin beta)
  | .uniform start stop => .uniform (.fin start) (.fin stop)

/-- Numpy makes numbers with the density of the distribution from standard random numbers. -/
def Numpy.Samples (N : Numpy) (P₀ : Measure ℝ) (d : Dist ℝ) : Prop :=
  ∃ f g, N.value (finiteDist d) = some f ∧ intendedPdf d = some g ∧ P₀.map f = pdfLaw g

/-- The number that changes nothing. -/
def neutralOf : VType → ℝ
  | .offset => 0
  | .scaling => 1

/-- A layer with the given distribution, or one that has no variation and contributes nothing. -/
def OptLayer (N : Numpy) (P₀ : Measure ℝ) (t : VType) (r : RVar (Ext ℝ)) : Option (Dist ℝ) → Prop
  | some d => r.dist = finiteDist d ∧ N.Samples P₀ d
  | none => r.dist = .deterministic (.fin (neutralOf t))

/-- `Y l c d` is the value that `gen_latent_vals` gives the device `d` of the chip `c` of the lot `l`. -/
def RandomValues (N : Numpy) {Ω : Type} (raw : Nat → Nat → Ω → ℝ) (lv : LatentVar (Ext ℝ)) (next : Nat → Nat)
    {L C D : Nat} (Y : Fin L → Fin C → Fin D → Ω → ℝ) : Prop :=
  ∀ ω, ∃ r w', lv.genLatentVals D C L (⟨fun i j => raw i j ω, next⟩ : Tapes N) = (.ok r, w') ∧
    r.nl = L ∧ r.nc = C ∧ r.nd = D ∧ ∀ (l : Fin L) (c : Fin C) (d : Fin D), r.at' l c d = .fin (Y l c d ω)

end Gerabaldi.Spec
