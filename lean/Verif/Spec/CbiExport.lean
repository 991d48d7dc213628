import Verif.Spec.RandomVars
import Verif.Spec.Latent
import Mathlib.MeasureTheory.Measure.WithDensity
import Mathlib.MeasureTheory.Measure.Prod
import Mathlib.MeasureTheory.Constructions.BorelSpace.Real

/-!
# The probability laws of sampled and of exported latent variables
-/

namespace Gerabaldi.Spec
open MeasureTheory

noncomputable section

/-- The law with a given density. -/
def pdfLaw (f : ℝ → ℝ) : Measure ℝ := volume.withDensity fun x => ENNReal.ofReal (f x)

/-- The law of the product (or sum) of two independent numbers. -/
def opLaw (scaling : Bool) (a b : Measure ℝ) : Measure ℝ :=
  (a.prod b).map fun p => if scaling then p.1 * p.2 else p.1 + p.2

/-- Combine a law with the law of an optional layer; `none` if the layer has no density. -/
def layerLaw (scaling : Bool) (m : Measure ℝ) : Option (Dist ℝ) → Option (Measure ℝ)
  | none => some m
  | some d => (intendedPdf d).map fun f => opLaw scaling m (pdfLaw f)

/-- The law of one sampled value of a latent variable: base value, device draw, chip draw, lot draw. -/
def sampledLaw (scaling : Bool) (base : Option ℝ) (dev : Dist ℝ) (chp lot : Option (Dist ℝ)) :
    Option (Measure ℝ) := do
  let f ← intendedPdf dev
  let m : Measure ℝ := match base with
    | none => pdfLaw f
    | some v => (pdfLaw f).map fun x => if scaling then v * x else v + x
  let m ← layerLaw scaling m chp
  layerLaw scaling m lot

/-- The law of what was exported: a first distribution combined with further ones, each described by
framework, class name and parameters. -/
def exportedLaw (scaling : Bool) : List (String × String × Dict ℝ) → Option (Measure ℝ)
  | [] => none
  | (lib, cls, ps) :: rest => do
    let f ← libPdf lib cls ps
    rest.foldlM (fun m l => (libPdf l.1 l.2.1 l.2.2).map fun g => opLaw scaling m (pdfLaw g)) (pdfLaw f)

end

end Gerabaldi.Spec
