import Verif.Spec.Helpers
import Verif.Model.Report
import Verif.Model.Device
import Verif.Model.Env

/-!
# Specification vocabulary for measurement rows
-/

namespace Gerabaldi.Spec

variable {V : Type} [Inhabited V]

/-- Lot, chip and device of a row. -/
def place (r : MeasRow V) : Option Nat × Option Nat × Option Nat := (r.lot, r.chp, r.dev)

/-- All places of `L` lots with `C` chips with `D` devices, each once. -/
def places (L C D : Nat) : List (Option Nat × Option Nat × Option Nat) :=
  (List.range L).flatMap fun l => (List.range C).flatMap fun c => (List.range D).map fun d =>
    (some l, some c, some d)

/-- The rows of one parameter. -/
def rowsOf (rows : List (MeasRow V)) (prm : String) : List (MeasRow V) :=
  rows.filter fun r => r.prm == prm

/-- An equation that handles arrays of one shape sample by sample: its results have that shape, and it
returns an array if it is given one. `N` restricts the claim to arrays of certain sizes, `A` to certain
arguments. -/
def ShapeSafe {W : Type} (f : PyFun W V) (N : Nat → Prop := fun _ => True)
    (A : Dict (PyVal V) → Prop := fun _ => True) : Prop :=
  ∀ (args : Dict (PyVal V)) L C D (w w' : W) v, N (L * C * D) → A args → uniformShape args L C D →
    f.invoke args w = (.ok v, w') →
    (∀ a, v = .arr a → a.HasDims L C D) ∧
      ((∃ k a, args.get? k = some (PyVal.arr a)) → ∃ a, v = .arr a)

/-- The arrays of all parameters have a size in `N`. -/
def SizesIn (N : Nat → Prop) (q : Quantities) : Prop :=
  ∀ p n, q.devCounts.get? p = some n → N (q.numLots * q.numChps * n)

/-- The samples the step asks for of degraded parameters are arrays of a size in `N`. -/
def MeasSizes {W : Type} (dev : DeviceMdl W V) (N : Nat → Prop) (q : Quantities) (step : MeasSpec V) : Prop :=
  ∀ p d n, (p, n) ∈ step.measurements → dev.prms.get? p = some (.deg d) → N (q.numLots * q.numChps * n)

/-- The rows of one parameter that belong to one step. -/
def rowsAt (rows : List (MeasRow V)) (step : Nat) (prm : String) : List (MeasRow V) :=
  rows.filter fun r => r.step == step && r.prm == prm

/-- All arguments are arrays, except possibly the conditional shift and the mechanism values. -/
def OwnArrays {W : Type} (d : DegPrmMdl W V) (args : Dict (PyVal V)) : Prop :=
  ∀ k v, args.get? k = some v → k ≠ "cond" → k ∉ d.mechs.keys → ∃ a, v = .arr a

/-- The equations of a degraded parameter handle arrays sample by sample, its initial value depends on a
latent variable (as the default model does), and no mechanism is called "init". -/
structure DegShapes {W : Type} (d : DegPrmMdl W V) (N : Nat → Prop := fun _ => True) : Prop where
  init : ShapeSafe d.initMdl.compute N
  noInit : "init" ∉ d.mechs.keys
  initLatents : d.initMdl.latentVars ≠ []
  cond : ShapeSafe d.condMdl.compute N
  mechs : ∀ k m, (k, m) ∈ d.mechs → ShapeSafe m.mdl.compute N
  eqn : ShapeSafe d.mdl.compute N (OwnArrays d)

end Gerabaldi.Spec
