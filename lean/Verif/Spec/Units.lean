import Verif.Model.Build

/-!
# Specification of time unit precedence
-/

namespace Gerabaldi.Spec

/-- A unit that was given: not `None`, and for parameters not the empty string. -/
def given (u : Option String) : Option String := u.filter (· ≠ "")

/-- The unit of a mechanism from its own, its parameter's and the device's. -/
def unitSpec (own prm dev : Option String) : String :=
  match own with
  | some u => u
  | none => match given prm with
    | some u => u
    | none => match dev with
      | some u => u
      | none => "h"

/-- `m` is a degradation or failure mechanism of parameter `p` of the device. -/
def HasMech {W V : Type} (dev : DeviceMdl W V) (p : DegPrmMdl W V) (m : MechMdl W V) : Prop :=
  (∃ prm, (prm, PrmMdl.deg p) ∈ dev.prms) ∧ (∃ mech, (mech, m) ∈ p.mechs) ∧ m.kind ≠ .base

end Gerabaldi.Spec
