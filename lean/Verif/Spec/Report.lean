import Verif.Model.Report

/-!
# Specification vocabulary for reports
-/

namespace Gerabaldi.Spec

variable {V : Type} [Inhabited V]

/-- The rows a measurement of an `L x C x D` array should give, lot by lot, chip by chip, device by
device. -/
def expectedRows (L C D : Nat) (val : Nat → Nat → Nat → V) (prm : String) (time : TimeVal)
    (step : Nat) : List (MeasRow V) :=
  (List.range L).flatMap fun l => (List.range C).flatMap fun c => (List.range D).map fun d =>
    ⟨prm, step, some d, some c, some l, time, val l c d⟩

/-- The rows a reading of a condition should give: no device, chip or lot. -/
def conditionRows (vals : List V) (prm : String) (time : TimeVal) (step : Nat) : List (MeasRow V) :=
  vals.map fun v => ⟨prm, step, none, none, none, time, v⟩

/-- The row is labelled with lot `l`, chip `c`, device `d`. -/
def MeasRow.labelled (r : MeasRow V) (l c d : Nat) : Bool :=
  r.lot == some l && r.chp == some c && r.dev == some d

end Gerabaldi.Spec
