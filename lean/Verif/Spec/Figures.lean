import Verif.Spec.Layout
import Verif.Model.Ext
import Mathlib.Order.Bounds.Basic

/-!
# The points of a figure, from the table of the readings and the steps of the test (C100)
-/

namespace Gerabaldi.Spec

variable {V : Type}

/-- Number and time of the measurements among consecutive steps, numbered from `i` on, the first one at time `t`. -/
def measPoints : Nat → ℚ → List (Step V) → List (Nat × ℚ)
  | _, _, [] => []
  | i, t, .meas _ :: rest => (i, t) :: measPoints (i + 1) t rest
  | i, t, .strs s :: rest => measPoints (i + 1) (t + timeVal s.duration) rest
  | i, t, .other _ :: rest => measPoints (i + 1) t rest

/-- The value a table gives for one device in one step, if it has exactly one row for them. -/
def readingAt (rows : List (MeasRow V)) (i : Nat) (prm : String) (l c d : Nat) : Option V :=
  match rows.filter fun x => x.step == i && x.prm == prm && place x == (some l, some c, some d) with
  | [x] => some x.measured
  | _ => none

/-- The curve of one device: for each measurement of the test its time, in units of `unit` microseconds, and the value
the table gives for the device. -/
def deviceCurve (rows : List (MeasRow V)) (steps : List (Step V)) (unit : ℚ) (prm : String) (l c d : Nat) :
    List (ℚ × Option V) :=
  (measPoints 0 0 steps).map fun it => (it.2 / unit, readingAt rows it.1 prm l c d)

/-- The plotted points are this curve. -/
def Plots (pts : List (TimeVal × V)) (curve : List (ℚ × Option V)) : Prop :=
  pts.map (fun q => (q.1, some q.2)) = curve.map fun q => (.num q.1, q.2)

/-- The table has one row per measurement, lot, chip and device, in this order, and no others. -/
def OneName (rows : List (MeasRow V)) (steps : List (Step V)) (prm : String) (L C n : Nat) : Prop :=
  rows.map entry = (measPoints 0 0 steps).flatMap fun it => (places L C n).map fun pl => (it.1, prm, pl, it.2)

/-- An average curve with a band: at every measurement the mean of the readings of the devices `ks` (lot, chip, device),
their largest value (or -1000, if that is larger) and their smallest value (or 1000, if that is smaller). -/
structure Band {K : Type} [Field K] [LinearOrder K] (rows : List (MeasRow (Ext K))) (steps : List (Step (Ext K)))
    (prm : String) (ks : List (Nat × Nat × Nat)) (avg max min : List (Ext K)) : Prop where
  sizes : avg.length = (measPoints 0 0 steps).length ∧ max.length = (measPoints 0 0 steps).length ∧
    min.length = (measPoints 0 0 steps).length
  points : ∀ (j : Nat) (it : Nat × ℚ), (measPoints 0 0 steps)[j]? = some it → ∃ x : Nat × Nat × Nat → K,
    (∀ k ∈ ks, readingAt rows it.1 prm k.1 k.2.1 k.2.2 = some (.fin (x k))) ∧
    avg[j]? = some (.fin ((ks.map x).sum / (ks.length : K))) ∧
    (∃ m, max[j]? = some (.fin m) ∧ IsGreatest (insert (-1000) {y | ∃ k ∈ ks, y = x k}) m) ∧
    ∃ m, min[j]? = some (.fin m) ∧ IsLeast (insert 1000 {y | ∃ k ∈ ks, y = x k}) m

/-- When a device fails, going by its curve: it reads 1 up to that time, and 0 then. Without a time: it reads 1 in every
measurement. -/
def FailsAt {K : Type} [Field K] (curve : List (ℚ × Option (Ext K))) : Option ℚ → Prop
  | some t => ∃ pre post, curve = pre ++ (t, some (.fin 0)) :: post ∧ ∀ q ∈ pre, q.2 = some (.fin 1)
  | none => ∀ q ∈ curve, q.2 = some (.fin 1)

end Gerabaldi.Spec
