import Verif.Spec.Rows

/-!
# The layout of the measurement table (C69)
-/

namespace Gerabaldi.Spec

variable {V : Type}

/-- The rows of one step in a table: those of the names it measures, in the order of its specification. -/
def stepTable (rows : List (MeasRow V)) (i : Nat) : Step V → List (MeasRow V)
  | .meas m => m.measurements.keys.flatMap (rowsAt rows i)
  | _ => []

/-- The rows of consecutive steps, numbered from `i` on. -/
def stepTables (rows : List (MeasRow V)) : Nat → List (Step V) → List (MeasRow V)
  | _, [] => []
  | i, st :: rest => stepTable rows i st ++ stepTables rows (i + 1) rest

end Gerabaldi.Spec
