import Verif.Model.Report

/-!
# `format_measurements` on lists and arrays of any number of dimensions (`gerabaldi/models/reports.py`)

`Model/Report` has the three dimensional arrays of the simulation; the method is public and accepts more.
-/

namespace Gerabaldi

/-- A number, or lists in lists. An array or a series is the lists of its entries. -/
inductive Nested (V : Type)
  | leaf (v : V)
  | list (xs : List (Nested V))

variable {V : Type}

mutual
/-- `np.array(measured_vals)`, `gerabaldi/models/reports.py:120`: the shape and the entries in order. Numpy from 1.24
raises `ValueError` if the inner lists have different shapes. The largest number of dimensions (32) is not modelled. -/
def Nested.array : Nested V → Except Err (List Nat × List V)
  | .leaf v => .ok ([], [v])
  | .list xs => match Nested.arrays xs with
    | .error e => .error e
    | .ok [] => .ok ([0], [])
    | .ok (a :: as) =>
      if as.all fun b => b.1 == a.1 then .ok ((as.length + 1) :: a.1, a.2 ++ as.flatMap (·.2))
      else .error .valueError

/-- The inner lists one after the other. -/
def Nested.arrays : List (Nested V) → Except Err (List (List Nat × List V))
  | [] => .ok []
  | x :: xs => match Nested.array x with
    | .error e => .error e
    | .ok a => match Nested.arrays xs with
      | .error e => .error e
      | .ok as => .ok (a :: as)
end

/-- Lots, chips and devices of a shape, `gerabaldi/models/reports.py:121-126`; a number has no `shape[0]`. -/
def shapeCounts : List Nat → Except Err (Nat × Nat × Nat)
  | [L, C, D] => .ok (L, C, D)
  | [C, D] => .ok (1, C, D)
  | [] => .error .indexError
  | D :: _ => .ok (1, 1, D)

/-- `format_measurements`, `gerabaldi/models/reports.py:119-146`. `reshape` raises `ValueError` if the number of entries
differs. -/
def formatNested (x : Nested V) (prm : String) (time : TimeVal) (step : Nat) (t : PrmType) :
    Except Err (List (MeasRow V)) :=
  match x.array with
  | .error e => .error e
  | .ok (shape, data) => match shapeCounts shape with
    | .error e => .error e
    | .ok (L, C, D) =>
      if data.length = D * C * L then
        .ok (List.zipWith (fun ix v => ⟨prm, step, ix.1, ix.2.1, ix.2.2, time, v⟩) (indexCols t L C D) data)
      else .error .valueError

end Gerabaldi
