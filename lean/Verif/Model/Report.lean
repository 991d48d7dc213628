import Verif.Model.Helpers
import Verif.Model.Time
import Verif.Model.TestSpec

/-!
# Model of `SimReport` (`gerabaldi/models/reports.py`)

Tables are lists of rows. Column order, dtypes and the row index of pandas are not modelled.
-/

namespace Gerabaldi

/-- One row of the measurement table, `gerabaldi/models/reports.py:136-146`. -/
structure MeasRow (V : Type) where
  prm : String
  step : Nat
  dev : Option Nat
  chp : Option Nat
  lot : Option Nat
  time : TimeVal
  measured : V
  deriving DecidableEq, Repr

/-- A cell of the test summary. -/
inductive Cell (V : Type)
  | str (s : String)
  | nat (n : Nat)
  | time (t : TimeVal)
  | val (v : V)
  deriving DecidableEq, Repr

/-- A row of the test summary: a missing column is NaN in pandas. -/
abbrev SumRow (V : Type) := Dict (Cell V)

/-- A `SimReport` made from a test specification, `gerabaldi/models/reports.py:56-65`. -/
structure SimReport (V : Type) where
  name : String
  description : String
  devCounts : Dict Nat
  numChps : Nat
  numLots : Nat
  measurements : List (MeasRow V) := []
  summary : List (SumRow V) := []
  timeUnit : Option String := none
  deriving DecidableEq

/-- `SimReport(test_spec)`, `gerabaldi/models/reports.py:56-65`. -/
def SimReport.ofTest {V : Type} (t : TestSpec V) : SimReport V :=
  { name := t.name, description := t.description, devCounts := calcSamplesNeeded t.steps,
    numChps := t.numChps, numLots := t.numLots }

/-- `np.tile(xs, n)`. -/
def tile {α : Type} (xs : List α) (n : Nat) : List α := (List.replicate n xs).flatten

/-- `np.repeat(xs, n)`. -/
def repeatEach {α : Type} (xs : List α) (n : Nat) : List α := xs.flatMap fun x => List.replicate n x

/-- 'parameter' or 'condition', `gerabaldi/models/reports.py:97`. -/
inductive PrmType
  | parameter
  | condition
  deriving DecidableEq, Repr

section
variable {V : Type}

/-- The index columns, `gerabaldi/models/reports.py:131-134`, for an `L`x`C`x`D` array. -/
def indexCols (t : PrmType) (L C D : Nat) : List (Option Nat × Option Nat × Option Nat) :=
  match t with
  | .condition => List.replicate (D * C * L) (none, none, none)
  | .parameter =>
    let devNum := tile (List.range D) (C * L)
    let chpNum := tile (repeatEach (List.range C) D) L
    let lotNum := repeatEach (List.range L) (D * C)
    List.zipWith (fun d cl => (some d, some cl.1, some cl.2)) devNum (List.zip chpNum lotNum)

/-- `format_measurements` on a three dimensional array, `gerabaldi/models/reports.py:119-146`. -/
def formatArr (a : Arr3 V) (prm : String) (time : TimeVal) (step : Nat) (t : PrmType) :
    List (MeasRow V) :=
  List.zipWith (fun ix v => ⟨prm, step, ix.1, ix.2.1, ix.2.2, time, v⟩)
    (indexCols t a.nl a.nc a.nd) a.data

/-- `format_measurements`; a scalar has no shape: `measd.shape[0]` raises `IndexError`. Lists and arrays
of one or two dimensions do not occur in the simulation. -/
def formatMeasurements (v : PyVal V) (prm : String) (time : TimeVal) (step : Nat) (t : PrmType) :
    Except Err (List (MeasRow V)) :=
  match v with
  | .arr a => .ok (formatArr a prm time step t)
  | _ => .error .indexError

/-- `add_measurements`, `gerabaldi/models/reports.py:148-157`. -/
def SimReport.addMeasurements (r : SimReport V) (rows : List (MeasRow V)) : SimReport V :=
  { r with measurements := r.measurements ++ rows }

/-- `add_summary_report`, `gerabaldi/models/reports.py:159-168`. -/
def SimReport.addSummary (r : SimReport V) (row : SumRow V) : SimReport V :=
  { r with summary := r.summary ++ [row] }

end

end Gerabaldi
