import Verif.Model.ReportFile
import Verif.Model.Sim

/-!
# `SimReport` objects however they are made (`gerabaldi/models/reports.py:43-90`)

`Model/Report` has the report of a test, `Model/ReportIO` the loaded one. Here is the constructor with all its arguments,
and which attributes the object has.
-/

namespace Gerabaldi

/-- An attribute of an object: never assigned (reading it raises `AttributeError`), `None`, or a value. -/
inductive Attr (α : Type)
  | unset
  | isNone
  | val (a : α)
  deriving DecidableEq

/-- A `SimReport`, `gerabaldi/models/reports.py:21-41`. Tables are `none` if they are `None`. -/
structure ReportObj (V : Type) where
  name : Option String
  description : Option String
  devCounts : Attr (Dict Nat)
  numChps : Attr Nat
  numLots : Attr Nat
  measurements : Option (List (MeasRow V))
  summary : Option (List (SumRow V))
  timeUnit : Option String
  deriving DecidableEq

variable {V : Type}

/-- `x if x else y`: an empty string counts as not given. -/
def orElseName (x : Option String) (y : String) : String :=
  match x with
  | some s => if s = "" then y else s
  | none => y

/-- `SimReport(test_spec, name, description, file)`, `gerabaldi/models/reports.py:43-90`. The file name `''` is the list
`[""]`, which counts as not given. -/
def newReport (d : Disk V) (test : Option (TestSpec V)) (name description : Option String)
    (file : Option (List String)) : Except FileErr (ReportObj V) :=
  match test with
  | some t => .ok
      { name := some (orElseName name t.name), description := some (orElseName description t.description),
        devCounts := .val (calcSamplesNeeded t.steps), numChps := .val t.numChps, numLots := .val t.numLots,
        measurements := some [], summary := some [], timeUnit := none }
  | none =>
    let empty : ReportObj V :=
      { name := name, description := description, devCounts := .isNone, numChps := .isNone, numLots := .isNone,
        measurements := none, summary := none, timeUnit := none }
    match file with
    | none => .ok empty
    | some f =>
      if f = [""] then .ok empty
      else match d.load f with
        | .error e => .error e
        | .ok r => .ok
            { name := some r.name, description := some r.description, devCounts := .unset, numChps := .unset,
              numLots := .unset, measurements := some r.measurements, summary := some r.summary,
              timeUnit := r.timeUnit }

/-- `add_measurements`, `gerabaldi/models/reports.py:148-157`; `pd.concat` leaves out `None`. -/
def ReportObj.addMeasurements (o : ReportObj V) (rows : List (MeasRow V)) : ReportObj V :=
  { o with measurements := some (o.measurements.getD [] ++ rows) }

/-- `add_summary_report`, `gerabaldi/models/reports.py:159-168`. -/
def ReportObj.addSummary (o : ReportObj V) (rows : List (SumRow V)) : ReportObj V :=
  { o with summary := some (o.summary.getD [] ++ rows) }

/-- `gen_init_state(dev_mdl, quantity_info=report)`, `gerabaldi/sim.py:54-86`: the state and the counts of the report
afterwards. Reading an attribute that was never assigned and `None.copy()` both raise `AttributeError`. -/
def genInitOf {W : Type} [PyNum V] [Rng W V] (dev : DeviceMdl W V) (o : ReportObj V) (elapsed : TimeVal) :
    M W (InitResult V) :=
  match o.devCounts, o.numChps, o.numLots with
  | .val n, .val c, .val l => genInitState dev none 1 1 (some ⟨n, c, l⟩) elapsed
  | _, _, _ => M.throw .attributeError

end Gerabaldi
