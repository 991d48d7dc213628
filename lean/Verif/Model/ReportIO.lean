import Verif.Model.Report
import Verif.Model.Instrument

/-!
# Model of export, load and time conversion of reports (`gerabaldi/models/reports.py`)

`json.dump`/`json.load` and pandas' `to_json`/`read_json` are modelled as giving back the same table,
apart from what `JsonEnc` does to the numbers. Row order, column types and the conversion of strings that
look like numbers or dates by `read_json` are not modelled, nor is the range of pandas' `timedelta64`.
-/

namespace Gerabaldi

/-- The attributes of a report that export, load and conversion use. -/
structure ReportData (V : Type) where
  name : String
  description : String
  measurements : List (MeasRow V)
  summary : List (SumRow V)
  timeUnit : Option String
  deriving DecidableEq

/-- The attributes of a simulated report. -/
def SimReport.data {V : Type} (r : SimReport V) : ReportData V :=
  ⟨r.name, r.description, r.measurements, r.summary, r.timeUnit⟩

/-- How `to_json` (with its default `double_precision=10`) writes numbers: times and other values. -/
structure JsonEnc (V : Type) where
  num : ℚ → ℚ
  val : V → V

/-- The exported JSON document, `gerabaldi/models/reports.py:186-210`. -/
structure ReportJson (V : Type) where
  testName : String
  description : String
  timeUnits : String
  measurements : List (MeasRow V)
  summary : List (SumRow V)
  deriving DecidableEq

/-- The canonical unit names, the values of `TIME_UNIT_MAP`, `gerabaldi/helpers.py:97-109`. -/
def TUnit.name : TUnit → String
  | .days => "days"
  | .hours => "hours"
  | .seconds => "seconds"
  | .milliseconds => "milliseconds"
  | .microseconds => "microseconds"

section
variable {V : Type}

/-- `df['time'].apply(_convert_time, units=units, axis=1)` on the measurements: an empty table has no
columns (`KeyError`). -/
def convertMeas (units : Option String) (rows : List (MeasRow V)) : Except Err (List (MeasRow V)) :=
  if rows = [] then .error .keyError
  else mapExcept (fun r => match convertTime r.time units with
    | .ok t => .ok { r with time := t }
    | .error e => .error e) rows

/-- One cell of a time column of the summary. `none` is pandas' NaN, which `timedelta` rejects. Other
cells (from a condition called like the column) are not modelled. -/
def convertCell (units : Option String) (key : String) (row : SumRow V) : Except Err (SumRow V) :=
  match row.get? key with
  | some (.time t) => match convertTime t units with
    | .ok t' => .ok (row.set key (.time t'))
    | .error e => .error e
  | some _ => .error .unmodelled
  | none => .error .valueError

/-- One time column of the summary. -/
def convertCol (units : Option String) (key : String) (rows : List (SumRow V)) :
    Except Err (List (SumRow V)) :=
  if rows = [] then .error .keyError else mapExcept (convertCell units key) rows

/-- How `to_json` writes a time: numbers as numbers, timedeltas as whole milliseconds
(`date_format='epoch'`, `date_unit='ms'`). -/
def JsonEnc.time (enc : JsonEnc V) : TimeVal → TimeVal
  | .num q => .num (enc.num q)
  | .td us => .num ((us / 1000 : Int) : ℚ)
  | .pdtd us => .num ((us / 1000 : Int) : ℚ)

/-- A measurement row in JSON. -/
def JsonEnc.row (enc : JsonEnc V) (r : MeasRow V) : MeasRow V :=
  { r with time := enc.time r.time, measured := enc.val r.measured }

/-- A summary cell in JSON. -/
def JsonEnc.cell (enc : JsonEnc V) : Cell V → Cell V
  | .time t => .time (enc.time t)
  | .val v => .val (enc.val v)
  | .str s => .str s
  | .nat n => .nat n

/-- A summary row in JSON. -/
def JsonEnc.sumRow (enc : JsonEnc V) (r : SumRow V) : SumRow V := r.map fun kv => (kv.1, enc.cell kv.2)

/-- The unit of an export, `gerabaldi/models/reports.py:187-201`. -/
def exportUnits (own given : Option String) : Except Err String :=
  match given with
  | none => .ok (own.getD "hours")
  | some t => match timeUnitMap (some t) with
    | some u => .ok u.name
    | none => .error .userConfig

/-- The three time columns in the order of an export, `gerabaldi/models/reports.py:206-209`. -/
def exportSummary (units : Option String) (rows : List (SumRow V)) : Except Err (List (SumRow V)) :=
  match convertCol units "duration" rows with
  | .error e => .error e
  | .ok r1 => match convertCol units "start time" r1 with
    | .error e => .error e
    | .ok r2 => convertCol units "end time" r2

/-- `export_to_json`, `gerabaldi/models/reports.py:170-219`, without the writing of the file. -/
def ReportData.exportJson (enc : JsonEnc V) (r : ReportData V) (given : Option String) :
    Except Err (ReportJson V) :=
  match exportUnits r.timeUnit given with
  | .error e => .error e
  | .ok units => match convertMeas (some units) r.measurements with
    | .error e => .error e
    | .ok ms => match exportSummary (some units) r.summary with
      | .error e => .error e
      | .ok ss => .ok ⟨r.name, r.description, units, ms.map enc.row, ss.map enc.sumRow⟩

/-- The three time columns in the order of loading, `gerabaldi/models/reports.py:82-84`. -/
def loadSummary (units : Option String) (rows : List (SumRow V)) : Except Err (List (SumRow V)) :=
  match convertCol units "start time" rows with
  | .error e => .error e
  | .ok r1 => match convertCol units "end time" r1 with
    | .error e => .error e
    | .ok r2 => convertCol units "duration" r2

/-- `SimReport(file=...)`, `gerabaldi/models/reports.py:66-84`. -/
def loadReport (j : ReportJson V) : Except Err (ReportData V) :=
  let units := j.timeUnits.toLower
  match convertMeas (some units) j.measurements with
  | .error e => .error e
  | .ok ms => match loadSummary (some units) j.summary with
    | .error e => .error e
    | .ok ss => .ok ⟨j.testName, j.description, ms, ss, some units⟩

/-- `convert_report_time`, `gerabaldi/models/reports.py:221-230`: the result, and the report afterwards
(also when an exception is raised). -/
def ReportData.convertReportTime (r : ReportData V) (given : Option String) :
    Except Err Unit × ReportData V :=
  let units := given.getD "hours"
  let r1 := { r with timeUnit := some units }
  match convertMeas (some units) r.measurements with
  | .ok ms => (.ok (), { r1 with measurements := ms })
  | .error e => (.error e, r1)

end

end Gerabaldi
