import Verif.Model.ReportIO
import Verif.Spec.TestSpec

/-!
# Specification vocabulary for report export and load
-/

namespace Gerabaldi.Spec
open Gerabaldi

variable {V : Type}

/-- The time columns of a test summary. -/
def timeCols : List String := ["duration", "start time", "end time"]

/-- A summary row with timedeltas in the time columns and nowhere else. -/
structure TimedRow (row : SumRow V) : Prop where
  nodup : row.Nodup
  times : ∀ key ∈ timeCols, ∃ us, row.get? key = some (.time (.td us)) ∧ inTimedeltaRange us
  others : ∀ key ∉ timeCols, ∀ t, row.get? key ≠ some (.time t)

/-- A report as a simulation makes it: rows in both tables, timedeltas in the time columns. -/
structure Exportable (r : ReportData V) : Prop where
  meas : r.measurements ≠ []
  sum : r.summary ≠ []
  times : ∀ row ∈ r.measurements, ∃ us, row.time = .td us ∧ inTimedeltaRange us
  rows : ∀ row ∈ r.summary, TimedRow row

/-- Numbers are written with ten digits after the decimal point. -/
structure TenDigits (enc : JsonEnc V) : Prop where
  near : ∀ q, |enc.num q - q| ≤ 1 / 10000000000
  digits : ∀ q, ∃ n : Int, enc.num q = n / 10000000000
  fixed : ∀ n : Int, enc.num n = n

/-- A summary cell with its number as written, if it is not a time. -/
def savedCell (enc : JsonEnc V) : Cell V → Cell V
  | .val v => .val (enc.val v)
  | c => c

/-- The report with the numbers that are not times as they were written: all times, names and texts are
the same. -/
def savedReport (enc : JsonEnc V) (r : ReportData V) (unit : String) : ReportData V :=
  { r with
    measurements := r.measurements.map fun row => { row with measured := enc.val row.measured }
    summary := r.summary.map fun row => row.map fun kv => (kv.1, savedCell enc kv.2)
    timeUnit := some unit }

end Gerabaldi.Spec
