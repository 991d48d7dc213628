import Verif.Model.DemoEntry

/-!
# What the demonstrations plot

The parts of `visualize` in `/repo/demos` that turn a report into the points of the figures. Simplified: `set_index`,
`sort_index` and `.loc` with a full key are selections of the rows with that key in the order of the table (the sort
of pandas by several columns is stable), an operation of two arrays of different lengths raises `ValueError` (numpy
would also accept a length of one), and the times are those of a report that was made by a simulation or loaded from a
file. Colours, labels, limits of the axes, the fit of a Weibull distribution and the regression after it are left out.
-/

namespace Gerabaldi

variable {W V : Type} [PyNum V]

/-- `measured.set_index([...]).sort_index().loc[key]`, `demos/basic_use.py:76-80`, `demos/riverbed_erosion.py:114-115`
and `:134`, `demos/vts_paper_presilicon_variability.py:189-190` and `:211`: the rows with a key, `KeyError` if there are
none. -/
def seriesOf (rows : List (MeasRow V)) (key : MeasRow V → Bool) : Except Err (List (MeasRow V)) :=
  match rows.filter key with
  | [] => .error .keyError
  | xs => .ok xs

/-- `convert_report_time('hours')` and `.measurements`, `demos/basic_use.py:67-68`, `demos/riverbed_erosion.py:109-110`,
`demos/vts_paper_presilicon_variability.py:183-184`. -/
def hoursTable (r : ReportData V) : Except Err (List (MeasRow V)) :=
  match r.convertReportTime (some "hours") with
  | (.ok _, r') => .ok r'.measurements
  | (.error e, _) => .error e

/-- The coordinates of a plotted series, `meas['time']` and `meas['measured']`. -/
def points (rows : List (MeasRow V)) : List (TimeVal × V) := rows.map fun x => (x.time, x.measured)

/-- `demos/basic_use.py:66-81` for `devices` devices (`NUM_DEVICES`, line 25): a curve per device. -/
def basicCurves (devices : Nat) (r : ReportData V) : Except Err (List (List (TimeVal × V))) := do
  let rows ← hoursTable r
  (List.range devices).mapM fun smpl => do
    let meas ← seriesOf rows (fun x => x.prm == "example_prm" && x.dev == some smpl)
    pure (points meas)

/-- An operation on two arrays. -/
def arrayOp (f : V → V → V) (a b : List V) : Except Err (List V) :=
  if a.length = b.length then .ok (List.zipWith f a b) else .error .valueError

/-- `np.minimum` of two numbers; a NaN is passed on, as by `npMaximum`. -/
def npMinimum (x y : V) : V :=
  if !PyArith.eq x x then x else if !PyArith.eq y y then y else if PyArith.lt y x then y else x

/-- The running sums, largest and smallest values of a loop over series, `demos/riverbed_erosion.py:127-140` and
`demos/vts_paper_presilicon_variability.py:200-214`. -/
structure Spread (V : Type) where
  sum : List V
  max : List V
  min : List V
  deriving DecidableEq

/-- The arrays at the beginning: `np.zeros(n)`, `np.full(n, -1000)` and `np.full(n, 1000)`,
`demos/riverbed_erosion.py:127-129`, `demos/vts_paper_presilicon_variability.py:200-202`. -/
def Spread.start (n : Nat) : Spread V :=
  ⟨List.replicate n (PyArith.ofRat 0), List.replicate n (PyArith.ofRat (-1000)), List.replicate n (PyArith.ofRat 1000)⟩

/-- One more series, `demos/riverbed_erosion.py:137-140`, `demos/vts_paper_presilicon_variability.py:212-214`. -/
def Spread.more (a : Spread V) (vals : List V) : Except Err (Spread V) := do
  let s ← arrayOp PyArith.add a.sum vals
  let x ← arrayOp npMaximum a.max vals
  let y ← arrayOp npMinimum a.min vals
  pure ⟨s, x, y⟩

/-- The loop over the series. -/
def spreadOf (n : Nat) (series : List (List V)) : Except Err (Spread V) :=
  series.foldlM Spread.more (Spread.start n)

/-- `avg / count`, `demos/riverbed_erosion.py:142`, `demos/vts_paper_presilicon_variability.py:228`. -/
def Spread.mean (a : Spread V) (count : Nat) : List V := a.sum.map fun x => PyArith.div x (PyArith.ofRat count)

/-- `measured['time'] / HOURS_PER_YEAR`, `demos/riverbed_erosion.py:111`, for numbers. -/
def inYears : TimeVal → Except Err TimeVal
  | .num q => .ok (.num (q / 8760))
  | _ => .error .unmodelled

/-- What is plotted of one river: the series of its samples in the first figure, and in the second one the times, the
average and the largest and smallest values. -/
structure RiverPlot (V : Type) where
  series : List (List (TimeVal × V))
  times : List TimeVal
  avg : List V
  max : List V
  min : List V

/-- `demos/riverbed_erosion.py:126-144` for one river. -/
def riverPlot (samples : Nat) (rows : List (MeasRow V)) (rvr : Nat) : Except Err (RiverPlot V) := do
  let first ← seriesOf rows (fun x => x.prm == "riverbed_level" && x.dev == some 0 && x.chp == some 0)
  let all ← (List.range samples).mapM fun smpl =>
    seriesOf rows (fun x => x.prm == "riverbed_level" && x.dev == some smpl && x.chp == some rvr)
  let sp ← spreadOf 11 (all.map fun s => s.map (·.measured))
  pure ⟨all.map points, first.map (·.time), sp.mean samples, sp.max, sp.min⟩

/-- `demos/riverbed_erosion.py:108-144` for `rivers` rivers (`RIVERS_SAMPLED`) with `samples` samples each
(`SAMPLES_PER_RIVER`). -/
def riverFigure (samples rivers : Nat) (r : ReportData V) : Except Err (List (RiverPlot V)) := do
  let rows ← hoursTable r
  let rows ← rows.mapM fun x => do
    let t ← inYears x.time
    pure { x with time := t }
  (List.range rivers).mapM (riverPlot samples rows)

/-- What is plotted of one simulation of the amplifier: times, average, largest and smallest values, and the last values
of all amplifiers. -/
structure AmpPlot (V : Type) where
  times : List TimeVal
  avg : List V
  max : List V
  min : List V
  final : List V

/-- `demos/vts_paper_presilicon_variability.py:181-230` for one simulation, with `lots` lots (`NUM_LOTS`), `chips` chips
(`NUM_CHIPS`) and `devices` devices (`NUM_DEVICES`). The last values of the ramped tests are not used there. -/
def ampPlot (lots chips devices : Nat) (r : ReportData V) : Except Err (AmpPlot V) := do
  let rows ← hoursTable r
  let key := fun (i c l : Nat) (x : MeasRow V) => x.prm == "amp_gain" && x.dev == some i && x.chp == some c && x.lot == some l
  let first ← seriesOf rows (key 0 0 0)
  let all ← ((List.range lots).flatMap fun l => (List.range chips).flatMap fun c => (List.range devices).map fun i =>
    (i, c, l)).mapM fun k => seriesOf rows (key k.1 k.2.1 k.2.2)
  let vals := all.map fun s => s.map (·.measured)
  let sp ← spreadOf first.length vals
  pure ⟨first.map (·.time), sp.mean (devices * chips * lots), sp.max, sp.min, vals.filterMap List.getLast?⟩

/-- An entry of `fails`, `demos/vts_paper_tddb_model_sensitivity.py:221-226`: the time in hours of a failure, or
`'right-censored'`. -/
inductive FailTime where
  | hours (t : ℚ)
  | censored
  deriving DecidableEq, Repr

/-- `time.total_seconds() / SECONDS_PER_HOUR`, `demos/vts_paper_tddb_model_sensitivity.py:222`. -/
def totalHours : TimeVal → Except Err ℚ
  | .td us => .ok (us / 1000000 / 3600)
  | .pdtd us => .ok (us / 1000000 / 3600)
  | .num _ => .error .attributeError

/-- The failure time of one sample, `demos/vts_paper_tddb_model_sensitivity.py:217-226`: `idxmax` of the rows that differ
from 1 is the first such row, or the first row of all if there is none, and raises `ValueError` without rows. -/
def failTime (rows : List (MeasRow V)) : Except Err FailTime :=
  match rows.find? (fun x => !PyArith.eq x.measured (PyArith.ofRat 1)) <|> rows.head? with
  | none => .error .valueError
  | some x =>
    if PyArith.eq x.measured (PyArith.ofRat 0) then do
      let t ← totalHours x.time
      pure (.hours t)
    else .ok .censored

/-- `fails` of one report, `demos/vts_paper_tddb_model_sensitivity.py:213-226`: the samples are those of `unique()` in the
order in which they appear; rows without a device number are equal to no number. -/
def failTimes (rows : List (MeasRow V)) : Except Err (List FailTime) :=
  (rows.map (·.dev)).eraseDups.mapM fun sample =>
    failTime (rows.filter fun x => x.dev.isSome && x.dev == sample)

/-- The failure times and the censoring times given to the Weibull fit,
`demos/vts_paper_tddb_model_sensitivity.py:237-243`, with `len` for `TEST_LEN`. -/
def weibullData (len : ℚ) (fails : List FailTime) : List ℚ × List ℚ :=
  (fails.filterMap fun | .hours t => some t | .censored => none,
    fails.filterMap fun | .hours _ => none | .censored => some len)

end Gerabaldi
