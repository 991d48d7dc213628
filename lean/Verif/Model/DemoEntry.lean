import Verif.Model.DemoAmp
import Verif.Model.ReportObject

/-!
# The self-checks of the demonstrations (`demos/*.py`, the functions `entry` with `--test`)

Plotting, printing and command line parsing are not modelled. A loop that needs more than 1000 rounds counts as
unmodelled.
-/

namespace Gerabaldi

variable {W V : Type} [PyNum V]
open PyArith

/-- A simulated report as an object. -/
def SimReport.obj (r : SimReport V) : ReportObj V where
  name := some r.name
  description := some r.description
  devCounts := .val r.devCounts
  numChps := .val r.numChps
  numLots := .val r.numLots
  measurements := some r.measurements
  summary := some r.summary
  timeUnit := r.timeUnit

/-- `len(report.measurements.index)`; `None` has no `index`. -/
def ReportObj.rowCount (o : ReportObj V) : Except Err Nat :=
  match o.measurements with
  | some rows => .ok rows.length
  | none => .error .attributeError

/-- `report.test_summary.at[i, col]`: the table has the columns of all its rows, a cell that its row does not have is
NaN (`none`). -/
def ReportObj.cellAt (o : ReportObj V) (i : Nat) (col : String) : Except Err (Option (Cell V)) :=
  match o.summary with
  | none => .error .attributeError
  | some rows => if rows.any fun row => (row.get? col).isSome then
      match rows[i]? with
      | some row => .ok (row.get? col)
      | none => .error .keyError
    else .error .keyError

/-- `report.test_summary.at[i, col].total_seconds() / 3600`; only timedeltas have `total_seconds`. -/
def ReportObj.hoursAt (o : ReportObj V) (i : Nat) (col : String) : Except Err ℚ := do
  let c ← o.cellAt i col
  match c with
  | some (.time (.td us)) => .ok (us / 1000000 / 3600)
  | _ => .error .attributeError

/-- `report.dev_counts[prm]`. -/
def ReportObj.countOf (o : ReportObj V) (prm : String) : Except Err Nat :=
  match o.devCounts with
  | .val counts => match counts.get? prm with
    | some n => .ok n
    | none => .error .keyError
  | .isNone => .error .typeError
  | .unset => .error .attributeError

/-- `cell == q` for a number. -/
def cellIs (c : Option (Cell V)) (q : ℚ) : Bool :=
  match c with
  | some (.val v) => eq v (ofRat q)
  | some (.nat n) => (n : ℚ) == q
  | _ => false

/-- `cell == s` for a string. -/
def cellSays (c : Option (Cell V)) (s : String) : Bool :=
  match c with
  | some (.str t) => t == s
  | _ => false

/-- `sys.exit(0 if all(checks) else 1)`. -/
def exitCode (checks : Except Err (List Bool)) : Except FileErr Nat :=
  match checks with
  | .ok bs => .ok (if bs.all id then 0 else 1)
  | .error e => .error (.py e)

/-- `entry(data, save_data, test=True)` of all demonstrations: use the data given, or run the simulation (and save
its reports if asked to), then check. -/
def testEntry {S R : Type} (given : Option (Except FileErr R)) (run : M W S) (view : S → R)
    (save : Option (S → Disk V → Except FileErr Unit × Disk V)) (checks : R → Except Err (List Bool))
    (d : Disk V) (w : W) : Except FileErr Nat × Disk V × W :=
  match given with
  | some (.error e) => (.error e, d, w)
  | some (.ok o) => (exitCode (checks o), d, w)
  | none => match run w with
    | (.error e, w') => (.error (.py e), d, w')
    | (.ok r, w') => match save with
      | none => (exitCode (checks (view r)), d, w')
      | some f => match f r d with
        | (.error e, d') => (.error e, d', w')
        | (.ok _, d') => (exitCode (checks (view r)), d', w')

/-- A test whose construction may take a loop. -/
def madeTest (t : Option (Except Err (TestSpec V))) : M W (TestSpec V) :=
  match t with
  | some (.ok t) => M.pure t
  | some (.error e) => M.throw e
  | none => M.throw .unmodelled

/-- The file of a report beside the program in the directory `here`, for example
`demos/basic_use.py:97`. -/
def dataFile (here : List String) (name : String) : List String := here ++ ["data", name ++ ".json"]

/-- `report.export_to_json(save_file, 'hours')`. -/
def saveOne (enc : JsonEnc V) (file : List String) (r : SimReport V) (d : Disk V) : Except FileErr Unit × Disk V :=
  match r.data.exportFile enc d file (some "hours") with
  | (.error e, d') => (.error e, d')
  | (.ok _, d') => (.ok (), d')

/-- The loop that saves all reports, `demos/vts_paper_presilicon_variability.py:175-177` and
`demos/vts_paper_tddb_model_sensitivity.py:195-197`. -/
def saveAll (enc : JsonEnc V) (here : List String) : List (String × SimReport V) → Disk V →
    Except FileErr Unit × Disk V
  | [], d => (.ok (), d)
  | (name, r) :: rest, d => match saveOne enc (dataFile here name) r d with
    | (.error e, d') => (.error e, d')
    | (.ok _, d') => saveAll enc here rest d'

/-! ## One report: `demos/basic_use.py` and `demos/riverbed_erosion.py` -/

/-- The checks of `demos/basic_use.py:100-105`. -/
def basicChecks (o : ReportObj V) : Except Err (List Bool) := do
  let n ← o.rowCount
  let temp ← o.cellAt 2 "temp"
  let hours ← o.hoursAt 1 "end time"
  let k ← o.countOf "example_prm"
  pure [n == 10, cellIs temp (29815 / 100), hours == 100, k == 5]

/-- `demos/basic_use.py:92-108` with `--test`. -/
def basicEntry [Rng W V] (ord : SetOrder) (enc : JsonEnc V) (here : List String) (file : Option (List String))
    (save : Bool) : Disk V → W → Except FileErr Nat × Disk V × W := fun d =>
  testEntry (file.map fun f => newReport d none none none (some f))
    (basicDemo ord (1 / 1000) (2 / 10000) 5 (ofRat (25 + 27315 / 100)) (ofRat (125 + 27315 / 100)) 100)
    SimReport.obj (if save then some (saveOne enc (dataFile here "basic_report")) else none) basicChecks d

/-- `run_simulation`, `demos/riverbed_erosion.py:30-105`. -/
def riverDemo [Rng W V] (ord : SetOrder) : M W (SimReport V) := do
  let test ← madeTest (riverTest 1000 10 5 10)
  let env ← M.ofExcept riverEnv
  let dev ← M.ofExcept riverDevice
  simulate ord test dev env none

/-- The checks of `demos/riverbed_erosion.py:174-179`. -/
def riverChecks (o : ReportObj V) : Except Err (List Bool) := do
  let n ← o.rowCount
  let name ← o.cellAt 33 "step name"
  let tau ← o.cellAt 42 "tau"
  let k ← o.countOf "riverbed_level"
  pure [n == 550, cellSays name "Autumn Season Flow", cellIs tau 4, k == 10]

/-- `demos/riverbed_erosion.py:166-182` with `--test`. -/
def riverEntry [Rng W V] (ord : SetOrder) (enc : JsonEnc V) (here : List String) (file : Option (List String))
    (save : Bool) : Disk V → W → Except FileErr Nat × Disk V × W := fun d =>
  testEntry (file.map fun f => newReport d none none none (some f)) (riverDemo ord) SimReport.obj
    (if save then some (saveOne enc (dataFile here "erosion_report")) else none) riverChecks d

/-! ## Several reports: `demos/vts_paper_presilicon_variability.py` and `demos/vts_paper_tddb_model_sensitivity.py` -/

/-- What `rprts` is: a dictionary if the simulations were run, but a set (`{SimReport(..) for test in ..}`) if the
reports were loaded, `demos/vts_paper_presilicon_variability.py:273` and
`demos/vts_paper_tddb_model_sensitivity.py:285`. -/
inductive Reports (K V : Type)
  | dict (entries : List (K × ReportObj V))
  | set (elems : List (ReportObj V))

/-- `rprts[key]`; a set cannot be indexed. -/
def Reports.get {K : Type} [DecidableEq K] (rs : Reports K V) (key : K) : Except Err (ReportObj V) :=
  match rs with
  | .dict es => match es.find? fun e => e.1 = key with
    | some e => .ok e.2
    | none => .error .keyError
  | .set _ => .error .typeError

/-- Load the files one after the other. -/
def loadAll (d : Disk V) : List (List String) → Except FileErr (List (ReportObj V))
  | [] => .ok []
  | f :: rest => match newReport d none none none (some f) with
    | .error e => .error e
    | .ok o => match loadAll d rest with
      | .error e => .error e
      | .ok os => .ok (o :: os)

/-- The reports loaded from a directory. -/
def loadDir {K : Type} (d : Disk V) (dir : List String) (names : List String) : Except FileErr (Reports K V) :=
  match loadAll d (names.map fun n => dir ++ [n ++ ".json"]) with
  | .error e => .error e
  | .ok os => .ok (.set os)

/-- `DATA_FILES`, `demos/vts_paper_presilicon_variability.py:24-31`. -/
def ampFiles : List (String × String) :=
  [("Current Process: Ramped Cycling", "curr_ramp_report"), ("Current Process: HTOL", "curr_htol_report"),
    ("Current Process: LTOL", "curr_ltol_report"), ("New Process: Ramped Cycling", "next_ramp_report"),
    ("New Process: HTOL", "next_htol_report"), ("New Process: LTOL", "next_ltol_report")]

/-- `run_simulation`, `demos/vts_paper_presilicon_variability.py:42-178`: the reports in the order of `DATA_FILES`. -/
def ampDemo [PyTrans V] [Rng W V] (ord : SetOrder) : M W (List (SimReport V)) := do
  let htol ← madeTest (ampLoopTest 1000 5 5 5 20 125 "HTOL Stress" "HTOL Similar Test")
  let ltol ← madeTest (ampLoopTest 1000 5 5 5 20 (-10) "Low Temperature Stress" "LTOL Similar Test")
  let ramp ← M.ofExcept (ampRampTest 5 5 5 10)
  let env ← M.ofExcept ampEnv
  let dev ← M.ofExcept ampDevice
  let r1 ← simulate ord htol dev env none
  let r2 ← simulate ord ltol dev env none
  let r0 ← simulate ord ramp dev env none
  let dev' ← M.ofExcept (ampNewProcess dev)
  let r4 ← simulate ord htol dev' env none
  let r5 ← simulate ord ltol dev' env none
  let r3 ← simulate ord ramp dev' env none
  pure [r0, r1, r2, r3, r4, r5]

/-- The checks of `demos/vts_paper_presilicon_variability.py:282-287`. -/
def ampChecks (rs : Reports String V) : Except Err (List Bool) := do
  let a ← rs.get "Current Process: LTOL"
  let n ← a.rowCount
  let b ← rs.get "New Process: Ramped Cycling"
  let vdd ← b.cellAt 29 "vdd"
  let c ← rs.get "Current Process: HTOL"
  let hours ← c.hoursAt 13 "start time"
  let e ← rs.get "New Process: LTOL"
  let k ← e.countOf "v_th"
  pure [n == 2625, cellIs vdd (102 / 100), hours == 300, k == 5]

/-- `demos/vts_paper_presilicon_variability.py:271-290` with `--test`. -/
def ampEntry [PyTrans V] [Rng W V] (ord : SetOrder) (enc : JsonEnc V) (here : List String)
    (dir : Option (List String)) (save : Bool) : Disk V → W → Except FileErr Nat × Disk V × W := fun d =>
  testEntry (dir.map fun f => loadDir d f (ampFiles.map Prod.snd)) (ampDemo ord)
    (fun rs => .dict ((ampFiles.map Prod.fst).zip (rs.map SimReport.obj)))
    (if save then some (fun rs => saveAll enc here ((ampFiles.map Prod.snd).zip rs)) else none) ampChecks d

/-- `DATA_FILES`, `demos/vts_paper_tddb_model_sensitivity.py:27-33`. -/
def tddbFiles : List (ℚ × String) :=
  [(105 / 100, "tddb_1.05_report"), (1075 / 1000, "tddb_1.075_report"), (110 / 100, "tddb_1.1_report"),
    (1125 / 1000, "tddb_1.125_report"), (115 / 100, "tddb_1.15_report")]

/-- `single_test` with the `step_val`s one after the other, `demos/vts_paper_tddb_model_sensitivity.py:120-158`. The
processes of the pool are modelled as running in sequence. -/
def tddbRuns [PyTrans V] [Rng W V] (ord : SetOrder) (test : TestSpec V) : List ℚ → M W (List (SimReport V))
  | [] => M.pure []
  | step :: rest => do
    let env ← M.ofExcept tddbEnv
    let dev ← M.ofExcept (tddbDevice (4 / 100000) step)
    let r ← simulate ord test dev env none
    let rs ← tddbRuns ord test rest
    pure (r :: rs)

/-- `run_simulation`, `demos/vts_paper_tddb_model_sensitivity.py:161-200`. -/
def tddbDemo [PyTrans V] [Rng W V] (ord : SetOrder) : M W (List (SimReport V)) := do
  let test ← madeTest (tddbTest 1000 100 104)
  tddbRuns ord test (tddbFiles.map Prod.fst)

/-- The checks of `demos/vts_paper_tddb_model_sensitivity.py:294-299`. -/
def tddbChecks (rs : Reports ℚ V) : Except Err (List Bool) := do
  let a ← rs.get (115 / 100)
  let n ← a.rowCount
  let b ← rs.get (1075 / 1000)
  let vg ← b.cellAt 339 "v_g"
  let c ← rs.get (105 / 100)
  let hours ← c.hoursAt 31 "duration"
  let e ← rs.get (110 / 100)
  let k ← e.countOf "tddb"
  pure [n == 10500, cellIs vg (87 / 100), hours == 122, k == 100]

/-- `demos/vts_paper_tddb_model_sensitivity.py:283-303` with `--test`. -/
def tddbEntry [PyTrans V] [Rng W V] (ord : SetOrder) (enc : JsonEnc V) (here : List String)
    (dir : Option (List String)) (save : Bool) : Disk V → W → Except FileErr Nat × Disk V × W := fun d =>
  testEntry (dir.map fun f => loadDir d f (tddbFiles.map Prod.snd)) (tddbDemo ord)
    (fun rs => .dict ((tddbFiles.map Prod.fst).zip (rs.map SimReport.obj)))
    (if save then some (fun rs => saveAll enc here ((tddbFiles.map Prod.snd).zip rs)) else none) tddbChecks d

end Gerabaldi
