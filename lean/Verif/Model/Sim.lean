import Verif.Model.Env
import Verif.Model.Report

/-!
# Model of the simulation (`gerabaldi/sim.py`)
-/

namespace Gerabaldi

/-- `a + b` for times: `TypeError` for a number and a timedelta. Overflow of `pandas.Timedelta` is not
modelled. -/
def TimeVal.add : TimeVal → TimeVal → Except Err TimeVal
  | .td a, .td b => match tdAdd a b with
    | .ok c => .ok (.td c)
    | .error e => .error e
  | .pdtd a, .td b => .ok (.pdtd (a + b))
  | .td a, .pdtd b => .ok (.pdtd (a + b))
  | .pdtd a, .pdtd b => .ok (.pdtd (a + b))
  | .num a, .num b => .ok (.num (a + b))
  | _, _ => .error .typeError

/-- `a - b` for times. -/
def TimeVal.sub : TimeVal → TimeVal → Except Err TimeVal
  | .td a, .td b => match tdMk (a - b) with
    | .ok c => .ok (.td c)
    | .error e => .error e
  | .pdtd a, .td b => .ok (.pdtd (a - b))
  | .td a, .pdtd b => .ok (.pdtd (a - b))
  | .pdtd a, .pdtd b => .ok (.pdtd (a - b))
  | .num a, .num b => .ok (.num (a - b))
  | _, _ => .error .typeError

section
variable {W V : Type} [PyNum V]

/-! ## Initial state -/

/-- Lines 75-77 of `gerabaldi/sim.py` for one required parameter. -/
def augmentReq (prm : String) (devs : Dict Nat) (req : String) : Dict Nat :=
  match devs.get? prm with
  | none => devs
  | some n => match devs.get? req with
    | none => devs.set req n
    | some k => if k < n then devs.set req n else devs

/-- Lines 67-80 of `gerabaldi/sim.py` for one measured name. -/
def augmentPrm (dev : DeviceMdl W V) (devs : Dict Nat) (prm : String) : Dict Nat :=
  match dev.prms.get? prm with
  | some (.circ c) => (requiredPrms c dev.prms.keys).foldl (augmentReq prm) devs
  | _ => devs

/-- The device counts after the dependency check, `gerabaldi/sim.py:63-80`. The loop runs over a copy. -/
def augment (dev : DeviceMdl W V) (devs : Dict Nat) : Dict Nat :=
  devs.keys.foldl (augmentPrm dev) devs

/-- `if elapsed_time != 0: init_state.elapsed = elapsed_time`, `gerabaldi/sim.py:84-85`; a timedelta is
never equal to the number 0. -/
def withElapsed (s : SimState V) (elapsed : TimeVal) : SimState V :=
  if elapsed = .num 0 then s else { s with elapsed := elapsed }

/-- What `gen_init_state` returns and changes: the state, the counts of the caller's dictionary
(`dev_counts`), the counts of the report (`quantity_info`). -/
structure InitResult (V : Type) where
  state : SimState V
  counts : Option (Dict Nat)
  info : Option Quantities

/-- `gen_init_state`, `gerabaldi/sim.py:21-86`, once the source of the quantities is chosen. -/
def genInitFrom [Rng W V] (dev : DeviceMdl W V) (devs : Dict Nat) (chps lots : Nat)
    (elapsed : TimeVal) : M W (SimState V) := do
  let s ← dev.genInitState (augment dev devs) chps lots
  pure (withElapsed s elapsed)

/-- `quantity_info.dev_counts[required_prm] = devs[prm]` for every augmented parameter,
`gerabaldi/sim.py:79-80`, when the counts come from another dictionary. -/
def copyAugmented (before after info : Dict Nat) : Dict Nat :=
  after.foldl (fun acc kv => if before.get? kv.1 = some kv.2 then acc else acc.set kv.1 kv.2) info

/-- `gen_init_state`, `gerabaldi/sim.py:21-86`. An empty `dev_counts` counts as not given. (With both
sources the report receives the final value of every augmented count; the code writes the same values
one by one.) -/
def genInitState [Rng W V] (dev : DeviceMdl W V) (counts : Option (Dict Nat)) (chps lots : Nat)
    (info : Option Quantities) (elapsed : TimeVal) : M W (InitResult V) :=
  match counts.filter (fun d => !d.isEmpty), info with
  | none, some q => do
    let s ← genInitFrom dev q.devCounts q.numChps q.numLots elapsed
    pure ⟨s, counts, some { q with devCounts := augment dev q.devCounts }⟩
  | some d, none => do
    let s ← genInitFrom dev d chps lots elapsed
    pure ⟨s, some (augment dev d), none⟩
  | some d, some q => do
    let s ← genInitFrom dev d chps lots elapsed
    pure ⟨s, some (augment dev d),
      some { q with devCounts := copyAugmented d (augment dev d) q.devCounts }⟩
  | none, none => M.throw .userConfig

/-! ## Steps -/

/-- The quantities of the report. -/
def SimReport.info (r : SimReport V) : Quantities := ⟨r.devCounts, r.numChps, r.numLots⟩

/-- The degrading parameters, `gerabaldi/sim.py:94`. -/
def DeviceMdl.degPrms (dev : DeviceMdl W V) : List (String × DegPrmMdl W V) :=
  dev.prms.filterMap fun kv => match kv.2 with
    | .deg m => some (kv.1, m)
    | .circ _ => none

/-- `equiv_times[mech] += _convert_time(duration, time_unit)` for one mechanism, `gerabaldi/sim.py:108-109`.
A duration that is a number is converted to a timedelta, which cannot be added to an array. -/
def addDuration (duration : TimeVal) (mechs : Dict (MechMdl W V)) (kv : String × Arr3 V) :
    Except Err (String × Arr3 V) :=
  match mechs.get? kv.1 with
  | none => .error .attributeError
  | some m => match convertTime duration m.timeUnit with
    | .error e => .error e
    | .ok (.num q) => .ok (kv.1, kv.2.map fun t => PyArith.add t (PyArith.ofRat q))
    | .ok _ => .error .typeError

/-- The loop over the mechanisms, `gerabaldi/sim.py:108-109`. -/
def addDurations (duration : TimeVal) (mechs : Dict (MechMdl W V)) (times : Dict (Arr3 V)) :
    Except Err (Dict (Arr3 V)) :=
  times.mapM (addDuration duration mechs)

/-- The stress step for one parameter, `gerabaldi/sim.py:97-118`. -/
def stressPrm (q : Quantities) (duration : TimeVal) (conds : Dict (Dict (Arr3 V)))
    (s : SimState V) (kv : String × DegPrmMdl W V) : M W (SimState V) := do
  let n ← M.ofExcept (q.devCounts.getE kv.1)
  let cur ← M.ofExcept (s.currMech.getE kv.1)
  let cs ← M.ofExcept (conds.getE kv.1)
  let im ← M.ofExcept (s.initMech.getE kv.1)
  let lat ← M.ofExcept (s.latents.getE kv.1)
  let eq0 ← kv.2.calcEquivTimes q.numLots q.numChps n cur cs im lat
  let times ← M.ofExcept (addDurations duration kv.2.mechs eq0)
  let ip ← M.ofExcept (s.initPrm.getE kv.1)
  let r ← kv.2.calcDegVals q.numLots q.numChps n times cs ip lat cur
  pure { s with currPrm := s.currPrm.set kv.1 r.1, currMech := s.currMech.set kv.1 r.2 }

/-- A summary row, `gerabaldi/sim.py:124-132` and 187-195: the conditions are merged last. -/
def summaryRow (name type : String) (num : Nat) (duration start stop : TimeVal) (conds : Dict V) :
    SumRow V :=
  Dict.update
    [("step name", .str name), ("step type", .str type), ("step number", .nat num),
      ("duration", .time duration), ("start time", .time start), ("end time", .time stop)]
    (conds.map fun kv => (kv.1, .val kv.2))

variable [Rng W V]

/-- `_sim_stress_step`, `gerabaldi/sim.py:89-136`. -/
def simStress (ord : SetOrder) (dev : DeviceMdl W V) (env : PhysTestEnv V) (step : StrsSpec V) (i : Nat)
    (sr : SimState V × SimReport V) : M W (SimState V × SimReport V) := do
  let conds ← env.genEnvCondVals ord step.conditions (.names (dev.degPrms.map (·.1)))
    (some sr.2.info) (some dev) .stress 1 1
  let s ← M.forIn' (stressPrm sr.2.info step.duration conds) dev.degPrms sr.1
  let e ← M.ofExcept (s.elapsed.add step.duration)
  let start ← M.ofExcept (e.sub step.duration)
  pure ({ s with elapsed := e },
    sr.2.addSummary (summaryRow step.name "stress" i step.duration start e step.conditions))

/-- The true values of one measured name, `gerabaldi/sim.py:153-177`, as report rows. -/
def measureTrue (q : Quantities) (dev : DeviceMdl W V) (step : MeasSpec V) (i : Nat) (s : SimState V)
    (conds : Dict (Dict (Arr3 V))) (prm : String) (n : Nat) : M W (List (MeasRow V)) :=
  match s.currPrm.get? prm with
  | some cur => match dev.prms.get? prm with
    | some (.deg m) => do
      let cs ← M.ofExcept (conds.getE prm)
      let lat ← M.ofExcept (s.latents.getE prm)
      let v ← m.calcCondShifted q.numLots q.numChps n cs cur lat
      M.ofExcept (formatMeasurements v prm s.elapsed i .parameter)
    | _ => M.throw .attributeError
  | none => match dev.prms.get? prm with
    | some (.circ m) => do
      let cs ← M.ofExcept (conds.getE prm)
      let lat ← M.ofExcept (s.latents.getE prm)
      let v ← calcCircVals m n cs s.currPrm lat
      M.ofExcept (formatMeasurements v prm s.elapsed i .parameter)
    | some (.deg _) => M.throw .attributeError
    | none =>
      if step.conditions.has prm then do
        let cs ← M.ofExcept (conds.getE prm)
        let a ← M.ofExcept (cs.getE prm)
        M.ofExcept (formatMeasurements (.arr a) prm s.elapsed i .condition)
      else M.throw .missingParam

/-- `measured['measured'] = instm.measure(measured['measured'])`, `gerabaldi/sim.py:180`. -/
def readRows (ins : Instrument V) (rows : List (MeasRow V)) : M W (List (MeasRow V)) := do
  let ys ← ins.measureVals (rows.map (·.measured))
  pure (List.zipWith (fun r y => { r with measured := y }) rows ys)

/-- One measured name, `gerabaldi/sim.py:152-181`. -/
def measurePrm (q : Quantities) (dev : DeviceMdl W V) (env : PhysTestEnv V) (step : MeasSpec V) (i : Nat)
    (s : SimState V) (conds : Dict (Dict (Arr3 V))) (acc : List (MeasRow V)) (kv : String × Nat) :
    M W (List (MeasRow V)) := do
  let rows ← measureTrue q dev step i s conds kv.1 kv.2
  let ins ← M.ofExcept (env.measInstm kv.1)
  let rows' ← readRows ins rows
  pure (acc ++ rows')

/-- `_sim_meas_step`, `gerabaldi/sim.py:139-198`. -/
def simMeas (ord : SetOrder) (dev : DeviceMdl W V) (env : PhysTestEnv V) (step : MeasSpec V) (i : Nat)
    (sr : SimState V × SimReport V) : M W (SimState V × SimReport V) := do
  let conds ← env.genEnvCondVals ord step.conditions (.counts step.measurements)
    (some sr.2.info) (some dev) .measure 1 1
  let rows ← M.forIn' (measurePrm sr.2.info dev env step i sr.1 conds) step.measurements []
  pure (sr.1, (sr.2.addMeasurements rows).addSummary
    (summaryRow step.name "measure" i (.td 0) sr.1.elapsed sr.1.elapsed step.conditions))

/-- The body of the loop of `simulate`, `gerabaldi/sim.py:229-234`. -/
def simStep (ord : SetOrder) (dev : DeviceMdl W V) (env : PhysTestEnv V)
    (sr : SimState V × SimReport V) (is : Nat × Step V) : M W (SimState V × SimReport V) :=
  match is.2 with
  | .strs st => simStress ord dev env st is.1 sr
  | .meas m => simMeas ord dev env m is.1 sr
  | .other _ => pure sr

/-- `enumerate(steps)` starting at `i`. -/
def enumFrom {α : Type} : Nat → List α → List (Nat × α)
  | _, [] => []
  | i, x :: xs => (i, x) :: enumFrom (i + 1) xs

/-- The loop of `simulate`, `gerabaldi/sim.py:229-234`, from step number `i`. -/
def runSteps (ord : SetOrder) (dev : DeviceMdl W V) (env : PhysTestEnv V) (i : Nat)
    (steps : List (Step V)) (sr : SimState V × SimReport V) : M W (SimState V × SimReport V) :=
  M.forIn' (simStep ord dev env) (enumFrom i steps) sr

/-- The state and report at the start of the loop, `gerabaldi/sim.py:222-225`. With an initial state the
device counts stay those of the test. -/
def simStart (dev : DeviceMdl W V) (test : TestSpec V) (init : Option (SimState V)) :
    M W (SimState V × SimReport V) :=
  match init with
  | some s => pure (s, SimReport.ofTest test)
  | none => do
    let r ← genInitState dev none 1 1 (some (SimReport.ofTest test).info) (.td 0)
    let q ← M.ofExcept (match r.info with | some q => .ok q | none => .error .unmodelled)
    pure (r.state, { SimReport.ofTest test with devCounts := q.devCounts })

/-- `simulate`, `gerabaldi/sim.py:201-237`: the report, and the final internal state (which the caller does
not see: a given initial state is deep-copied). -/
def simulateFull (ord : SetOrder) (test : TestSpec V) (dev : DeviceMdl W V) (env : PhysTestEnv V)
    (init : Option (SimState V)) : M W (SimState V × SimReport V) := do
  let sr ← simStart dev test init
  runSteps ord dev env 0 test.steps sr

/-- `simulate`. -/
def simulate (ord : SetOrder) (test : TestSpec V) (dev : DeviceMdl W V) (env : PhysTestEnv V)
    (init : Option (SimState V)) : M W (SimReport V) := do
  let sr ← simulateFull ord test dev env init
  pure sr.2

/-! ## Objects

`simulate` above treats states as values. Here the state objects live in a heap (a list; references are
positions), to say which object the loop mutates. -/

/-- One step on the state object `ref`, `gerabaldi/sim.py:229-234`. A step that raises leaves the object in
some intermediate condition, `torn`. -/
def stepRef (torn : SimState V → SimState V) (ord : SetOrder) (dev : DeviceMdl W V) (env : PhysTestEnv V)
    (ref : Nat) (r : SimReport V) (is : Nat × Step V) : M (W × List (SimState V)) (SimReport V) :=
  fun wh => match wh.2[ref]? with
    | none => (.error .unmodelled, wh)
    | some s => match simStep ord dev env (s, r) is wh.1 with
      | (.ok sr, w') => (.ok sr.2, (w', wh.2.set ref sr.1))
      | (.error e, w') => (.error e, (w', wh.2.set ref (torn s)))

/-- The state object of the simulation, `gerabaldi/sim.py:225`: a new object, either generated or a deep
copy of the given one. Returns its reference and the report. -/
def startRef (dev : DeviceMdl W V) (test : TestSpec V) (init : Option Nat) :
    M (W × List (SimState V)) (Nat × SimReport V) :=
  fun wh => match init with
    | some ref => match wh.2[ref]? with
      | none => (.error .unmodelled, wh)
      | some s => (.ok (wh.2.length, SimReport.ofTest test), (wh.1, wh.2 ++ [s]))
    | none => match simStart dev test none wh.1 with
      | (.ok sr, w') => (.ok (wh.2.length, sr.2), (w', wh.2 ++ [sr.1]))
      | (.error e, w') => (.error e, (w', wh.2))

/-- `simulate` on state objects. -/
def simulateRef (torn : SimState V → SimState V) (ord : SetOrder) (test : TestSpec V)
    (dev : DeviceMdl W V) (env : PhysTestEnv V) (init : Option Nat) :
    M (W × List (SimState V)) (SimReport V) := do
  let rr ← startRef dev test init
  M.forIn' (stepRef torn ord dev env rr.1) (enumFrom 0 test.steps) rr.2

end

end Gerabaldi
