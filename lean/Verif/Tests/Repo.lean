import Verif.Tests.Float

/-!
# The tests of the repository

Transcribed from `/repo/tests`; assertions about seeded numpy streams and about pymc are left out. These are
checks of the model, not theorems.
-/

namespace Gerabaldi.Tests

/-! ## `unit_tests/helpers_test.py` -/

/-- The arguments of `test_loop_compute`. -/
def loopArgs : Dict (PyVal Float) :=
  [("x", .arr (arr 3 2 2 [1, 2, 3, 4, 5, 6, 7, 8, 9, 10, 11, 12])),
    ("y", .arr (arr 3 2 2 [11, 10, 9, 8, 7, 6, 5, 4, 3, 2, 1, 0]))]

#guard okAnd (loopCompute (eqn ["x", "y"] (v "x" * v "y")) loopArgs 3 2 2)
  fun a => a.at' 2 1 0 == 11 && a.at' 0 1 1 == 32
#guard okAnd (loopCompute (eqn ["x", "y", "z"] (v "x" * v "y" - v "z")) (loopArgs.set "z" (.scal 0.5)) 3 2 2)
  fun a => a.at' 2 1 0 == 10.5 && a.at' 0 1 1 == 31.5

/-! ## `unit_tests/cookbook_tests` -/

#guard isOk (idealEnv : Except Err (PhysTestEnv Float)) fun e => isOk (e.measInstm "temp") fun i =>
  okAnd (i.measure .pyNum [0.6475]) fun r => r.2 == [0.6475]
#guard isOk (voltTempEnv : Except Err (PhysTestEnv Float)) fun e =>
  okAnd ((e.vrtnMdl "vdd").batch.sample 5) fun xs => closes xs [0, 0, 0, 0, 0]
#guard isOk (jedecNbti : Except Err (MechMdl Unit Float)) fun m => m.mdl.latentVars.has "e_aa" &&
  okAnd (m.mdl.compute.invoke [("a_0", .scal 1), ("e_aa", .scal 0.1), ("temp", .scal 300), ("vdd", .scal 0.95),
    ("alpha", .scal 0.3), ("time", .scal 100), ("n", .scal 0.2)]) fun r => match r with
      | .scal x => rounds x 3 118.388
      | _ => false

/-- A condition of a step. -/
def cond (s : Option (Step Float)) (c : String) : Float :=
  match s with
  | some (.meas m) => (m.conditions.get? c).getD (-1)
  | some (.strs m) => (m.conditions.get? c).getD (-1)
  | _ => -1

/-- Hours as a timedelta. -/
def hours (n : Int) : Int := n * 3600000000

#guard (htol 100 [("ring_osc", 100)] (1.0 : Float) 1.2 1000 1000 77 3 125).any fun r =>
  isOk r fun t => t.steps.length == 3 && cond t.steps[0]? "vdd" == 1.0 && cond t.steps[1]? "vdd" == 1.2 &&
    cond t.steps[1]? "temp" == 398.15 && cond t.steps[2]? "temp" == 298.15
#guard (htol 100 [("ring_osc", 100)] (1.0 : Float) 1.2 43 1000 77 3 125).any fun r =>
  raises r .userConfig
#guard (htol 100 [("param", 5)] (0.9 : Float) 1.3 200 1000 77 3 125).any fun r =>
  isOk r fun t => t.steps.length == 13 && cond t.steps[12]? "vdd" == 0.9 &&
    rounds (cond t.steps[1]? "vdd") 2 1.17 && t.numChps == 77 && t.numLots == 3

/-! ## `unit_tests/models_tests/phys_envs_test.py` -/

#guard okAnd (({} : Instrument Float).measure .pyNum [3]) fun r => r.2 == [3]
#guard okAnd (({} : Instrument Float).measure .ndarray [4, 6.3]) fun r => r == (.ndarray, [4, 6.3])
#guard okAnd (({} : Instrument Float).measure .series [-1, 5.2]) fun r => r == (.series, [-1, 5.2])
#guard okAnd (({ precision := some 4, range := some (-2, 1000) } : Instrument Float).measure .pyNum [0])
  fun r => r.2 == [0]
#guard okAnd (({ precision := some 4, range := some (-2, 1000) } : Instrument Float).measure .pyNum [1 / 0])
  fun r => r.2 == [1000]
#guard okAnd (({ precision := some 2 } : Instrument Float).measure .pyNum [4.3674]) fun r => r.2 == [4.4]

#guard isOk (EnvVrtnMdl.mk' none none none "offset" none : Except Err (EnvVrtnMdl Float)) fun m =>
  okAnd (m.batch.sample 1) (· == [0]) &&
  okAnd (m.genEnvVrtns 15 2 2 1) fun a => isArr a 1 2 2 [15, 15, 15, 15]
#guard isOk (EnvVrtnMdl.mk' none none none "offset" none : Except Err (EnvVrtnMdl Float)) fun m =>
  isOk (m.setVrtnType "scaling") fun m => okAnd (m.batch.sample 1) (· == [1]) &&
    okAnd (m.genEnvVrtns 15 2 2 1) fun a => isArr a 1 2 2 [15, 15, 15, 15]
#guard isOk (EnvVrtnMdl.mk' none none none "offset" none : Except Err (EnvVrtnMdl Float)) fun m =>
  let m := m.history [.vrtnType "scaling", .chp (some (seq 0 0.5)), .vrtnType "offset"]
  okAnd (m.batch.sample 1) (· == [0]) && okAnd ((m.history [.chp none]).chp.sample 1) (· == [0])

/-- The model of the last part of `test_env_vrtn_model`. -/
def seqEnv : EnvVrtnMdl Float :=
  match EnvVrtnMdl.mk' (some (seq 0 0.01)) (some (seq 0 0.1)) (some (seq 1 1)) "offset" none with
  | .ok m => m.history [.vrtnType "scaling", .dev (some ⟨2, .deterministic 3, none⟩),
      .chp (some ⟨3, .deterministic 2, none⟩)]
  | .error _ => .blank

/-- After the further assignments. -/
def seqEnv' : EnvVrtnMdl Float :=
  seqEnv.history [.vrtnType "offset", .dev (some (seq 1 1)), .chp (some (seq 1 1))]

#guard seqEnv.vrtnType == some .scaling
#guard okAnd (seqEnv.genEnvVrtns 3 1 1 1) fun a => a.at' 0 0 0 == 18
#guard okAnd (seqEnv.genEnvVrtns 3 3 2 3) fun a => a.at' 0 0 0 == 18
#guard okAnd (seqEnv'.genBatch 3) (· == 4)
#guard okAnd (seqEnv'.genChp 3 1 1) fun a => isArr a 1 1 1 [4]
#guard okAnd (seqEnv'.genChp (-1) 2 3) fun a => isArr a 3 2 1 [0, 1, 2, 3, 4, 5]
#guard okAnd (seqEnv'.genDev (one 3) 1) fun a => isArr a 1 1 1 [4]
#guard okAnd (seqEnv'.genDev (arr 1 2 1 [-1, -2]) 3) fun a => isArr a 1 2 3 [0, 1, 2, 2, 3, 4]
#guard okAnd (seqEnv'.genEnvVrtns (-3) 2 2 2) fun a => a.at' 1 0 1 == 7

#guard okAnd (({} : PhysTestEnv Float).genEnvCondVals (W := Unit) order [("p1", 125), ("prm2", 3.1415)]
    (.counts [("p1", 1), ("prm2", 1)]) none none .measure 1 1) fun d =>
  ((d.get? "prm2").bind (·.get? "prm2")).any fun a => isArr a 1 1 1 [3.1415]
#guard okAnd (({} : PhysTestEnv Float).genEnvCondVals (W := Unit) order [("p1", 125)]
    (.counts [("p1", 2)]) none none .measure 2 1) fun d =>
  ((d.get? "p1").bind (·.get? "p1")).any fun a => closes a.data [125, 125]

/-- The device of `test_physical_test_environment`. -/
def envDev : DeviceMdl Unit Float :=
  let p1 := DegPrmMdl.mk' (.one (.mk' .deg 0 (some (eqn ["time", "a", "b", "x"] (v "time" * v "a" + v "b" * v "x")))
    (some "deg") 0 none [])) none
    (some (condShiftMk (some (eqn ["base", "b", "k"] (v "base" + v "b" * v "k"))) none 0 [])) none none none []
  let p2 := DegPrmMdl.mk' (.one (.mk' .deg 1 (some (eqn ["time", "a", "y"] (v "time" / v "a" * v "y")))
    (some "deg2") 0 none [])) none none none none none []
  match p1, p2 with
  | .ok p1, .ok p2 => ⟨[("bti", .deg p1), ("hci", .deg p2)], none⟩
  | _, _ => ⟨[], none⟩

/-- An offset model with three sequences. -/
def seqVrtn (dev chp batch : RVar Float) : EnvVrtnMdl Float :=
  EnvVrtnMdl.history { EnvVrtnMdl.ideal with name := some "a" } [.dev (some dev), .chp (some chp), .batch (some batch)]

/-- The environment, first with sequences for "a" only. -/
def envA : PhysTestEnv Float :=
  { vars := [("a", seqVrtn (seq 0.1 0.1) (seq 1 1) (seq 0.5 0.5)), ("b", .ideal)] }

/-- Then also for "b". -/
def envB : PhysTestEnv Float :=
  { vars := [("a", seqVrtn (seq 0.1 0.1) (seq 1 1) (seq 0.5 0.5)), ("b", seqVrtn (seq 0.1 0.1) (seq 0.5 0.5) (seq 2 1))] }

/-- The report's quantities. -/
def envInfo : Quantities :=
  let m : Step Float := .meas ⟨[("bti", 2), ("hci", 3), ("b", 2)], [("a", 13), ("b", 7)], "unspecified"⟩
  (SimReport.ofTest { steps := [m], numChps := 2, numLots := 1 }).info

#guard raises (envA.genEnvCondVals (W := Unit) order [("a", 3), ("b", 4)] (.names ["a"]) none none .measure 1 1 ()).1
  .userConfig
#guard okAnd (envA.genEnvCondVals order [("a", 4), ("b", 10)] (.names ["bti", "hci"]) (some envInfo) (some envDev)
    .stress 1 1) fun d =>
  (((d.get? "bti").bind (·.get? "a")).any fun a => isArr a 1 2 2 [5.6, 5.7, 6.8, 6.9]) &&
  (((d.get? "hci").bind (·.get? "a")).any fun a => isArr a 1 2 3 [5.6, 5.7, 5.8, 6.9, 7.0, 7.1]) &&
  ((d.get? "hci").any fun c => !c.has "b")
#guard okAnd (envB.genEnvCondVals order [("a", 2), ("b", 10)] (.names ["bti", "hci", "b"]) (some envInfo) (some envDev)
    .measure 1 1) fun d =>
  (((d.get? "bti").bind (·.get? "b")).any fun a => isArr a 1 2 2 [12.6, 12.7, 13.3, 13.4]) &&
  (((d.get? "b").bind (·.get? "b")).any fun a => isArr a 1 2 1 [12.6, 13.2])

/-! ## `unit_tests/models_tests/random_vars_test.py` -/

#guard okAnd ((⟨0, .deterministic 10, some "test"⟩ : RVar Float).sample 10) (· == List.replicate 10 10)
#guard raises ((.deterministic 10 : Dist Float).getDistParams "pymc") .notImplemented
#guard raises ((.deterministic 10 : Dist Float).getDistParams "numpy") .notImplemented
#guard raises ((.deterministic 10 : Dist Float).getDistParams "not_an_option") .notImplemented
#guard raises ((⟨0, .deterministic 10, some "test"⟩ : RVar Float).getCbiForm "pymc") .notImplemented
#guard isOk ((.normal 4 0.1 : Dist Float).getDistParams "pymc") (· == [("mu", 4), ("sigma", 0.1)])
#guard isOk ((.normal 4 0.1 : Dist Float).getDistParams "numpy") (· == [("loc", 4), ("scale", 0.1)])
#guard raises ((.normal (-2) 1 : Dist Float).getDistParams "uh_oh") .notImplemented
#guard isOk ((.gamma 4 (1 / 3) : Dist Float).getDistParams "numpy") (· == [("shape", 4), ("scale", 3)])
#guard raises ((.gamma 3 2 : Dist Float).getDistParams "uh_oh") .notImplemented

/-! ## `unit_tests/models_tests/test_specs_test.py` and `feature_tests/timescales_test.py` -/

/-- The duration of a stress step made from a number. -/
def durIs (d : TimeVal) (unit : Option String) (us : Int) : Bool :=
  isOk (StrsSpec.mk' [("temp", (1 : Float))] d "unspecified" unit) fun s => s.duration == .td us

#guard durIs (.td (hours 50)) none (hours 50)
#guard durIs (.num 40) none (hours 40)
#guard raises (StrsSpec.mk' [("temp", (50 : Float))] (.num 0) "unspecified" none) .userConfig
#guard raises (StrsSpec.mk' [("temp", (1 : Float))] (.num 99) "unspecified" (some "test_invalid")) .userConfig
#guard ["h", "hours"].all fun u => durIs (.num 99) (some u) (hours 99)
#guard ["s", "seconds"].all fun u => durIs (.num 99) (some u) 99000000
#guard ["ms", "milliseconds"].all fun u => durIs (.num 99) (some u) 99000
#guard ["us", "microseconds"].all fun u => durIs (.num 99) (some u) 99

/-- A measurement. -/
def ms (xs : Dict Nat) (c : Dict Float) : Step Float := .meas ⟨xs, c, "unspecified"⟩

/-- A stress step. -/
def st (c : Dict Float) (us : Int) : Step Float := .strs ⟨c, .td us, "unspecified"⟩

/-- The steps of `test_test_spec`. -/
def meas0 : Step Float := ms [("delay", 5), ("current", 10)] [("temp", 110)]
/-- The stress step of `test_test_spec`. -/
def strs0 : Step Float := st [("temp", 125), ("voltage", 1.2)] (hours 100)

/-- Outcome and number of steps. -/
def outcome (r : Option (Except Err Unit × List (Step Float))) (e : Option Err) (n : Nat) : Bool :=
  match r with
  | none => false
  | some (.ok _, s) => e == none && s.length == n
  | some (.error e', s) => e == some e' && s.length == n

#guard outcome (appendSteps 50 [] (.many [meas0, strs0]) (some (.num 300)) none) none 6
#guard outcome (appendSteps 50 [] (.one strs0) (some (.num 0)) none) (some .userConfig) 0
#guard outcome (appendSteps 50 [] (.one meas0) (some (.num 10)) none) (some .userConfig) 0
#guard outcome (appendSteps 50 [] (.many [meas0, meas0, meas0]) (some (.num 10)) none) (some .userConfig) 0
#guard (appendSteps 50 [] (.many [meas0, strs0]) (some (.num 300)) none).any fun r =>
  outcome (appendSteps 50 r.2 (.many [strs0, meas0]) (some (.num 310)) none) (some .userWarning) 14
#guard calcSamplesNeeded [meas0, strs0, meas0, ms [("delay", 15), ("current", 2)] [("temp", 100)]] ==
  [("delay", 15), ("current", 10)]
#guard outcome (appendSteps 50 [] (.one (st [("temp", 1)] (hours 1))) (some (.num 3)) (some "test_invalid"))
  (some .userConfig) 0
#guard outcome (appendSteps 50 [] (.one (st [("temp", 1)] (hours 1))) (some (.num 3)) (some "h")) none 3
#guard outcome (appendSteps 20000 [] (.one (st [("temp", 1)] 1000000)) (some (.num 3)) (some "h")) none 10800
#guard outcome (appendSteps 50 [] (.one (st [("temp", 1)] (hours 1))) (some (.td (hours 3))) none) none 3

/-! ## `unit_tests/models_tests/devices_test.py` -/

#guard raises (LatentVar.mk' none none none none none "scaling" : Except Err (LatentVar Float)) .userConfig
#guard raises (LatentVar.mk' (some ⟨0, .deterministic 2, none⟩) none none none none "invalid" :
  Except Err (LatentVar Float)) .invalidType
#guard okAnd ((var (some (seq 0.2 0.2)) none none none "scaling").genLatentVals 1 1 1)
  fun a => isArr a 1 1 1 [0.2]
#guard okAnd ((var (some (seq 0.2 0.2)) none none none "scaling").genLatentVals 2 2 2)
  fun a => isArr a 2 2 2 [0.2, 0.4, 0.6, 0.8, 1.0, 1.2, 1.4, 1.6]
#guard okAnd ((var (some (seq 1 1)) (some (seq 1 1)) (some (seq 1 1)) none "scaling").genLatentVals 2 2 2)
  fun a => isArr a 2 2 2 [1, 2, 6, 8, 30, 36, 56, 64]
#guard okAnd ((fixedVar 2).genLatentVals 1 1 1) fun a => isArr a 1 1 1 [2]
#guard okAnd ((var none (some (seq 1 1)) none (some 0) "offset").genLatentVals 1 2 1)
  fun a => isArr a 1 2 1 [1, 2]
#guard okAnd ((var (some (seq 0 1)) (some (seq 0 1)) (some (seq 0 1)) (some 0.2) "offset").genLatentVals 2 2 2)
  fun a => isArr a 2 2 2 [0.2, 1.2, 3.2, 4.2, 7.2, 8.2, 10.2, 11.2]
#guard isOk ((var (some (seq 0 1)) (some (seq 0 1)) (some (seq 0 1)) (some 0.2) "offset").setVrtnType "scaling")
  fun l => okAnd (l.genLatentVals 2 2 2) fun a => isArr a 2 2 2 [0, 0, 0, 0, 1.6, 2.0, 3.6, 4.2]

#guard okAnd ((⟨eqn ["x", "y"] (v "x" - v "y"), nameLatents [("y", fixedVar 4)], some "TestModel"⟩ :
    LatentMdl Unit Float).genLatentVals 2 1 2) fun d => (d.get? "y").any fun a => isArr a 2 1 2 [4, 4, 4, 4]

#guard okAnd (genInitVals (initValMk none none [("init_val", fixedVar 3)] : LatentMdl Unit Float) 2 2 2)
  fun r => isVal r 2 2 2 (List.replicate 8 3)
#guard okAnd (genInitVals (initValMk (some (eqn ["base", "auto_fail"]
      (.bin (fun b f => if f > 0 then b else 0) (v "base") (v "auto_fail")))) (some "Very Unusual")
    [("base", var none (some (seq 0.1 0.1)) none (some 0.6) "offset"),
      ("auto_fail", var (some (seq (-2) 1)) none none (some 0) "offset")] : LatentMdl Unit Float) 2 2 2)
  fun r => isVal r 2 2 2 [0, 0, 0, 0.8, 0.9, 0.9, 1, 1]

/-- `some_shifting`. -/
def shiftMdl : LatentMdl Unit Float :=
  (condShiftMk (some (eqn ["temp", "vdd", "a", "b"] (v "a" * v "temp" + v "b" * (-(v "vdd"))))) (some "TestShift") 0
    [("a", var (some (seq 1 0.1)) none none (some 0.1) "scaling"),
      ("b", var (some (seq 1 0.1)) none none (some 0.5) "scaling")]).1

#guard okAnd (((condShiftMk none none 0 []).1 : LatentMdl Unit Float).compute.invoke []) fun r => isVal r 1 1 1 [0]
#guard okAnd (shiftMdl.genLatentVals 3 1 1) fun d =>
  ((d.get? "a").any fun a => isArr a 1 1 3 [0.1, 0.11, 0.12]) &&
  ((d.get? "b").any fun a => isArr a 1 1 3 [0.5, 0.55, 0.6]) &&
  okAnd (shiftMdl.compute.invoke ([("temp", .scal 25), ("vdd", .scal 0.9)] ++ d.map fun kv => (kv.1, .arr kv.2)))
    fun r => isVal r 1 1 3 [2.05, 2.255, 2.46]
#guard okAnd (calcCondVals shiftMdl [("temp", one 350), ("vdd", one 0.5)] [("a", one 0.01), ("b", one 2)] 1 1 1)
  fun r => isVal r 1 1 1 [2.5]
#guard okAnd (calcCondVals shiftMdl [("temp", arr 1 1 2 [350, 300]), ("vdd", arr 1 1 2 [0.5, 0.25])]
    [("a", arr 1 1 2 [0.02, 0.01]), ("b", arr 1 1 2 [1, 6])] 1 1 1)
  fun r => isVal r 1 1 2 [6.5, 1.5]

/-- `basic_eqn`. -/
def basicEqn : PyFun Unit Float := eqn ["time", "y", "z"] (v "time" * v "y" * v "z")

#guard okAnd (basicEqn.invoke [("time", .scal (-1)), ("y", .scal 1), ("z", .scal 4)]) fun r => isVal r 1 1 1 [-4]
#guard okAnd ((MechMdl.mk' .deg 0 (some basicEqn) (some "hello") 1 none []).calcEquiv (one 8)
    [("y", one 4), ("unused", one 3)] [("z", one 0.5)] 1 1 1) fun a => rounds (a.at' 0 0 0) 4 4

/-- `fail_eqn`; an `if` on an array raises `ValueError`. -/
def failEqn : PyFun Unit Float where
  params := [("time", false), ("temp", false), ("a", false)]
  call := fun args => match args.get? "time", args.get? "temp", args.get? "a" with
    | some (.scal t), some (.scal x), some (.scal a) => pure (.scal (if t * x * a > 10 then 1 else 0))
    | _, _, _ => M.throw .valueError

/-- The mechanism of `test_fail_mech_mdl`. -/
def failMech : MechMdl Unit Float :=
  .mk' .fail 0 (some failEqn) none 0 none
    [("a", var (some ⟨0, .deterministic 1, none⟩) none none none "scaling")]

#guard okAnd (failMech.calcEquiv (one 1) [("temp", one 3)] [("a", one 4)] 1 1 3) fun a => isArr a 1 1 1 [0]
#guard okAnd (failMech.calcDegVals (arr 1 1 3 [3, 4, 5]) (arr 1 1 3 [0, 1, 0]) [("temp", arr 1 1 3 [4, 2, 3])]
  [("a", arr 1 1 3 [1, 0.2, 0.1])] 1 1 3) fun a => isArr a 1 1 3 [1, 1, 0]

/-- The parameter of `test_deg_prm_mdl`. -/
def samplePrm : Except Err (DegPrmMdl Unit Float) :=
  DegPrmMdl.mk' (.one (.mk' .deg 0 (some (eqn ["time", "temp", "a", "b"] (v "time" ^ v "a" * v "temp" ^ v "b")))
      (some "sample_mech") 0 none [("a", var (some (seq 0 0.1)) none none (some 0.3) "offset"),
        ("b", var (some (seq 0 0.1)) none none (some 0.8) "offset")]))
    (some (initValMk none none [("init_val", var (some (seq 0 1)) none none (some 2) "offset")]))
    (some (condShiftMk (some (eqn ["temp", "vdd", "a", "b"] (v "a" * v "temp" ^ v "b" * v "vdd"))) none 0
      [("a", var (some (seq 0 0.1)) none none (some 0.5) "offset"),
        ("b", var (some (seq 0 0.1)) none none (some 1.2) "offset")])) none none none []

#guard isOk samplePrm fun m => okAnd (do
    let lat ← m.genLatentVals 3 1 1
    let ini ← genInitVals m.initMdl 3 1 1
    m.calcDegVals 1 1 3 [("sample_mech", one 10)]
      [("temp", arr 1 1 3 [25, 26, 30]), ("vdd", arr 1 1 3 [0.5, 0.55, 0.55])] ini lat
      [("sample_mech", Arr3.full 1 1 3 0)]) fun r => isVal r.1 1 1 3 [28.2031, 50.1494, 98.8683]
#guard isOk samplePrm fun m => okAnd (do
    let lat ← m.genLatentVals 3 1 1
    m.calcCondShifted 1 1 3 [("temp", one 125), ("vdd", one 0.6)] (.arr (arr 1 1 3 [28.2031, 50.1494, 98.8683])) lat)
  fun r => isVal r 1 1 3 [126.6979, 241.7009, 461.0473]
#guard isOk samplePrm fun m => okAnd (do
    let lat ← m.genLatentVals 3 1 1
    m.calcEquivTimes 1 1 3 [("sample_mech", arr 1 1 3 [26.2031, 47.1494, 94.8683])]
      [("temp", arr 1 1 3 [25, 26, 30]), ("vdd", arr 1 1 3 [0.5, 0.55, 0.55])]
      [("sample_mech", Arr3.full 1 1 3 0)] lat)
  fun r => (r.get? "sample_mech").any fun a => isArr (a.map fun x => roundDec x 4) 1 1 3 [10, 10, 10]
#guard isOk samplePrm fun m => okAnd (do
    let lat ← m.genLatentVals 3 1 1
    m.calcEquivTimes 1 1 3 [("sample_mech", arr 1 1 3 [26.2031, 47.1494, 94.8683])]
      [("temp", one 26), ("vdd", one 0.55)] [("sample_mech", Arr3.full 1 1 3 0)] lat)
  fun r => (r.get? "sample_mech").any fun a => isArr (a.map fun x => roundDec x 4) 1 1 3 [9.007, 10, 13.3136]

end Gerabaldi.Tests
