import Verif.Tests.Repo

/-!
# The simulation tests of the repository

`/repo/tests/unit_tests/top_level_test.py` and `/repo/tests/feature_tests/timescales_test.py`. Assertions about
seeded numpy streams are left out. These are checks of the model, not theorems.
-/

namespace Gerabaldi.Tests

/-- A device with one parameter. -/
def device (prms : PrmArg Unit Float) (unit : Option String) : DeviceMdl Unit Float :=
  match DeviceMdl.mk' prms unit fun _ => none with
  | .ok d => d.1
  | .error _ => ⟨[], none⟩

/-- `DegPrmMdl(DegMechMdl(...), init, cond, prm_name=name, time_unit=unit)`. -/
def prm (mech : MechMdl Unit Float) (init : Option (LatentMdl Unit Float)) (cnd : Option (LatentMdl Unit Float × Float))
    (name : String) (unit : Option String) : PrmArg Unit Float :=
  match DegPrmMdl.mk' (.one mech) init cnd none (some name) unit [] with
  | .ok p => .one (.deg p)
  | .error _ => .many []

/-- The units the mechanism objects start with must be in the heap as well. -/
def deviceU (p : DegPrmMdl Unit Float) (name : String) (unit : Option String) : DeviceMdl Unit Float :=
  match DeviceMdl.mk' (.many [(name, .deg p)]) unit
    (fun o => (p.mechs.find? fun kv => kv.2.obj == o).bind fun kv => kv.2.timeUnit) with
  | .ok d => d.1
  | .error _ => ⟨[], none⟩

/-! ## `test_init_state_basic` -/

/-- `silly_eqn` with the latent "rhyme". -/
def sillyDev : DeviceMdl Unit Float :=
  device (prm (.mk' .deg 0 (some (eqn ["time", "rhyme"] (v "rhyme" * v "time"))) (some "some mech") 0 none
    [("rhyme", fixedVar 2)]) none none "some param" none) none

#guard okAnd (genInitState sillyDev (some [("some param", 10)]) 1 1 none (.num 0)) fun r =>
  (match (r.state.latents.get? "some param").bind (·.get? "some mech") with
    | some (.sub d) => (d.get? "rhyme").any fun a => a.at' 0 0 0 == 2
    | _ => false) &&
  (match r.state.currPrm.get? "some param" with
    | some (.arr a) => a.nd == 10 && a.at' 0 0 9 == 0
    | _ => false) &&
  (match r.state.initPrm.get? "some param" with
    | some (.arr a) => a.at' 0 0 8 == 0
    | _ => false) &&
  r.state.elapsed == .td 0

/-! ## `test_sim_stress_step_basic` -/

/-- `linear_deg`. -/
def logDev : DeviceMdl Unit Float :=
  device (prm (.mk' .deg 0 (some (eqn ["scale_factor", "temp", "time"] (v "scale_factor" * ln (v "temp" * v "time"))))
    (some "mech1") 0 none [("scale_factor", fixedVar 2e-4)])
    (some (initValMk none none [("init_val", fixedVar 4e-3)])) none "current" none) none

/-- The test of `test_sim_stress_step_basic`. -/
def logTest : TestSpec Float :=
  { steps := [ms [("current", 3)] [("temp", 25)], st [("temp", 125)] (hours 20), ms [("current", 3)] [("temp", 25)]],
    numChps := 4, numLots := 2 }

/-- Value `[0][1][2]` of "current". -/
def current (s : SimState Float) : Float :=
  match s.currPrm.get? "current" with
  | some (.arr a) => a.at' 0 1 2
  | _ => -1

#guard okAnd (do
    let r ← genInitState logDev (some (calcSamplesNeeded logTest.steps)) 4 2 none (.num 0)
    simStress order logDev {} ⟨[("temp", 125)], .td (hours 20), "unspecified"⟩ 1 (r.state, SimReport.ofTest logTest))
  fun sr => sr.1.elapsed == .td (hours 20) && rounds (current sr.1) 5 0.00556 &&
    sr.2.summary.map (fun r => r.get? "step name") == [some (.str "unspecified")] &&
    sr.2.summary.map (fun r => r.get? "step type") == [some (.str "stress")] &&
    sr.2.summary.map (fun r => r.get? "step number") == [some (.nat 1)]
#guard okAnd (do
    let r ← genInitState logDev (some (calcSamplesNeeded logTest.steps)) 4 2 none (.num 0)
    let s1 ← simStress order logDev {} ⟨[("temp", 125)], .td (hours 20), "unspecified"⟩ 1
      (r.state, SimReport.ofTest logTest)
    simStress order logDev {} ⟨[("temp", 125)], .td (hours 20), "unspecified"⟩ 2 s1)
  fun sr => rounds (current sr.1) 5 0.00570 &&
    sr.2.summary.map (fun r => r.get? "duration") == [some (.time (.td (hours 20))), some (.time (.td (hours 20)))]

/-! ## `test_sim_meas_step_basic` -/

/-- The device with a conditional shift. -/
def shiftDev : DeviceMdl Unit Float :=
  device (prm (.mk' .deg 0 (some (eqn ["temp"] (v "temp" * k 2))) (some "dummy") 0 none [])
    (some (initValMk none none [("init_val", var (some (seq 1 1e-2)) none none (some 4e-2) "offset")]))
    (some (condShiftMk (some (eqn ["temp", "c"] (v "c" - k 1e-4 * (v "temp" - k 25)))) none 0
      [("c", var (some (seq 0 1e-3)) none none (some 1e-2) "offset")])) "current" none) none

/-- Two instruments of limited precision. -/
def shiftEnv : PhysTestEnv Float :=
  { instms := [("temp", { precision := some 2 }), ("current", { precision := some 5 })] }

#guard okAnd (do
    let r ← genInitState shiftDev (some [("current", 10)]) 2 1 none (.num 10)
    let m : MeasSpec Float := ⟨[("temp", 1), ("current", 8)], [("temp", 125)], "test_meas_spec"⟩
    simMeas order shiftDev shiftEnv m 3 (r.state, SimReport.ofTest { steps := [.meas m], numChps := 2 }))
  fun sr => sr.2.measurements.length == 17 &&
    (sr.2.measurements[0]?.any fun r => r.prm == "temp" && rounds r.measured 5 120) &&
    (sr.2.measurements[2]?.any fun r => rounds r.measured 5 1.051) &&
    (sr.2.measurements[12]?.any fun r => rounds r.measured 5 1.183) &&
    (sr.2.measurements[16]?.any fun r => r.chp == some 1 && r.step == 3) &&
    sr.2.summary.map (fun r => r.get? "step name") == [some (.str "test_meas_spec")] &&
    sr.2.summary.map (fun r => r.get? "step type") == [some (.str "measure")] &&
    sr.2.summary.map (fun r => r.get? "step number") == [some (.nat 3)]

/-! ## `test_wearout_test_sim_basic`: the shape of the report -/

/-- The test with five steps. -/
def wearTest : TestSpec Float :=
  let m := ms [("temp", 1), ("current", 3)] [("temp", 40)]
  let s := st [("temp", 125)] (hours 10)
  { steps := [m, s, m, s, m], numChps := 3, numLots := 2 }

#guard okAnd (do
    let r ← genInitState logDev (some [("current", 3)]) 3 2 none (.num 0)
    simulate order wearTest logDev {} (some r.state))
  fun rep => rep.measurements.length == 57 && rep.summary.length == 5

/-! ## `timescales_test.py`: `test_export_to_json` -/

/-- `ex_eqn`. -/
def exDev : DeviceMdl Unit Float :=
  device (prm (.mk' .deg 0 (some (eqn ["time", "temp", "a"] (v "time" * (-(v "a")) * v "temp"))) (some "linear") 0 none
    [("a", var (some (seq 1e-3 2e-4)) none none none "scaling")]) none none "example_prm" none) none

/-- Numbers are written exactly. -/
def exactEnc : JsonEnc Float := ⟨id, id⟩

/-- The exported unit. -/
def exportedAs (unit name : String) : Bool :=
  let m := ms [("example_prm", 5)] [("temp", 298.15)]
  okAnd (simulate order { steps := [m, st [("temp", 398.15)] (hours 100), m] } exDev {} none) fun r =>
    isOk (r.data.exportJson exactEnc (some unit)) fun j => j.timeUnits == name

#guard exportedAs "h" "hours"
#guard exportedAs "s" "seconds"
#guard exportedAs "ms" "milliseconds"
#guard exportedAs "us" "microseconds"
#guard !exportedAs "test_invalid" "test_invalid"

/-! ## `test_time_unit_propagation` -/

/-- A mechanism object without equation. -/
def mech (kind : MechKind) (obj : Nat) (unit : Option String) : MechMdl Unit Float :=
  .mk' kind obj none none 0 unit []

/-- Five mechanisms in the first parameter, one in the second. -/
def unitDev (unit0 : String) (devUnit : Option String) : Except Err (DeviceMdl Unit Float × UnitHeap) := do
  let p0 ← DegPrmMdl.mk' (.many [("deg_mech_0", mech .deg 0 (some "h")), ("deg_mech_1", mech .deg 1 (some "s")),
    ("deg_mech_2", mech .deg 2 none), ("fail_mech_0", mech .fail 3 (some "ms")), ("fail_mech_1", mech .fail 4 none)])
    none none none none (some unit0) []
  let p1 ← DegPrmMdl.mk' (.many [("deg_mech_3", mech .deg 5 none)]) none none none none none []
  DeviceMdl.mk' (.many [("prm_mdl_0", .deg p0), ("prm_mdl_1", .deg p1)]) devUnit
    (fun o => if o = 0 then some "h" else if o = 1 then some "s" else if o = 3 then some "ms" else none)

#guard isOk (unitDev "us" (some "s")) fun d => (List.range 6).map d.2 ==
  [some "h", some "s", some "us", some "ms", some "us", some "s"]
#guard isOk (unitDev "d" none) fun d => (List.range 6).map d.2 ==
  [some "h", some "s", some "d", some "ms", some "d", some "h"]

/-! ## `test_time_unit` -/

/-- The two readings of "current" after stress, measurement, stress, measurement. -/
def readings (mechUnit prmUnit devUnit : Option String) (d1 d2 : Int) (digits : Int) (y1 y2 : Float) : Bool :=
  match DegPrmMdl.mk' (.one (.mk' .deg 0 (some (eqn ["a", "temp", "time"] (v "a" * v "time" * v "temp")))
      (some "test_mdl") 0 mechUnit [("a", fixedVar 1)])) none none none (some "current") prmUnit [] with
  | .error _ => false
  | .ok p =>
    let m := ms [("current", 1)] [("temp", 25)]
    okAnd (simulate order { steps := [st [("temp", 1)] d1, m, st [("temp", 2)] d2, m] } (deviceU p "current" devUnit) {}
        none)
      fun r => match r.measurements.map (·.measured) with
        | [x1, x2] => rounds x1 digits y1 && rounds x2 digits y2
        | _ => false

#guard readings (some "s") none none (hours 1) (hours 1) 0 3600 10800
#guard readings none (some "ms") none (hours 1) 1000000000 (-2) 3600000 5600000
#guard readings none none (some "d") (hours (24 * 365)) (hours (24 * 356)) 0 365 1077
#guard readings none none none 3600000000 (hours 1) 0 1 3

end Gerabaldi.Tests
