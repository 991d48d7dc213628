import Verif.Model.CookbookMech
import Verif.Model.Sim

/-!
# Model of the demonstrations (`demos/`)

The tests, environments and devices they build, not the plots.
-/

namespace Gerabaldi

section
variable {W V : Type} [PyNum V]
open PyArith

/-! ## `demos/basic_use.py` -/

/-- `ex_eqn`, `demos/basic_use.py:49-50`. -/
def basicExpr : NumExpr V :=
  .bin mul (.bin mul (.arg "time") (.un neg (.arg "a"))) (.arg "temp")

/-- Its signature, line 49. -/
def basicParams : List String := ["time", "temp", "a"]

/-- `DegMechMdl(ex_eqn, a=LatentVar(Normal(1e-3, 2e-4)), time_unit='h')`, `demos/basic_use.py:53`, for any
mean and deviation. -/
def basicMech (mu sigma : ℚ) : Except Err (MechMdl W V) := do
  let a ← devNormal 1 mu sigma
  pure (MechMdl.mk' .deg 0 (some (basicExpr.fn basicParams)) none (ofRat 0) (some "h") [("a", a)])

/-- The device, `demos/basic_use.py:52-54`; the mechanism object has its own time unit. -/
def basicDevice (mu sigma : ℚ) : Except Err (DeviceMdl W V) := do
  let k ← basicMech mu sigma
  let p ← DegPrmMdl.mk' (.many [("linear", k)]) none none none none none []
  let d ← DeviceMdl.mk' (.many [("example_prm", .deg p)]) none fun _ => k.timeUnit
  pure d.1

/-- The test, `demos/basic_use.py:37-39`: `n` devices measured at `cold`, stressed at `hot` for `hours`, and
measured again. -/
def basicTest (n : Nat) (cold hot : V) (hours : ℚ) : Except Err (TestSpec V) := do
  let meas : MeasSpec V := ⟨[("example_prm", n)], [("temp", cold)], "unspecified"⟩
  let strs ← StrsSpec.mk' [("temp", hot)] (.num hours) "unspecified" (some "h")
  pure { steps := [.meas meas, .strs strs, .meas meas] }

/-- `run_simulation`, `demos/basic_use.py:28-59`, with the ideal environment `PhysTestEnv()`. -/
def basicDemo [Rng W V] (ord : SetOrder) (mu sigma : ℚ) (n : Nat) (cold hot : V) (hours : ℚ) :
    M W (SimReport V) := do
  let test ← M.ofExcept (basicTest n cold hot hours)
  let dev ← M.ofExcept (basicDevice mu sigma)
  simulate ord test dev ⟨[], []⟩ none

/-! ## `demos/riverbed_erosion.py` -/

/-- `np.maximum` on two numbers: the larger one, NaN if one is NaN. -/
def npMaximum (x y : V) : V :=
  if !eq x x then x else if !eq y y then y else if lt x y then y else x

/-- `fluvial_erosion_riverbed`, `demos/riverbed_erosion.py:72-74`. -/
def riverExpr : NumExpr V :=
  .bin mul (.arg "time")
    (.bin npMaximum
      (.bin mul (.arg "k_d") (.bin sub (.bin mul (.arg "alpha") (.arg "tau")) (.arg "tau_c")))
      (.lit (ofRat 0)))

/-- Its signature, line 72. -/
def riverParams : List String := ["time", "k_d", "tau_c", "alpha", "tau"]

/-- `riverbed_level`, `demos/riverbed_erosion.py:76-77`. -/
def riverLevel : NumExpr V := .bin add (.bin sub (.arg "init") (.arg "erosion")) (.arg "cond")

/-- Its signature, line 76. -/
def riverLevelParams : List String := ["init", "erosion", "cond"]

/-- The mechanism, `demos/riverbed_erosion.py:84-89`; the positional arguments of `LatentVar` are the
variations between devices and between chips. The numbers identify the random variable objects. -/
def riverMech : Except Err (MechMdl W V) := do
  let kd ← LatentVar.mk' none none none (some (ofRat (1 / 100000))) none "scaling"
  let tauc ← LatentVar.mk' (some (normalVar 1 (24 / 10) (2 / 100))) (some (normalVar 2 1 (2 / 10))) none none
    none "scaling"
  let alpha ← LatentVar.mk' (some (normalVar 3 (9 / 10) (1 / 100))) (some (normalVar 4 1 (4 / 100))) none none
    none "scaling"
  pure (MechMdl.mk' .deg 0 (some (riverExpr.fn riverParams)) none (ofRat 0) none
    [("k_d", kd), ("tau_c", tauc), ("alpha", alpha)])

/-- The device, `demos/riverbed_erosion.py:79-95`. -/
def riverDevice : Except Err (DeviceMdl W V) := do
  let k ← riverMech
  let init ← LatentVar.mk' (some (normalVar 5 (-2) (1 / 100))) (some (normalVar 6 1 (2 / 100))) none none none
    "scaling"
  let p ← DegPrmMdl.mk' (.many [("erosion", k)]) (some (initValMk none none [("init_val", init)])) none
    (some (riverLevel.fn riverLevelParams)) (some "riverbed_level") (some "hours") []
  let d ← DeviceMdl.mk' (.one (.deg p)) none fun _ => none
  pure d.1

/-- The environment, `demos/riverbed_erosion.py:56-65`. -/
def riverEnv : Except Err (PhysTestEnv V) := do
  let tau ← EnvVrtnMdl.mk' (some (normalVar 7 0 (2 / 10))) (some (normalVar 8 0 (8 / 10)))
    (some (normalVar 9 0 (12 / 10))) "offset" none
  pure ⟨[("tau", { tau with name := some "tau" })],
    [("riverbed_level", { precision := some 3, error := some (normalVar 10 0 (5 / 1000)) })]⟩

/-- The measurement step, `demos/riverbed_erosion.py:41`. -/
def riverMeas (samples : Nat) : MeasSpec V :=
  ⟨[("riverbed_level", samples)], [("tau", ofRat 3)], "Bed Height Sampling"⟩

/-- One season, `demos/riverbed_erosion.py:43-46`. -/
def riverSeason (tau : ℚ) (name : String) : Except Err (StrsSpec V) :=
  StrsSpec.mk' [("tau", ofRat tau)] (.num (8760 / 4)) (name ++ " Season Flow") (some "h")

/-- The test, `demos/riverbed_erosion.py:41-51`, for any numbers of locations, rivers and years. -/
def riverTest (fuel samples rivers years : Nat) : Option (Except Err (TestSpec V)) :=
  match riverSeason 4 "Summer", riverSeason 2 "Autumn", riverSeason 2 "Winter", riverSeason 7 "Spring" with
  | .ok su, .ok au, .ok wi, .ok sp =>
    match appendSteps fuel [.meas (riverMeas samples)]
      (.many [.strs sp, .strs su, .strs au, .strs wi, .meas (riverMeas samples)])
      (some (.num (years * 8760))) (some "h") with
    | none => none
    | some (.error e, _) => some (.error e)
    | some (.ok (), steps) => some (.ok
      { steps := steps, numChps := rivers, numLots := 1, name := "Riverbed Erosion Process" })
  | .error e, _, _, _ => some (.error e)
  | _, .error e, _, _ => some (.error e)
  | _, _, .error e, _ => some (.error e)
  | _, _, _, .error e => some (.error e)

end

/-! ## `demos/vts_paper_tddb_model_sensitivity.py` -/

section
variable {W V : Type} [PyNum V] [PyTrans V] [Rng W V]
open PyArith

/-- The truth value of a comparison of a value with numbers: `ValueError` for an array that does not have
exactly one element (older numpy versions take an empty array for false). -/
def onlyElem : PyVal V → Except Err V
  | .scal x => .ok x
  | .npscal x => .ok x
  | .arr a => match a.data with
    | [x] => .ok x
    | _ => .error .valueError

/-- `time * defect_gen_prob`, `demos/vts_paper_tddb_model_sensitivity.py:46-47`. -/
def defectExpr : NumExpr V :=
  .bin mul (.arg "time")
    (.bin mul (.bin mul (.arg "c") (.bin div (.arg "v_g") (.arg "t_diel")))
      (.bin div (.bin PyTrans.pow (.arg "temp") (.arg "thermal_dist")) (.arg "bond_strength")))

/-- The signature, line 43. -/
def defectParams : List String := ["time", "temp", "v_g", "t_diel", "c", "bond_strength", "thermal_dist"]

/-- `1 if Uniform().sample() < prob else 0`, `demos/vts_paper_tddb_model_sensitivity.py:48`, for the one
number drawn. -/
def defectBranch (us : List V) (prob : PyVal V) : Except Err (PyVal V) :=
  match us with
  | [u] => match onlyElem prob with
    | .ok p => .ok (.scal (if lt u p then ofRat 1 else ofRat 0))
    | .error e => .error e
  | _ => .error .unmodelled

/-- `defect_generator_demo_model`, `demos/vts_paper_tddb_model_sensitivity.py:43-48`. Each call makes a new
`Uniform()` with a fresh generator; here all calls draw from one stream, object number 20. -/
def defectFn : PyFun W V where
  params := defectParams.map fun p => (p, false)
  call := fun args => do
    let prob ← M.ofExcept (defectExpr.eval args)
    let us ← RVar.sample ⟨20, .uniform (ofRat 0) (ofRat 1), none⟩ 1
    M.ofExcept (defectBranch us prob)

/-- The names of the possible defects, `demos/vts_paper_tddb_model_sensitivity.py:142`. -/
def defectNames : List String :=
  ["defect0", "defect1", "defect2", "defect3", "defect4", "defect5", "defect6", "defect7", "defect8",
    "defect9", "defect10", "defect11"]

/-- The signature of `oxide_failed`, lines 86-102. -/
def oxideParams : List String := "init" :: "cond" :: "threshold" :: defectNames

/-- Some column of the layout of 3 rows and 4 columns is all `true`: lines 104-115 of
`demos/vts_paper_tddb_model_sensitivity.py`. Column `i` of the reshaped list is entries `i`, `4 + i` and
`8 + i`. -/
def conductive (formed : List Bool) : Bool :=
  (List.range 4).any fun i => formed.getD i false && formed.getD (4 + i) false && formed.getD (8 + i) false

/-- `oxide_failed`, `demos/vts_paper_tddb_model_sensitivity.py:86-117`. Arrays with more than one element
raise `ValueError`: the defects cannot be reshaped, the comparisons have no truth value. A mixture of
numbers and arrays of one element for the defects, which numpy also rejects, is not singled out. -/
def oxideVal (args : Dict (PyVal V)) : Except Err (PyVal V) := do
  let init ← args.getE "init"
  let threshold ← args.getE "threshold"
  let ds ← defectNames.mapM fun k => do
    let x ← args.getE k
    onlyElem x
  let t ← onlyElem threshold
  if conductive (ds.map fun x => lt t x) then pure (.scal (ofRat 0)) else do
    let i ← onlyElem init
    pure (.scal (if eq i (ofRat 0) then ofRat 0 else ofRat 1))

/-- The same as a function object. -/
def oxideFn : PyFun W V where
  params := oxideParams.map fun p => (p, false)
  call := fun args => M.ofExcept (oxideVal args)

/-- `LatentVar(deter_val=v)`. -/
def fixedLatent (v : V) : Except Err (LatentVar V) := LatentVar.mk' none none none (some v) none "scaling"

/-- The mechanism, `demos/vts_paper_tddb_model_sensitivity.py:135-141`, for any constant `c` and exponent. -/
def defectMech (c thermal : ℚ) : Except Err (MechMdl W V) := do
  let cv ← fixedLatent (ofRat c)
  let t ← fixedLatent (ofRat 3)
  let b ← fixedLatent (ofRat 200)
  let th ← fixedLatent (ofRat thermal)
  pure (MechMdl.mk' .fail 0 (some defectFn) none (ofRat 0) none
    [("c", cv), ("t_diel", t), ("bond_strength", b), ("thermal_dist", th)])

/-- The device, `demos/vts_paper_tddb_model_sensitivity.py:142-156`: twelve times the same mechanism object. -/
def tddbDevice (c thermal : ℚ) : Except Err (DeviceMdl W V) := do
  let k ← defectMech c thermal
  let init ← fixedLatent (ofRat 1)
  let th ← fixedLatent (ofRat (1 / 2))
  let p ← DegPrmMdl.mk' (.many (defectNames.map fun n => (n, k)))
    (some (initValMk none none [("init_val", init)])) none (some oxideFn) (some "tddb") (some "hours")
    [("threshold", th)]
  let d ← DeviceMdl.mk' (.one (.deg p)) none fun _ => none
  pure d.1

/-- The environment, `demos/vts_paper_tddb_model_sensitivity.py:124-130`; the numbers identify the random
variable objects. -/
def tddbEnv : Except Err (PhysTestEnv V) := do
  let temp ← EnvVrtnMdl.mk' (some ⟨11, .gamma (ofRat 2) (ofRat 1), none⟩) (some (normalVar 12 0 (3 / 10))) none
    "offset" none
  let vg ← EnvVrtnMdl.mk' (some (normalVar 13 0 (1 / 1000))) (some (normalVar 14 0 (3 / 1000))) none "offset"
    none
  pure ⟨[("temp", { temp with name := some "temp" }), ("v_g", { vg with name := some "v_g" })],
    [("temp", { precision := some 4, error := some (normalVar 15 0 1),
                range := some (ofRat (-40), ofRat 150) })]⟩

/-- The measurement step, `demos/vts_paper_tddb_model_sensitivity.py:174`. -/
def tddbMeas (samples : Nat) : MeasSpec V :=
  ⟨[("tddb", samples)], [("temp", ofRat (30815 / 100)), ("v_g", ofRat (9 / 10))], "FailCheck"⟩

/-- One of the weekly loads, `demos/vts_paper_tddb_model_sensitivity.py:170-172`. -/
def tddbUse (temp vg hours : ℚ) (name : String) : Except Err (StrsSpec V) :=
  StrsSpec.mk' [("temp", ofRat temp), ("v_g", ofRat vg)] (.num hours) name (some "h")

/-- The test, `demos/vts_paper_tddb_model_sensitivity.py:170-184`, for any number of samples and of weeks. -/
def tddbTest (fuel samples weeks : Nat) : Option (Except Err (TestSpec V)) :=
  match tddbUse (33815 / 100) (9 / 10) 30 "Moderate Loading", tddbUse (36115 / 100) (92 / 100) 16 "Heavy Loading",
    tddbUse (30315 / 100) (87 / 100) 122 "Idle State" with
  | .ok mo, .ok he, .ok id =>
    match appendSteps fuel [.meas (tddbMeas samples)]
      (.many [.strs mo, .strs he, .strs id, .meas (tddbMeas samples)]) (some (.num (168 * weeks))) (some "h") with
    | none => none
    | some (.error e, _) => some (.error e)
    | some (.ok (), steps) => some (.ok { steps := steps, name := "Field Use Sim" })
  | .error e, _, _ => some (.error e)
  | _, .error e, _ => some (.error e)
  | _, _, .error e => some (.error e)

end

end Gerabaldi
