import Verif.Model.Demos

/-!
# `demos/vts_paper_presilicon_variability.py`

The numbers of samples, chips, lots and cycles are arguments. Decimal fractions stand for themselves.
-/

namespace Gerabaldi

section edit
variable {W V : Type} [PyArith V]

/-- `mdl.latent_var(var).<attr> = value`, `gerabaldi/models/devices.py:284-298` and 123-165: the model with the
changed variable. `getattr` raises `AttributeError` for an unknown name. -/
def LatentMdl.editLatent (m : LatentMdl W V) (var : String) (a : LatentAssign V) : Except Err (LatentMdl W V) :=
  match m.latentVars.get? var with
  | none => .error .attributeError
  | some lv => match lv.assign a with
    | .error e => .error e
    | .ok lv' => .ok { m with latentVars := m.latentVars.set var lv' }

/-- `prm.mech_mdl(mech).latent_var(var).<attr> = value`, `gerabaldi/models/devices.py:880-893`. The mechanism
object is taken to belong to this parameter only. -/
def DegPrmMdl.editMech (p : DegPrmMdl W V) (mech var : String) (a : LatentAssign V) :
    Except Err (DegPrmMdl W V) :=
  match p.mechs.get? mech with
  | none => .error .attributeError
  | some m => match m.mdl.editLatent var a with
    | .error e => .error e
    | .ok l => .ok { p with mechs := p.mechs.set mech { m with mdl := l } }

/-- `prm.init_mdl.latent_var(var).<attr> = value`. -/
def DegPrmMdl.editInit (p : DegPrmMdl W V) (var : String) (a : LatentAssign V) : Except Err (DegPrmMdl W V) :=
  match p.initMdl.editLatent var a with
  | .error e => .error e
  | .ok l => .ok { p with initMdl := l }

/-- A change of the degraded parameter `dev.prm_mdl(prm)`, `gerabaldi/models/devices.py:1273-1286`. Circuit
parameters have neither `mech_mdl` nor `init_mdl`. -/
def DeviceMdl.editPrm (dev : DeviceMdl W V) (prm : String)
    (f : DegPrmMdl W V → Except Err (DegPrmMdl W V)) : Except Err (DeviceMdl W V) :=
  match dev.prms.get? prm with
  | some (.deg p) => match f p with
    | .error e => .error e
    | .ok p' => .ok { dev with prms := dev.prms.set prm (.deg p') }
  | _ => .error .attributeError

end edit

section
variable {W V : Type} [PyNum V] [PyTrans V]
open PyArith

/-- `hci_vth_shift_empirical`, `demos/vts_paper_presilicon_variability.py:91-92`. -/
def hciExpr : NumExpr V :=
  .bin mul
    (.bin mul
      (.bin mul (.arg "a_0") (.un PyTrans.exp (.bin div (.un neg (.arg "alpha")) (.arg "vdd"))))
      (.bin mul (.arg "t_0") (.bin PyTrans.pow (.arg "temp") (.un neg (.arg "beta")))))
    (.bin PyTrans.pow (.arg "time") (.arg "n"))

/-- Its signature, line 91. -/
def hciParams : List String := ["time", "vdd", "temp", "a_0", "n", "t_0", "beta", "alpha"]

/-- `v_th_eqn`, `demos/vts_paper_presilicon_variability.py:95-96`. -/
def vthExpr : NumExpr V :=
  .bin add (.bin add (.bin add (.arg "init") (.arg "bti")) (.arg "hci")) (.arg "cond")

/-- Its signature, line 95. -/
def vthParams : List String := ["init", "bti", "hci", "cond"]

/-- `v_gs - v_th`, lines 99-100 and 104 of `demos/vts_paper_presilicon_variability.py`, with `v_gs = frac * vdd`. -/
def overdrive (frac : ℚ) : NumExpr V := .bin sub (.bin mul (.lit (ofRat frac)) (.arg "vdd")) (.arg "v_th")

/-- `i_d`, lines 101-102; numpy computes the square as a product. -/
def drainCurrent (frac : ℚ) : NumExpr V :=
  .bin mul
    (.bin mul (.lit (ofRat (1 / 2)))
      (.bin mul (.bin mul (.arg "u_n") (.arg "c_ox")) (.bin div (.arg "w") (.arg "l"))))
    (.bin mul (overdrive frac) (overdrive frac))

/-- `amp_gain_eqn`, `demos/vts_paper_presilicon_variability.py:98-106`. -/
def ampExpr : NumExpr V :=
  .bin mul
    (.bin div (.bin mul (.lit (ofRat 2)) (drainCurrent (54 / 100))) (overdrive (54 / 100)))
    (.bin div (.bin mul (.arg "v_e") (.arg "l")) (drainCurrent (69 / 100)))

/-- Its signature, line 98. -/
def ampParams : List String := ["v_th", "u_n", "c_ox", "w", "l", "v_e", "vdd"]

/-- A latent variable of the demonstration: `LatentVar(Normal(..), chp_vrtn_mdl=Normal(..),
lot_vrtn_mdl=Normal(..), vrtn_type=..)`. The numbers identify the random variable objects. -/
def ampLatent (i : Nat) (dev : ℚ × ℚ) (chp lot : Option (ℚ × ℚ)) (type : String) : Except Err (LatentVar V) :=
  LatentVar.mk' (some (normalVar i dev.1 dev.2)) (chp.map fun x => normalVar (i + 1) x.1 x.2)
    (lot.map fun x => normalVar (i + 2) x.1 x.2) none none type

/-- The mechanism 'bti', `demos/vts_paper_presilicon_variability.py:112-120`. Its equation is that of the
cookbook's `jedec_nbti_mdl`. -/
def ampBti : Except Err (MechMdl W V) := do
  let a0 ← ampLatent 100 (6 / 1000, 5 / 10000) none none "scaling"
  let eaa ← ampLatent 110 (-5 / 100, 2 / 10000) (some (1, 3 / 10000)) (some (1, 1 / 10000)) "scaling"
  let alpha ← ampLatent 120 (95 / 10, 2 / 1000) (some (1, 5 / 1000)) none "scaling"
  let n ← ampLatent 130 (4 / 10, 5 / 10000) none none "scaling"
  pure (MechMdl.mk' .deg 0 (some (nbtiExpr.fn nbtiParams)) none (ofRat 0) none
    [("a_0", a0), ("e_aa", eaa), ("alpha", alpha), ("n", n)])

/-- The mechanism 'hci', `demos/vts_paper_presilicon_variability.py:121-128`. -/
def ampHci : Except Err (MechMdl W V) := do
  let a0 ← ampLatent 200 (1 / 10, 4 / 1000) none none "scaling"
  let n ← ampLatent 210 (62 / 100, 3 / 1000) none none "scaling"
  let alpha ← ampLatent 220 (72 / 10, 3 / 100) (some (1, 4 / 100)) none "scaling"
  let beta ← ampLatent 230 (11 / 10, 2 / 1000) (some (1, 1 / 1000)) (some (1, 1 / 100)) "scaling"
  let t0 ← ampLatent 240 (500, 1 / 1000) none none "scaling"
  pure (MechMdl.mk' .deg 1 (some (hciExpr.fn hciParams)) none (ofRat 0) none
    [("a_0", a0), ("n", n), ("alpha", alpha), ("beta", beta), ("t_0", t0)])

/-- The device of the current process, `demos/vts_paper_presilicon_variability.py:108-150`. -/
def ampDevice : Except Err (DeviceMdl W V) := do
  let bti ← ampBti
  let hci ← ampHci
  let init ← ampLatent 300 (42 / 100, 1 / 10000) (some (0, 2 / 10000)) (some (0, 3 / 10000)) "offset"
  let un ← fixedLatent (ofRat 1)
  let cox ← fixedLatent (ofRat 1)
  let w ← fixedLatent (ofRat 8)
  let l ← fixedLatent (ofRat 2)
  let ve ← fixedLatent (ofRat 5)
  let p ← DegPrmMdl.mk' (.many [("bti", bti), ("hci", hci)])
    (some (initValMk none none [("init_val", init)])) none (some (vthExpr.fn vthParams)) none none []
  let d ← DeviceMdl.mk' (.many [("v_th", .deg p), ("amp_gain", .circ
    { compute := ampExpr.fn ampParams
      latentVars := nameLatents [("u_n", un), ("c_ox", cox), ("w", w), ("l", l), ("v_e", ve)] })])
    (some "hours") fun _ => none
  pure d.1

/-- The change to the new process, `demos/vts_paper_presilicon_variability.py:165-167`. -/
def ampNewProcess (dev : DeviceMdl W V) : Except Err (DeviceMdl W V) := do
  let d1 ← dev.editPrm "v_th" fun p => p.editInit "init_val" (.lot (some (normalVar 400 0 (6 / 10000))))
  let d2 ← d1.editPrm "v_th" fun p => p.editMech "bti" "alpha" (.chp (some (normalVar 410 1 (1 / 100))))
  d2.editPrm "v_th" fun p => p.editMech "hci" "alpha" (.chp (some (normalVar 420 1 (8 / 100))))

/-- The environment, `demos/vts_paper_presilicon_variability.py:75-80`. -/
def ampEnv : Except Err (PhysTestEnv V) := do
  let temp ← EnvVrtnMdl.mk' (some (normalVar 500 0 (5 / 100))) (some (normalVar 501 0 (2 / 10))) none "offset" none
  let vdd ← EnvVrtnMdl.mk' (some (normalVar 510 0 (3 / 10000))) (some (normalVar 511 0 (5 / 10000))) none "offset"
    none
  pure ⟨[("temp", { temp with name := some "temp" }), ("vdd", { vdd with name := some "vdd" })], []⟩

/-- The measurement step, `demos/vts_paper_presilicon_variability.py:52`. -/
def ampMeas (n : Nat) : MeasSpec V :=
  ⟨[("amp_gain", n)], [("temp", ofRat (30315 / 100)), ("vdd", ofRat (86 / 100))], "Measure All"⟩

/-- A stress step, lines 55, 60, 65 and 69. -/
def ampUse (temp vdd hours : ℚ) (name : String) : Except Err (StrsSpec V) :=
  StrsSpec.mk' [("temp", ofRat temp), ("vdd", ofRat vdd)] (.num hours) name (some "h")

/-- The high and low temperature tests, `demos/vts_paper_presilicon_variability.py:55-57` and 60-62, for any number
of intervals of 50 hours. -/
def ampLoopTest (fuel n chps lots cycles : Nat) (celsius : ℚ) (stress test : String) :
    Option (Except Err (TestSpec V)) :=
  match ampUse (celsius + 27315 / 100) (92 / 100) 50 stress with
  | .error e => some (.error e)
  | .ok st => match appendSteps fuel [.meas (ampMeas n)] (.many [.strs st, .meas (ampMeas n)])
      (some (.num (50 * cycles))) (some "h") with
    | none => none
    | some (.error e, _) => some (.error e)
    | some (.ok (), steps) => some (.ok { steps := steps, numChps := chps, numLots := lots, name := test })

/-- The loop of the ramp test, `demos/vts_paper_presilicon_variability.py:67-70`, from cycle `i` on. Without
`loop_for_duration` the steps are simply appended. -/
def ampRamp (n : Nat) (relax : StrsSpec V) (i : Nat) : Nat → List (Step V) → Except Err (List (Step V))
  | 0, steps => .ok steps
  | k + 1, steps =>
    match ampUse (100 + 10 * i + 27315 / 100) (88 / 100 + 2 / 100 * i) 90 (s!"Ramp Cycle Stress {i + 1}") with
    | .error e => .error e
    | .ok st => match appendSteps 0 steps
        (.many [.strs st, .meas (ampMeas n), .strs relax, .meas (ampMeas n)]) none none with
      | some (.ok (), steps') => ampRamp n relax (i + 1) k steps'
      | some (.error e, _) => .error e
      | none => .error .unmodelled

/-- The ramp test, `demos/vts_paper_presilicon_variability.py:65-70`, for any number of cycles. -/
def ampRampTest (n chps lots cycles : Nat) : Except Err (TestSpec V) := do
  let relax ← ampUse (30315 / 100) (86 / 100) 10 "Ramp Cycle Relax"
  let steps ← ampRamp n relax 0 cycles [.meas (ampMeas n)]
  pure { steps := steps, numChps := chps, numLots := lots, name := "Ramp to Failure Test" }

end

end Gerabaldi
