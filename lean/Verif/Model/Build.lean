import Verif.Model.Device

/-!
# Model constructors: default equations and time units (`gerabaldi/models/devices.py`)
-/

namespace Gerabaldi

section
variable {W V : Type} [PyNum V]

/-- The default equation of `LatentMdl`, `gerabaldi/models/devices.py:266-269`, and of `InitValMdl`, lines
761-766: returns its only argument. -/
def argEqn (arg : String) : PyFun W V where
  params := [(arg, false)]
  call := fun args => M.ofExcept (args.getE arg)

/-- The default equations `no_wear_out` (`gerabaldi/models/devices.py:374-379`) and `no_cond_shift` (lines
693-698): no parameters at all. -/
def constEqn (v : V) : PyFun W V where
  params := []
  call := fun _ => pure (.scal v)

/-- `MechMdl.__init__` for the three classes, `gerabaldi/models/devices.py:366-382`, 484-506, 573-595. -/
def MechMdl.mk' (kind : MechKind) (obj : Nat) (eqn : Option (PyFun W V)) (name : Option String)
    (unitary : V) (timeUnit : Option String) (latents : Dict (LatentVar V)) : MechMdl W V where
  kind := kind
  mdl := { compute := eqn.getD (constEqn unitary), latentVars := nameLatents latents, name := name }
  unitary := unitary
  timeUnit := timeUnit
  obj := obj

/-- `CondShiftMdl.__init__`, `gerabaldi/models/devices.py:678-700`: the model and its neutral value. -/
def condShiftMk (eqn : Option (PyFun W V)) (name : Option String) (unitary : V)
    (latents : Dict (LatentVar V)) : LatentMdl W V × V :=
  ({ compute := eqn.getD (constEqn unitary), latentVars := nameLatents latents, name := name }, unitary)

/-- `InitValMdl.__init__`, `gerabaldi/models/devices.py:749-767`. -/
def initValMk (eqn : Option (PyFun W V)) (name : Option String) (latents : Dict (LatentVar V)) :
    LatentMdl W V where
  compute := eqn.getD (argEqn "init_val")
  latentVars := nameLatents latents
  name := name

/-- `LatentVar(deter_val=v)`: no variation, of the default type 'scaling'
(`gerabaldi/models/devices.py:83-121`). -/
def constLatent (v : V) : LatentVar V :=
  { (LatentVar.blank : LatentVar V) with
    unitary := PyArith.ofRat 1, dev := detUnit (PyArith.ofRat 1), chp := detUnit (PyArith.ofRat 1),
    lot := detUnit (PyArith.ofRat 1), deterVal := some v, vrtnType := some .scaling }

theorem constLatent_eq (v : V) : LatentVar.mk' none none none (some v) none "scaling" = .ok (constLatent v) :=
  rfl

/-- The `deg_mech_mdls` argument: one named mechanism or a dictionary. -/
inductive MechArg (W V : Type)
  | one (m : MechMdl W V)
  | many (d : Dict (MechMdl W V))

/-- Lines 852-862 of `gerabaldi/models/devices.py`. A missing or empty name raises `UserConfigError`. One
object under several names would end up with the last of them; here every entry has its own. -/
def MechArg.toDict : MechArg W V → Except Err (Dict (MechMdl W V))
  | .many d => .ok (d.map fun kv => (kv.1, { kv.2 with mdl := { kv.2.mdl with name := some kv.1 } }))
  | .one m => match m.mdl.name with
    | some n => if n = "" then .error .userConfig else .ok [(n, m)]
    | none => .error .userConfig

/-- `DegPrmMdl.__init__`, `gerabaldi/models/devices.py:817-872`. -/
def DegPrmMdl.mk' (mechs : MechArg W V) (initMdl : Option (LatentMdl W V))
    (cond : Option (LatentMdl W V × V)) (eqn : Option (PyFun W V)) (name : Option String)
    (timeUnit : Option String) (latents : Dict (LatentVar V)) : Except Err (DegPrmMdl W V) :=
  match mechs.toDict with
  | .error e => .error e
  | .ok ms => .ok
    { initMdl := initMdl.getD (initValMk none none [("init_val", constLatent (PyArith.ofRat 0))])
      condMdl := (cond.getD (condShiftMk none none (PyArith.ofRat 0) [])).1
      condUnitary := (cond.getD (condShiftMk none none (PyArith.ofRat 0) [])).2
      mechs := ms
      mdl := { compute := eqn.getD basicSum, latentVars := nameLatents latents, name := name }
      timeUnit := timeUnit }

end

section
variable {W V : Type}

/-- The `time_unit` attributes of all mechanism objects, by object. -/
abbrev UnitHeap := Nat → Option String

/-- `MechMdl.set_time_unit`, `gerabaldi/models/devices.py:409-415`. -/
def setTimeUnit (h : UnitHeap) (obj : Nat) (prmUnit : Option String) : UnitHeap :=
  fun o => if o = obj ∧ h obj = none then some (prmUnit.getD "h") else h o

/-- One mechanism of `DegPrmMdl.propagate_time_unit`, `gerabaldi/models/devices.py:876-878`. -/
def propagateMech (unit : Option String) (h : UnitHeap) (kv : String × MechMdl W V) : UnitHeap :=
  match kv.2.kind with
  | .base => h
  | _ => setTimeUnit h kv.2.obj unit

/-- `self.time_unit if self.time_unit else dev_time_unit`, `gerabaldi/models/devices.py:875`: the empty
string counts as no unit. -/
def prmTimeUnit (prm dev : Option String) : Option String :=
  match prm with
  | some s => if s = "" then dev else some s
  | none => dev

/-- `propagate_time_unit` for one parameter, `gerabaldi/models/devices.py:874-878` and 1270-1271. -/
def propagatePrm (devUnit : Option String) (h : UnitHeap) (kv : String × PrmMdl W V) : UnitHeap :=
  match kv.2 with
  | .circ _ => h
  | .deg m => m.mechs.foldl (propagateMech (prmTimeUnit m.timeUnit devUnit)) h

/-- `DeviceMdl.propagate_time_unit`, `gerabaldi/models/devices.py:1268-1271`, run by the constructor
(line 1266). -/
def DeviceMdl.propagate (dev : DeviceMdl W V) (h : UnitHeap) : UnitHeap :=
  dev.prms.foldl (propagatePrm dev.timeUnit) h

/-- The device with the time units its mechanism objects have in the heap. -/
def DeviceMdl.withUnits (dev : DeviceMdl W V) (h : UnitHeap) : DeviceMdl W V :=
  { dev with prms := dev.prms.map fun kv => (kv.1, match kv.2 with
    | .circ c => .circ c
    | .deg m => .deg { m with mechs := m.mechs.map fun km =>
        (km.1, { km.2 with timeUnit := h km.2.obj }) }) }

/-- The `prm_mdls` argument of `DeviceMdl`: one named parameter model or a dictionary. -/
inductive PrmArg (W V : Type)
  | one (m : PrmMdl W V)
  | many (d : Dict (PrmMdl W V))

/-- The name of a parameter model. -/
def PrmMdl.name : PrmMdl W V → Option String
  | .deg m => m.mdl.name
  | .circ m => m.name

/-- `prm_mdls[prm].name = prm`, `gerabaldi/models/devices.py:1258`. -/
def PrmMdl.setName (n : String) : PrmMdl W V → PrmMdl W V
  | .deg m => .deg { m with mdl := { m.mdl with name := some n } }
  | .circ m => .circ { m with name := some n }

/-- Lines 1255-1265 of `gerabaldi/models/devices.py`. -/
def PrmArg.toDict : PrmArg W V → Except Err (Dict (PrmMdl W V))
  | .many d => .ok (d.map fun kv => (kv.1, kv.2.setName kv.1))
  | .one m => match m.name with
    | some n => if n = "" then .error .userConfig else .ok [(n, m)]
    | none => .error .userConfig

/-- `DeviceMdl.__init__`, `gerabaldi/models/devices.py:1240-1266`: the device and the time units
afterwards. -/
def DeviceMdl.mk' (prms : PrmArg W V) (timeUnit : Option String) (h : UnitHeap) :
    Except Err (DeviceMdl W V × UnitHeap) :=
  match prms.toDict with
  | .error e => .error e
  | .ok d =>
    let dev : DeviceMdl W V := ⟨d, timeUnit⟩
    .ok (dev.withUnits (dev.propagate h), dev.propagate h)

end

end Gerabaldi
