import Verif.Model.Device
import Verif.Model.Instrument

/-!
# Model of test environments (`gerabaldi/models/phys_envs.py:101-457`)
-/

namespace Gerabaldi

/-- An `EnvVrtnMdl` object, `gerabaldi/models/phys_envs.py:101-175`. As for `LatentVar`, random variables
are held by value, their generators are identified by `RVar.id`. -/
structure EnvVrtnMdl (V : Type) where
  unitary : V
  batch : RVar V
  chp : RVar V
  dev : RVar V
  batchDef : Bool
  chpDef : Bool
  devDef : Bool
  name : Option String
  vrtnType : Option VType
  deriving DecidableEq

/-- The assignments a user can make to an `EnvVrtnMdl`. -/
inductive EnvAssign (V : Type)
  | batch (r : Option (RVar V))
  | chp (r : Option (RVar V))
  | dev (r : Option (RVar V))
  | name (s : Option String)
  | vrtnType (s : String)

section vrtn
variable {V : Type} [PyArith V]

/-- `__setattr__` for `batch_vrtn_mdl`, `gerabaldi/models/phys_envs.py:194-197`. -/
def EnvVrtnMdl.setBatch (m : EnvVrtnMdl V) (r : Option (RVar V)) : EnvVrtnMdl V :=
  { m with batchDef := r.isSome, batch := r.getD (detUnit m.unitary) }

/-- `__setattr__` for `chp_vrtn_mdl`, `gerabaldi/models/phys_envs.py:198-201`. -/
def EnvVrtnMdl.setChp (m : EnvVrtnMdl V) (r : Option (RVar V)) : EnvVrtnMdl V :=
  { m with chpDef := r.isSome, chp := r.getD (detUnit m.unitary) }

/-- `__setattr__` for `dev_vrtn_mdl`, `gerabaldi/models/phys_envs.py:202-205`. -/
def EnvVrtnMdl.setDev (m : EnvVrtnMdl V) (r : Option (RVar V)) : EnvVrtnMdl V :=
  { m with devDef := r.isSome, dev := r.getD (detUnit m.unitary) }

/-- `__setattr__` for `vrtn_type`, `gerabaldi/models/phys_envs.py:178-192`. -/
def EnvVrtnMdl.setVrtnType (m : EnvVrtnMdl V) (s : String) : Except Err (EnvVrtnMdl V) :=
  match VType.ofString s with
  | none => .error .invalidType
  | some t =>
    if m.vrtnType = some t then .ok m
    else
      let m1 := { m with unitary := t.unitary }
      let m2 := if !m1.batchDef then m1.setBatch none else m1
      let m3 := if !m2.chpDef then m2.setChp none else m2
      let m4 := if !m3.devDef then m3.setDev none else m3
      .ok { m4 with vrtnType := some t }

/-- One assignment; when it raises the object is unchanged. -/
def EnvVrtnMdl.assign (m : EnvVrtnMdl V) : EnvAssign V → Except Err (EnvVrtnMdl V)
  | .batch r => .ok (m.setBatch r)
  | .chp r => .ok (m.setChp r)
  | .dev r => .ok (m.setDev r)
  | .name s => .ok { m with name := s }
  | .vrtnType s => m.setVrtnType s

/-- A history of assignments; failing ones are caught by the caller. -/
def EnvVrtnMdl.history (m : EnvVrtnMdl V) : List (EnvAssign V) → EnvVrtnMdl V
  | [] => m
  | a :: as => match m.assign a with
    | .ok m' => m'.history as
    | .error _ => m.history as

/-- The object before `__init__` runs its assignments. -/
def EnvVrtnMdl.blank : EnvVrtnMdl V :=
  { unitary := PyArith.ofRat 0, batch := detUnit (PyArith.ofRat 0), chp := detUnit (PyArith.ofRat 0),
    dev := detUnit (PyArith.ofRat 0), batchDef := false, chpDef := false, devDef := false,
    name := none, vrtnType := none }

/-- `EnvVrtnMdl.__init__`, `gerabaldi/models/phys_envs.py:139-175`. -/
def EnvVrtnMdl.mk' (dev chp batch : Option (RVar V)) (vrtnType : String) (name : Option String) :
    Except Err (EnvVrtnMdl V) :=
  let m := { (EnvVrtnMdl.blank : EnvVrtnMdl V) with name := name }
  (((m.setBatch batch).setDev dev).setChp chp).setVrtnType vrtnType

/-- `EnvVrtnMdl()`: variation type 'offset', no layers. -/
def EnvVrtnMdl.ideal : EnvVrtnMdl V :=
  { (EnvVrtnMdl.blank : EnvVrtnMdl V) with vrtnType := some .offset }

/-- The operation in use. -/
def EnvVrtnMdl.op (m : EnvVrtnMdl V) : V → V → V :=
  match m.vrtnType with
  | some t => t.op
  | none => fun x _ => x

/-- The single value of `sample()`. -/
def single (xs : List V) : Except Err V :=
  match xs with
  | [x] => .ok x
  | _ => .error .unmodelled

variable {W : Type} [Rng W V]

/-- `gen_batch_vrtn`, `gerabaldi/models/phys_envs.py:208-222`; the one-element array as a value. -/
def EnvVrtnMdl.genBatch (m : EnvVrtnMdl V) (base : V) : M W V := do
  let xs ← m.batch.sample 1
  let x ← M.ofExcept (single xs)
  pure (m.op base x)

/-- `gen_chp_vrtns`, `gerabaldi/models/phys_envs.py:224-247`; a `(lots, chips)` array is held as
`(lots, chips, 1)`. -/
def EnvVrtnMdl.genChp (m : EnvVrtnMdl V) (base : V) (numChps numLots : Nat) : M W (Arr3 V) := do
  let xs ← m.chp.sample (numChps * numLots)
  let a ← M.ofExcept (Arr3.reshape numLots numChps 1 xs)
  pure (a.map fun x => m.op base x)

/-- `gen_dev_vrtns`, `gerabaldi/models/phys_envs.py:249-276`, for a two-dimensional `base_vals`. -/
def EnvVrtnMdl.genDev (m : EnvVrtnMdl V) (base : Arr3 V) (numDevs : Nat) : M W (Arr3 V) := do
  let xs ← m.dev.sample (numDevs * (base.nl * base.nc))
  let a ← M.ofExcept (Arr3.reshape base.nl base.nc numDevs xs)
  M.ofExcept (Arr3.bcast2 m.op base a)

/-- `gen_env_vrtns`, `gerabaldi/models/phys_envs.py:278-298`. -/
def EnvVrtnMdl.genEnvVrtns (m : EnvVrtnMdl V) (base : V) (numDevs numChps numLots : Nat) :
    M W (Arr3 V) := do
  let b ← m.genBatch base
  let c ← m.genChp b numChps numLots
  m.genDev c numDevs

end vrtn

/-- A `PhysTestEnv`: the attributes `<name>_var` and `<name>_instm` set by `__init__`,
`gerabaldi/models/phys_envs.py:301-346`. -/
structure PhysTestEnv (V : Type) where
  vars : Dict (EnvVrtnMdl V) := []
  instms : Dict (Instrument V) := []

/-- A constructor argument of `PhysTestEnv`: nothing, a list of named objects, or a dictionary from names
to objects; the first component identifies the object. -/
inductive EnvArg (α : Type)
  | none
  | list (xs : List (Option String × α))
  | dict (d : Dict (Nat × α))

/-- The name an object has after `for prm in d: d[prm].name = prm`,
`gerabaldi/models/phys_envs.py:330-334`: the last of its keys. -/
def lastName {α : Type} (o : Nat) : Dict (Nat × α) → String → String
  | [], acc => acc
  | (k, o', _) :: d, acc => lastName o d (if o' = o then k else acc)

/-- `setattr(self, prm.name + '_var', prm)`, `gerabaldi/models/phys_envs.py:342-346`; `None + '_var'` raises
`TypeError`. -/
def setNamed {α : Type} : List (Option String × α) → Dict α → Except Err (Dict α)
  | [], acc => .ok acc
  | (none, _) :: _, _ => .error .typeError
  | (some n, a) :: xs, acc => setNamed xs (acc.set n a)

/-- The attributes made from a constructor argument, `gerabaldi/models/phys_envs.py:326-346`. -/
def EnvArg.attrs {α : Type} : EnvArg α → Except Err (Dict α)
  | .none => .ok []
  | .list xs => setNamed xs []
  | .dict d => setNamed (d.map fun kv => (some (lastName kv.2.1 d kv.1), kv.2.2)) []

/-- `PhysTestEnv.__init__`, `gerabaldi/models/phys_envs.py:315-346`. -/
def PhysTestEnv.mk' {V : Type} (vrtns : EnvArg (EnvVrtnMdl V)) (instms : EnvArg (Instrument V)) :
    Except Err (PhysTestEnv V) := do
  let v ← vrtns.attrs
  let i ← instms.attrs
  pure ⟨v, i⟩

/-- `env.meas_instm(prm).measure`, `gerabaldi/models/phys_envs.py:348-362`. An instrument for a parameter
'meas' is stored in the attribute `meas_instm` and hides the method, so that every call fails; without
one, `getattr` finds the method itself for the parameter 'meas' and `.measure` fails. -/
def PhysTestEnv.measInstm {V : Type} (env : PhysTestEnv V) (prm : String) : Except Err (Instrument V) :=
  if env.instms.has "meas" then .error .typeError
  else match env.instms.get? prm with
    | some i => .ok i
    | none => if prm = "meas" then .error .attributeError else .ok {}

section gen
variable {W V : Type} [PyArith V]

/-- `vrtn_mdl`, `gerabaldi/models/phys_envs.py:364-378`. -/
def PhysTestEnv.vrtnMdl (env : PhysTestEnv V) (cond : String) : EnvVrtnMdl V :=
  (env.vars.get? cond).getD EnvVrtnMdl.ideal

/-- The quantities of a report that `gen_env_cond_vals` uses. -/
structure Quantities where
  devCounts : Dict Nat
  numChps : Nat
  numLots : Nat
  deriving DecidableEq, Repr

/-- The `prms` argument: names, or names with device counts. -/
inductive PrmSel
  | names (xs : List String)
  | counts (d : Dict Nat)

/-- The names of the `prms` argument. -/
def PrmSel.toList : PrmSel → List String
  | .names xs => xs
  | .counts d => d.keys

/-- The device counts to use, `gerabaldi/models/phys_envs.py:426-436`. -/
def PrmSel.devCounts (s : PrmSel) (info : Option Quantities) : Except Err (Dict Nat) :=
  match s with
  | .counts d => .ok d
  | .names _ => match info with
    | some q => .ok q.devCounts
    | none => .error .userConfig

variable [Rng W V]

/-- Batch and chip values of one condition, `gerabaldi/models/phys_envs.py:421-422`. -/
def PhysTestEnv.genShared (env : PhysTestEnv V) (numChps numLots : Nat) (acc : Dict (V × Arr3 V))
    (kv : String × V) : M W (Dict (V × Arr3 V)) := do
  let b ← (env.vrtnMdl kv.1).genBatch kv.2
  let c ← (env.vrtnMdl kv.1).genChp b numChps numLots
  pure (acc.set kv.1 (b, c))

/-- One dependency of a device parameter, `gerabaldi/models/phys_envs.py:445-446`. -/
def PhysTestEnv.genDepend (env : PhysTestEnv V) (shared : Dict (V × Arr3 V)) (devCounts : Dict Nat)
    (prm : String) (acc : Dict (Arr3 V)) (cond : String) : M W (Dict (Arr3 V)) := do
  let bc ← M.ofExcept (shared.getE cond)
  let n ← M.ofExcept (devCounts.getE prm)
  let a ← (env.vrtnMdl cond).genDev bc.2 n
  pure (acc.set cond a)

/-- Sensor values of a condition, `gerabaldi/models/phys_envs.py:453-456`. -/
def PhysTestEnv.genSensor (env : PhysTestEnv V) (shared : Dict (V × Arr3 V)) (devCounts : Dict Nat)
    (prm : String) : M W (Dict (Arr3 V)) := do
  let bc ← M.ofExcept (shared.getE prm)
  let n ← M.ofExcept (devCounts.getE prm)
  let s ← (env.vrtnMdl prm).genChp bc.1 n 1
  let a ← (env.vrtnMdl prm).genDev s 1
  pure [(prm, a)]

/-- The condition values of one parameter, `gerabaldi/models/phys_envs.py:441-456`. -/
def PhysTestEnv.genPrmConds (env : PhysTestEnv V) (ord : SetOrder) (dev : Option (DeviceMdl W V))
    (conds : List String) (target : Target) (shared : Dict (V × Arr3 V)) (devCounts : Dict Nat)
    (prm : String) : M W (Dict (Arr3 V)) :=
  match dev.bind fun d => d.prms.get? prm with
  | some p => M.forIn' (env.genDepend shared devCounts prm) (p.dependencies ord conds target) []
  | none => env.genSensor shared devCounts prm

/-- One iteration of the loop over the parameters. -/
def PhysTestEnv.genPrmStep (env : PhysTestEnv V) (ord : SetOrder) (dev : Option (DeviceMdl W V))
    (conds : List String) (target : Target) (shared : Dict (V × Arr3 V)) (devCounts : Dict Nat)
    (acc : Dict (Dict (Arr3 V))) (prm : String) : M W (Dict (Dict (Arr3 V))) := do
  let d ← env.genPrmConds ord dev conds target shared devCounts prm
  pure (acc.set prm d)

/-- `gen_env_cond_vals`, `gerabaldi/models/phys_envs.py:380-457`. `ord` is the iteration order of sets. -/
def PhysTestEnv.genEnvCondVals (env : PhysTestEnv V) (ord : SetOrder) (base : Dict V) (prms : PrmSel)
    (info : Option Quantities) (dev : Option (DeviceMdl W V)) (target : Target)
    (numChps numLots : Nat) : M W (Dict (Dict (Arr3 V))) := do
  let shared ← M.forIn' (env.genShared ((info.map (·.numChps)).getD numChps)
    ((info.map (·.numLots)).getD numLots)) base []
  let devCounts ← M.ofExcept (prms.devCounts info)
  M.forIn' (env.genPrmStep ord dev base.keys target shared devCounts) prms.toList []

end gen

end Gerabaldi
