import Verif.Model.Helpers
import Verif.Model.Latent
import Verif.Model.Minimize
import Verif.Model.Time

/-!
# Model of mechanisms, parameters and devices (`gerabaldi/models/devices.py:256-1321`)
-/

namespace Gerabaldi

/-- `LatentMdl`, `gerabaldi/models/devices.py:256-282`: compute equation and latent variables by
keyword. Attribute name collisions between `_latent_<var>` and `_<mech>_mdl` are not modelled. -/
structure LatentMdl (W V : Type) where
  compute : PyFun W V
  latentVars : Dict (LatentVar V) := []
  name : Option String := none

/-- `type(mdl)` of a mechanism: `DegMechMdl`, `FailMechMdl` or the base class `MechMdl`. -/
inductive MechKind
  | deg
  | fail
  | base
  deriving DecidableEq, Repr

/-- A mechanism model, `gerabaldi/models/devices.py:359-382`. `obj` identifies the object. -/
structure MechMdl (W V : Type) where
  kind : MechKind
  mdl : LatentMdl W V
  unitary : V
  timeUnit : Option String := none
  obj : Nat := 0

/-- `DegPrmMdl`, `gerabaldi/models/devices.py:793-878`. -/
structure DegPrmMdl (W V : Type) where
  initMdl : LatentMdl W V
  condMdl : LatentMdl W V
  condUnitary : V
  mechs : Dict (MechMdl W V)
  mdl : LatentMdl W V
  timeUnit : Option String := none

/-- The parameter models of a device: `DegPrmMdl` or `CircPrmMdl`
(`gerabaldi/models/devices.py:1122-1152`, a `LatentMdl` with an equation). -/
inductive PrmMdl (W V : Type)
  | deg (m : DegPrmMdl W V)
  | circ (m : LatentMdl W V)

/-- `DeviceMdl`, `gerabaldi/models/devices.py:1224-1266`. -/
structure DeviceMdl (W V : Type) where
  prms : Dict (PrmMdl W V)
  timeUnit : Option String := none

/-- Sampled latent values of a parameter, `gerabaldi/models/devices.py:914-921`: nested dictionaries for
'cond' and the mechanisms, arrays for the parameter's own latents. -/
inductive LatNode (V : Type)
  | arr (a : Arr3 V)
  | sub (d : Dict (Arr3 V))
  deriving DecidableEq

section eqns
variable {W V : Type}

/-- `compute_args` lookups `if arg in latents ... elif arg in strs_conds`, e.g.
`gerabaldi/models/devices.py:449-453`. -/
def lookup2 (lat conds : Dict (Arr3 V)) (arg : String) : Option (PyVal V) :=
  match lat.get? arg with
  | some a => some (.arr a)
  | none => (conds.get? arg).map .arr

/-- `for arg in compute_args: if <found>: arg_vals[arg] = ...`. -/
def fillArgs (src : String → Option (PyVal V)) : List String → Dict (PyVal V) → Dict (PyVal V)
  | [], acc => acc
  | a :: as, acc => fillArgs src as (match src a with
    | some v => acc.set a v
    | none => acc)

/-- `for arg in compute_args: if arg not in arg_vals and arg in latents: ...`, e.g.
`gerabaldi/models/devices.py:1035-1037`. -/
def fillMissing (src : String → Option (PyVal V)) : List String → Dict (PyVal V) → Dict (PyVal V)
  | [], acc => acc
  | a :: as, acc => fillMissing src as (if acc.has a then acc else match src a with
    | some v => acc.set a v
    | none => acc)

variable [PyArith V]

/-- `try: compute(**args) except ValueError: _loop_compute(compute, args, dims)`, e.g.
`gerabaldi/models/devices.py:455-458`. -/
def computeOrLoop (f : PyFun W V) (args : Dict (PyVal V)) (L C D : Nat) : M W (PyVal V) :=
  M.catchValueError (f.invoke args) (do
    let a ← loopCompute f args L C D
    pure (.arr a))

end eqns

section latents
variable {W V : Type} [PyArith V]

/-- The naming loop of `LatentMdl.__init__`, `gerabaldi/models/devices.py:275-282`: a latent variable
without a name is named after its keyword. -/
def nameLatents (vars : Dict (LatentVar V)) : Dict (LatentVar V) :=
  vars.map fun kv => (kv.1,
    if kv.2.name = none ∨ kv.2.name = some "" then kv.2.setName (some kv.1) else kv.2)

variable [Rng W V]

/-- One iteration of `LatentMdl.gen_latent_vals`, `gerabaldi/models/devices.py:319-320`. -/
def genLatent (numDevs numChps numLots : Nat) (kv : String × LatentVar V) :
    M W (String × Arr3 V) := do
  let a ← kv.2.genLatentVals numDevs numChps numLots
  pure (kv.1, a)

/-- `LatentMdl.gen_latent_vals`, `gerabaldi/models/devices.py:300-321`. -/
def LatentMdl.genLatentVals (m : LatentMdl W V) (numDevs numChps numLots : Nat) :
    M W (Dict (Arr3 V)) :=
  M.mapList (genLatent numDevs numChps numLots) m.latentVars

/-- `InitValMdl.gen_init_vals`, `gerabaldi/models/devices.py:769-790`: no fallback for equations that
cannot take arrays. -/
def genInitVals (m : LatentMdl W V) (numDevs numChps numLots : Nat) : M W (PyVal V) := do
  let lat ← m.genLatentVals numDevs numChps numLots
  m.compute.invoke (lat.map fun kv => (kv.1, .arr kv.2))

end latents

section mechanisms
variable {W V : Type} [PyNum V]
open PyArith

/-- `MechMdl.gen_init_vals`, `gerabaldi/models/devices.py:384-404`. -/
def MechMdl.genInitVals (m : MechMdl W V) (numDevs numChps numLots : Nat) : Arr3 V :=
  Arr3.full numLots numChps numDevs m.unitary

/-- The keyword arguments of a mechanism equation, `gerabaldi/models/devices.py:446-453` and 538-543. A
latent variable or condition named 'time' replaces the time. -/
def MechMdl.args (m : MechMdl W V) (times : Arr3 V) (conds lat : Dict (Arr3 V)) : Dict (PyVal V) :=
  fillArgs (lookup2 lat conds) m.mdl.compute.argNames [("time", .arr times)]

/-- `times > 9e9` for one sample, `gerabaldi/models/devices.py:444`. -/
def pastLimit (t : V) : Bool := gt t (ofRat 9000000000)

/-- `MechMdl.calc_deg_vals`, `gerabaldi/models/devices.py:417-463`. -/
def MechMdl.calcDegBase (m : MechMdl W V) (times pre : Arr3 V) (conds lat : Dict (Arr3 V))
    (L C D : Nat) : M W (Arr3 V) := do
  let mask ← M.ofExcept (Arr3.bcast2 (fun t p => if pastLimit t then p else PyNum.inf) times pre)
  let deg ← computeOrLoop m.mdl.compute (m.args times conds lat) L C D
  M.ofExcept (Arr3.bcast2 (fun k v => if eq k PyNum.inf then v else k) mask deg.toArr)

/-- `calc_deg_vals` of the mechanism classes; for `FailMechMdl` lines 628-657
(`np.where(pre != unitary, pre, ...)`, condition and first choice have the same shape). -/
def MechMdl.calcDegVals (m : MechMdl W V) (times pre : Arr3 V) (conds lat : Dict (Arr3 V))
    (L C D : Nat) : M W (Arr3 V) :=
  match m.kind with
  | .fail => do
    let r ← m.calcDegBase times pre conds lat L C D
    M.ofExcept (Arr3.bcast2 (fun p v => if !(eq p m.unitary) then p else v) pre r)
  | _ => m.calcDegBase times pre conds lat L C D

/-- `abs(curr_deg_val - computed)`, `gerabaldi/models/devices.py:546`. -/
def absDiff (cur : Arr3 V) (r : PyVal V) : Except Err (Arr3 V) :=
  match Arr3.bcast2 sub cur r.toArr with
  | .ok a => .ok (a.map abs)
  | .error e => .error e

/-- `residue` for an array of times, `gerabaldi/models/devices.py:537-548`. -/
def MechMdl.residueArr (m : MechMdl W V) (cur : Arr3 V) (conds lat : Dict (Arr3 V)) (L C D : Nat)
    (times : Arr3 V) : M W (Arr3 V) :=
  M.catchValueError
    (do
      let r ← m.mdl.compute.invoke (m.args times conds lat)
      M.ofExcept (absDiff cur r))
    (do
      let r ← loopCompute m.mdl.compute (m.args times conds lat) L C D
      M.ofExcept (absDiff cur (.arr r)))

/-- `residue` on the list of points of the search (the arrays of the search have the shape of the
current degradation). -/
def MechMdl.residue (m : MechMdl W V) (cur : Arr3 V) (conds lat : Dict (Arr3 V)) (L C D : Nat)
    (pts : List V) : M W (List V) := do
  let t ← M.ofExcept (Arr3.reshape cur.nl cur.nc cur.nd pts)
  let r ← m.residueArr cur conds lat L C D t
  pure r.data

/-- `DegMechMdl.calc_equiv_strs_time`, `gerabaldi/models/devices.py:508-552`. -/
def MechMdl.calcEquivSearch (m : MechMdl W V) (cur : Arr3 V) (conds lat : Dict (Arr3 V))
    (L C D : Nat) : M W (Arr3 V) := do
  let ts ← minimize (equivTimeCfg V) (m.residue cur conds lat L C D) cur.data.length
  M.ofExcept (Arr3.reshape cur.nl cur.nc cur.nd ts)

/-- `calc_equiv_strs_time` of the mechanism classes, `gerabaldi/models/devices.py:406-407` (base class),
508-552, 597-626 (`FailMechMdl`: zeros). -/
def MechMdl.calcEquiv (m : MechMdl W V) (cur : Arr3 V) (conds lat : Dict (Arr3 V))
    (L C D : Nat) : M W (Arr3 V) :=
  match m.kind with
  | .deg => m.calcEquivSearch cur conds lat L C D
  | .fail => pure (cur.map fun _ => ofRat 0)
  | .base => M.throw .notImplemented

end mechanisms

section params
variable {W V : Type} [PyNum V]
open PyArith

/-- The default parameter equation `basic_sum(init, cond, **mechs)`,
`gerabaldi/models/devices.py:867-868`; `sum` starts from the integer 0. -/
def basicSumVal (args : Dict (PyVal V)) : Except Err (PyVal V) := do
  let i ← args.getE "init"
  let c ← args.getE "cond"
  let ic ← PyVal.bin add i c
  let rest := args.filter fun kv => kv.1 ≠ "init" ∧ kv.1 ≠ "cond"
  let s ← rest.foldlM (fun acc kv => PyVal.bin add acc kv.2) (.scal (ofRat 0))
  PyVal.bin add ic s

/-- `basic_sum` as an equation. -/
def basicSum : PyFun W V where
  params := [("init", false), ("cond", false)]
  kwName := some "mechs"
  call := fun args => M.ofExcept (basicSumVal args)

/-- `latents[key]` for a nested dictionary of latents. -/
def subLatents (latents : Dict (LatNode V)) (key : String) : Except Err (Dict (Arr3 V)) :=
  match latents.get? key with
  | some (.sub d) => .ok d
  | some (.arr _) => .error .unmodelled
  | none => .error .keyError

/-- A parameter's own latents as equation arguments. -/
def ownLatent (latents : Dict (LatNode V)) (arg : String) : Option (PyVal V) :=
  match latents.get? arg with
  | some (.arr a) => some (.arr a)
  | _ => none

/-- One mechanism in `DegPrmMdl.gen_latent_vals`, `gerabaldi/models/devices.py:917-918`. -/
def genMechLatents [Rng W V] (numDevs numChps numLots : Nat) (acc : Dict (LatNode V))
    (kv : String × MechMdl W V) : M W (Dict (LatNode V)) := do
  let d ← kv.2.mdl.genLatentVals numDevs numChps numLots
  pure (acc.set kv.1 (.sub d))

/-- `DegPrmMdl.gen_latent_vals`, `gerabaldi/models/devices.py:895-921`. -/
def DegPrmMdl.genLatentVals [Rng W V] (m : DegPrmMdl W V) (numDevs numChps numLots : Nat) :
    M W (Dict (LatNode V)) := do
  let c ← m.condMdl.genLatentVals numDevs numChps numLots
  let d ← M.forIn' (genMechLatents numDevs numChps numLots) m.mechs [("cond", .sub c)]
  let own ← m.mdl.genLatentVals numDevs numChps numLots
  pure (d.update (own.map fun kv => (kv.1, .arr kv.2)))

/-- `DegPrmMdl.gen_init_mech_vals`, `gerabaldi/models/devices.py:923-944`. -/
def DegPrmMdl.genInitMechVals (m : DegPrmMdl W V) (numDevs numChps numLots : Nat) :
    Dict (Arr3 V) :=
  m.mechs.map fun kv => (kv.1, kv.2.genInitVals numDevs numChps numLots)

/-- One mechanism in `calc_equiv_strs_times`, `gerabaldi/models/devices.py:983-991`. -/
def DegPrmMdl.equivStep (conds : Dict (Arr3 V)) (latents : Dict (LatNode V))
    (initVals degVals : Dict (Arr3 V)) (L C D : Nat) (acc : Dict (Arr3 V))
    (kv : String × MechMdl W V) : M W (Dict (Arr3 V)) := do
  let cur ← M.ofExcept (degVals.getE kv.1)
  let _ ← M.ofExcept (initVals.getE kv.1)
  let lat ← M.ofExcept (subLatents latents kv.1)
  let t ← kv.2.calcEquiv cur conds lat L C D
  pure (acc.set kv.1 t)

/-- `DegPrmMdl.calc_equiv_strs_times`, `gerabaldi/models/devices.py:955-991`. -/
def DegPrmMdl.calcEquivTimes (m : DegPrmMdl W V) (L C D : Nat) (degVals : Dict (Arr3 V))
    (conds : Dict (Arr3 V)) (initVals : Dict (Arr3 V)) (latents : Dict (LatNode V)) :
    M W (Dict (Arr3 V)) :=
  M.forIn' (DegPrmMdl.equivStep conds latents initVals degVals L C D) m.mechs []

/-- One mechanism in `DegPrmMdl.calc_deg_vals`, `gerabaldi/models/devices.py:1027-1032`. -/
def DegPrmMdl.degStep (times conds : Dict (Arr3 V)) (latents : Dict (LatNode V))
    (degVals : Dict (Arr3 V)) (L C D : Nat) (acc : Dict (Arr3 V))
    (kv : String × MechMdl W V) : M W (Dict (Arr3 V)) := do
  let t ← M.ofExcept (times.getE kv.1)
  let pre ← M.ofExcept (degVals.getE kv.1)
  let lat ← M.ofExcept (subLatents latents kv.1)
  let v ← kv.2.calcDegVals t pre conds lat L C D
  pure (acc.set kv.1 v)

/-- Arguments of the parameter equation after stress, `gerabaldi/models/devices.py:1023-1037`. -/
def DegPrmMdl.degArgs (m : DegPrmMdl W V) (initVal : PyVal V) (mechVals : Dict (Arr3 V))
    (latents : Dict (LatNode V)) : Dict (PyVal V) :=
  fillMissing (ownLatent latents) m.mdl.compute.argNames
    (Dict.update [("init", initVal), ("cond", .scal m.condUnitary)]
      (mechVals.map fun kv => (kv.1, .arr kv.2)))

/-- `DegPrmMdl.calc_deg_vals`, `gerabaldi/models/devices.py:993-1044`. -/
def DegPrmMdl.calcDegVals (m : DegPrmMdl W V) (L C D : Nat) (times conds : Dict (Arr3 V))
    (initVal : PyVal V) (latents : Dict (LatNode V)) (degVals : Dict (Arr3 V)) :
    M W (PyVal V × Dict (Arr3 V)) := do
  let mv ← M.forIn' (DegPrmMdl.degStep times conds latents degVals L C D) m.mechs []
  let p ← computeOrLoop m.mdl.compute (m.degArgs initVal mv latents) L C D
  pure (p, mv)

/-- `_reduce_dev_dim_size` on latents, `gerabaldi/models/devices.py:946-953`. -/
def reduceLatents (latents : Dict (LatNode V)) (n : Nat) : Dict (LatNode V) :=
  latents.map fun kv => (kv.1, match kv.2 with
    | .arr a => .arr (a.takeDev n)
    | .sub d => .sub (d.map fun kv => (kv.1, kv.2.takeDev n)))

/-- `CondShiftMdl.calc_cond_vals`, `gerabaldi/models/devices.py:702-730`. -/
def calcCondVals (m : LatentMdl W V) (conds lat : Dict (Arr3 V)) (L C D : Nat) : M W (PyVal V) :=
  computeOrLoop m.compute (fillArgs (lookup2 lat conds) m.compute.argNames []) L C D

/-- Arguments of the parameter equation in a measurement, `gerabaldi/models/devices.py:1076-1086`. -/
def DegPrmMdl.shiftArgs (m : DegPrmMdl W V) (cur : Arr3 V) (cond : PyVal V)
    (latents : Dict (LatNode V)) : Dict (PyVal V) :=
  fillMissing (ownLatent latents) m.mdl.compute.argNames
    (Dict.update [("init", .arr cur), ("cond", cond)]
      (m.mechs.map fun kv => (kv.1, .scal kv.2.unitary)))

/-- `DegPrmMdl.calc_cond_shifted_vals`, `gerabaldi/models/devices.py:1046-1092`. A scalar current value
(an equation that returned a scalar) has no third dimension: not modelled. -/
def DegPrmMdl.calcCondShifted (m : DegPrmMdl W V) (L C D : Nat) (conds : Dict (Arr3 V))
    (cur : PyVal V) (latents : Dict (LatNode V)) : M W (PyVal V) :=
  match cur with
  | .arr a => do
    let a' := if D < a.nd then a.takeDev D else a
    let latents' := if D < a.nd then reduceLatents latents D else latents
    let clat ← M.ofExcept (subLatents latents' "cond")
    let c ← calcCondVals m.condMdl conds clat L C D
    computeOrLoop m.mdl.compute (m.shiftArgs a' c latents') L C D
  | _ => M.throw .unmodelled

/-- Iteration order of `[*set(xs)]`: any enumeration of the distinct elements (it depends on the string
hash seed). -/
structure SetOrder where
  order : List String → List String
  nodup : ∀ xs, (order xs).Nodup
  mem : ∀ xs a, a ∈ order xs ↔ a ∈ xs

/-- `target`: 'stress', otherwise the measurement dependencies. -/
inductive Target
  | stress
  | measure
  deriving DecidableEq, Repr

/-- `DegPrmMdl.get_dependencies`, `gerabaldi/models/devices.py:1094-1119`. -/
def DegPrmMdl.dependencies (ord : SetOrder) (m : DegPrmMdl W V) (conditions : List String)
    (target : Target) : List String :=
  let own := m.mdl.compute.argNames.filter (conditions.contains ·)
  let more := match target with
    | .stress => m.mechs.flatMap fun kv => kv.2.mdl.compute.argNames.filter (conditions.contains ·)
    | .measure => m.condMdl.compute.argNames.filter (conditions.contains ·)
  ord.order (own ++ more)

/-- `get_dependencies` of both parameter classes; `CircPrmMdl`: `gerabaldi/models/devices.py:1203-1221`. -/
def PrmMdl.dependencies (ord : SetOrder) (m : PrmMdl W V) (conditions : List String)
    (target : Target) : List String :=
  match m with
  | .deg d => d.dependencies ord conditions target
  | .circ c => c.compute.argNames.filter (conditions.contains ·)

/-- Arguments of a circuit parameter, `gerabaldi/models/devices.py:1175-1182`. -/
def circArgs (m : LatentMdl W V) (conds : Dict (Arr3 V)) (prmVals : Dict (PyVal V))
    (latents : Dict (LatNode V)) : Dict (PyVal V) :=
  fillArgs (fun arg => match ownLatent latents arg with
    | some v => some v
    | none => match conds.get? arg with
      | some a => some (.arr a)
      | none => prmVals.get? arg) m.compute.argNames []

/-- `[:][:][:n]` on the computed value, `gerabaldi/models/devices.py:1184`: slices the *first* axis three
times. Scalars cannot be sliced (which exception depends on the scalar type: not modelled). -/
def sliceTriple (v : PyVal V) (n : Nat) : Except Err (PyVal V) :=
  match v with
  | .arr a => .ok (.arr (a.takeLot n))
  | _ => .error .unmodelled

/-- `CircPrmMdl.calc_circ_vals`, `gerabaldi/models/devices.py:1155-1184`. No fallback for `ValueError`. -/
def calcCircVals (m : LatentMdl W V) (n : Nat) (conds : Dict (Arr3 V)) (prmVals : Dict (PyVal V))
    (latents : Dict (LatNode V)) : M W (PyVal V) := do
  let r ← m.compute.invoke (circArgs m conds prmVals latents)
  M.ofExcept (sliceTriple r n)

/-- `CircPrmMdl.get_required_prms`, `gerabaldi/models/devices.py:1186-1201`. -/
def requiredPrms (m : LatentMdl W V) (prmList : List String) : List String :=
  prmList.filter (m.compute.argNames.contains ·)

end params

section state
variable {W V : Type} [PyNum V] [Rng W V]

/-- `SimState`, `gerabaldi/models/states.py:14-60`. The `deepcopy`s make the fields independent. -/
structure SimState (V : Type) where
  elapsed : TimeVal
  currPrm : Dict (PyVal V)
  initPrm : Dict (PyVal V)
  currMech : Dict (Dict (Arr3 V))
  initMech : Dict (Dict (Arr3 V))
  latents : Dict (Dict (LatNode V))
  deriving DecidableEq

/-- Accumulators of `DeviceMdl.gen_init_state`. -/
structure InitAcc (V : Type) where
  counts : Dict Nat
  latents : Dict (Dict (LatNode V))
  mech : Dict (Dict (Arr3 V))
  prm : Dict (PyVal V)

/-- `gen_latent_vals` of a parameter, `gerabaldi/models/devices.py:300-321` and 895-921. -/
def PrmMdl.genLatentVals (m : PrmMdl W V) (numDevs numChps numLots : Nat) :
    M W (Dict (LatNode V)) :=
  match m with
  | .deg d => d.genLatentVals numDevs numChps numLots
  | .circ c => do
    let own ← c.genLatentVals numDevs numChps numLots
    pure (own.map fun kv => (kv.1, .arr kv.2))

/-- `if prm not in sample_counts: sample_counts[prm] = max(...)`,
`gerabaldi/models/devices.py:1316-1317`. -/
def addMissingCount (counts : Dict Nat) (prm : String) : Dict Nat :=
  if counts.has prm then counts else counts.set prm ((counts.map (·.2)).foldl max 0)

/-- The initial values of a parameter in `gen_init_state`, `gerabaldi/models/devices.py:1311-1319`. -/
def PrmMdl.addInit (m : PrmMdl W V) (prm : String) (n numChps numLots : Nat)
    (lat : Dict (LatNode V)) (acc : InitAcc V) : M W (InitAcc V) :=
  match m with
  | .circ _ => pure { acc with
      counts := addMissingCount acc.counts prm, latents := acc.latents.set prm lat }
  | .deg d => do
    let counts := addMissingCount acc.counts prm
    let k ← M.ofExcept (counts.getE prm)
    let v ← genInitVals d.initMdl k numChps numLots
    pure { counts := counts, latents := acc.latents.set prm lat
           mech := acc.mech.set prm (d.genInitMechVals n numChps numLots)
           prm := acc.prm.set prm v }

/-- One parameter of `DeviceMdl.gen_init_state`, `gerabaldi/models/devices.py:1307-1319`.
`sample_counts[prm]` raises `KeyError` for a parameter without a count, before the fallback of lines
1316-1317 is reached. -/
def initStep (numChps numLots : Nat) (acc : InitAcc V) (kv : String × PrmMdl W V) :
    M W (InitAcc V) := do
  let n ← M.ofExcept (acc.counts.getE kv.1)
  let lat ← kv.2.genLatentVals n numChps numLots
  kv.2.addInit kv.1 n numChps numLots lat acc

/-- `DeviceMdl.gen_init_state`, `gerabaldi/models/devices.py:1288-1321`. -/
def DeviceMdl.genInitState (dev : DeviceMdl W V) (counts : Dict Nat) (numChps numLots : Nat) :
    M W (SimState V) := do
  let acc ← M.forIn' (initStep numChps numLots) dev.prms ⟨counts, [], [], []⟩
  pure { elapsed := .td 0, currPrm := acc.prm, initPrm := acc.prm, currMech := acc.mech,
         initMech := acc.mech, latents := acc.latents }

end state

end Gerabaldi
