import Verif.Model.RandomVars

/-!
# Model of `LatentVar` (`gerabaldi/models/devices.py:83-253`)
-/

namespace Gerabaldi

/-- The legal values of `vrtn_type`. -/
inductive VType
  | scaling
  | offset
  deriving DecidableEq, Repr

/-- `np.multiply if value == 'scaling' else np.add`, `gerabaldi/models/devices.py:143`. -/
def VType.op {V : Type} [PyArith V] : VType → V → V → V
  | .scaling => PyArith.mul
  | .offset => PyArith.add

/-- `0 if value == 'offset' else 1`, `gerabaldi/models/devices.py:144`. -/
def VType.unitary {V : Type} [PyArith V] : VType → V
  | .scaling => PyArith.ofRat 1
  | .offset => PyArith.ofRat 0

/-- `value in ['scaling', 'offset']`, `gerabaldi/models/devices.py:139`. -/
def VType.ofString (s : String) : Option VType :=
  if s = "scaling" then some .scaling else if s = "offset" then some .offset else none

/-- A `LatentVar` object, `gerabaldi/models/devices.py:83-121`. Random variables are held by value:
the same object used for two layers, or outside this variable, is not modelled with respect to its
name and centre (its generator is, through `RVar.id`). `vrtnType = none` and `op`: before
`vrtn_type` is first assigned `_op` does not exist. -/
structure LatentVar (V : Type) where
  unitary : V
  dev : RVar V
  chp : RVar V
  lot : RVar V
  devDef : Bool
  chpDef : Bool
  lotDef : Bool
  deterVal : Option V
  name : Option String
  vrtnType : Option VType
  deriving DecidableEq

/-- The assignments a user can make to a `LatentVar` (`lv.<attr> = value`). -/
inductive LatentAssign (V : Type)
  | dev (r : Option (RVar V))
  | chp (r : Option (RVar V))
  | lot (r : Option (RVar V))
  | deterVal (v : Option V)
  | name (s : Option String)
  | vrtnType (s : String)

section
variable {V : Type} [PyArith V]

/-- `Deterministic(self._unitary)`. Its generator is never used, the identifier is irrelevant. -/
def detUnit (u : V) : RVar V := ⟨0, .deterministic u, none⟩

/-- `__setattr__` for `dev_vrtn_mdl`, `gerabaldi/models/devices.py:153-156`. -/
def LatentVar.setDev (lv : LatentVar V) (r : Option (RVar V)) : LatentVar V :=
  { lv with devDef := r.isSome, dev := r.getD (detUnit lv.unitary) }

/-- `__setattr__` for `chp_vrtn_mdl`, `gerabaldi/models/devices.py:157-160`. -/
def LatentVar.setChp (lv : LatentVar V) (r : Option (RVar V)) : LatentVar V :=
  { lv with chpDef := r.isSome, chp := r.getD (detUnit lv.unitary) }

/-- `__setattr__` for `lot_vrtn_mdl`, `gerabaldi/models/devices.py:161-164`. -/
def LatentVar.setLot (lv : LatentVar V) (r : Option (RVar V)) : LatentVar V :=
  { lv with lotDef := r.isSome, lot := r.getD (detUnit lv.unitary) }

/-- `__setattr__` for `name`, `gerabaldi/models/devices.py:124-136`. -/
def LatentVar.setName (lv : LatentVar V) (s : Option String) : LatentVar V :=
  match s with
  | none => { lv with name := none }
  | some n =>
    { lv with
      name := some n
      dev := if lv.devDef then
          { lv.dev with name := some (if !lv.chpDef && !lv.lotDef then n else n ++ "_dev") }
        else lv.dev
      chp := if lv.chpDef then { lv.chp with name := some (n ++ "_chp") } else lv.chp
      lot := if lv.lotDef then { lv.lot with name := some (n ++ "_lot") } else lv.lot }

/-- `__setattr__` for `vrtn_type`, `gerabaldi/models/devices.py:137-151`. -/
def LatentVar.setVrtnType (lv : LatentVar V) (s : String) : Except Err (LatentVar V) :=
  match VType.ofString s with
  | none => .error .invalidType
  | some t =>
    if lv.vrtnType = some t then .ok lv
    else
      let lv1 := { lv with unitary := t.unitary }
      let lv2 := if !lv1.lotDef then lv1.setLot none else lv1
      let lv3 := if !lv2.chpDef then lv2.setChp none else lv2
      let lv4 := if !lv3.devDef then lv3.setDev none else lv3
      .ok { lv4 with vrtnType := some t }

/-- One assignment; when it raises the object is unchanged. -/
def LatentVar.assign (lv : LatentVar V) : LatentAssign V → Except Err (LatentVar V)
  | .dev r => .ok (lv.setDev r)
  | .chp r => .ok (lv.setChp r)
  | .lot r => .ok (lv.setLot r)
  | .deterVal v => .ok { lv with deterVal := v }
  | .name s => .ok (lv.setName s)
  | .vrtnType s => lv.setVrtnType s

/-- A history of assignments on an existing object; failing assignments are caught by the caller. -/
def LatentVar.history (lv : LatentVar V) : List (LatentAssign V) → LatentVar V
  | [] => lv
  | a :: as => match lv.assign a with
    | .ok lv' => lv'.history as
    | .error _ => lv.history as

/-- The object before `__init__` runs its assignments (`gerabaldi/models/devices.py:109`); the
placeholders are overwritten by the first assignments. -/
def LatentVar.blank : LatentVar V :=
  { unitary := PyArith.ofRat 0, dev := detUnit (PyArith.ofRat 0), chp := detUnit (PyArith.ofRat 0),
    lot := detUnit (PyArith.ofRat 0), devDef := false, chpDef := false, lotDef := false,
    deterVal := none, name := none, vrtnType := none }

/-- `LatentVar.__init__`, `gerabaldi/models/devices.py:83-121`. -/
def LatentVar.mk' (dev chp lot : Option (RVar V)) (deterVal : Option V) (name : Option String)
    (vrtnType : String) : Except Err (LatentVar V) :=
  let lv := (((LatentVar.blank.setDev dev).setChp chp).setLot lot)
  let lv := { lv with deterVal := deterVal }
  match (lv.setName name).setVrtnType vrtnType with
  | .error e => .error e
  | .ok lv => if dev.isNone && deterVal.isNone then .error .userConfig else .ok lv

/-- The operation in use. Before `vrtn_type` is assigned there is none (never the case after
construction). -/
def LatentVar.op (lv : LatentVar V) : V → V → V :=
  match lv.vrtnType with
  | some t => t.op
  | none => fun x _ => x

variable {W : Type} [Rng W V]

/-- `gen_latent_vals`, `gerabaldi/models/devices.py:167-196`. -/
def LatentVar.genLatentVals (lv : LatentVar V) (numDevs numChps numLots : Nat) : M W (Arr3 V) := do
  let lotS ← lv.lot.sample numLots
  let lot ← M.ofExcept (Arr3.reshape numLots 1 1 lotS)
  let chpS ← lv.chp.sample (numLots * numChps)
  let chp ← M.ofExcept (Arr3.reshape numLots numChps 1 chpS)
  let devS ← lv.dev.sample (numLots * numChps * numDevs)
  let dev ← M.ofExcept (Arr3.reshape numLots numChps numDevs devS)
  let vals ← match lv.deterVal with
    | some v => M.ofExcept (Arr3.bcast2 lv.op (Arr3.full numLots numChps numDevs v) dev)
    | none => pure dev
  let x ← M.ofExcept (Arr3.bcast2 lv.op vals chp)
  M.ofExcept (Arr3.bcast2 lv.op x lot)

/-- The exported value: the device distribution alone, or combined with chip and/or lot
distributions by the variation operation; `wrapped` is the name of the surrounding
`pymc.Deterministic`. -/
structure CbiExport (V : Type) where
  op : VType
  wrapped : Option (Option String)
  layers : List (CbiForm V)
  deriving DecidableEq

/-- The CBI form of a layer, if the layer is defined. -/
def layerForm (isDef : Bool) (r : RVar V) (target : String) : Except Err (List (CbiForm V)) :=
  if isDef then
    match r.getCbiForm target with
    | .ok f => .ok [f]
    | .error e => .error e
  else .ok []

/-- The CBI forms of the layers in the order they are built, `gerabaldi/models/devices.py:230-247`. -/
def LatentVar.cbiLayers (lv : LatentVar V) (target : String) : Except Err (List (CbiForm V)) := do
  let d ← lv.dev.getCbiForm target
  let cs ← layerForm lv.chpDef lv.chp target
  let ls ← layerForm lv.lotDef lv.lot target
  pure (d :: (cs ++ ls))

/-- `cbi_export`, `gerabaldi/models/devices.py:198-253`: result and the object afterwards (also after
an exception). -/
def LatentVar.cbiExport (lv : LatentVar V) (target : String) :
    Except Err (CbiExport V) × LatentVar V :=
  if !lv.devDef then (.error .userConfig, lv)
  else
    -- lines 214-219: the operation follows `self.vrtn_type`
    let t : VType := if lv.vrtnType = some .scaling then .scaling else .offset
    if target ≠ "pymc" ∧ target ≠ "pyro" then (.error .notImplemented, lv)
    else
      -- lines 222-228: `if self.deter_val` is false for None and for zero
      let useDeter : Option V := match lv.deterVal with
        | some v => if PyArith.eq v (PyArith.ofRat 0) then none else some v
        | none => none
      let shifted : Except Err (Option V × LatentVar V) := match useDeter with
        | none => .ok (none, lv)
        | some v => match lv.dev.getCentre with
          | .error e => .error e
          | .ok c => match lv.dev.setCentre v (some t.op) with
            | .error e => .error e
            | .ok d => .ok (some c, { lv with dev := d })
      match shifted with
      | .error e => (.error e, lv)
      | .ok (oldCentre, lv1) =>
        match lv1.cbiLayers target with
        | .error e => (.error e, lv1)
        | .ok ls =>
          let res : CbiExport V := ⟨t,
            if target = "pymc" ∧ (lv1.chpDef ∨ lv1.lotDef) then some lv1.name else none, ls⟩
          -- lines 249-250: `if old_centre` is false for None and for zero
          match oldCentre with
          | none => (.ok res, lv1)
          | some c =>
            if PyArith.eq c (PyArith.ofRat 0) then (.ok res, lv1)
            else match lv1.dev.setCentre c none with
              | .ok d => (.ok res, { lv1 with dev := d })
              | .error e => (.error e, lv1)

end

end Gerabaldi
