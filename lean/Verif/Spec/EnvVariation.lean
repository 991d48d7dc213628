import Verif.Spec.Tapes
import Verif.Spec.Env

/-!
# The random variation of conditions
-/

namespace Gerabaldi.Spec
open Gerabaldi

/-- What varies in a step: the batch, the chips, and for every parameter the places of its devices; for every
sensor, its chip and its place. -/
inductive EnvPart (L C : Nat)
  | batch (cond : String)
  | chp (cond : String) (l : Fin L) (c : Fin C)
  | dev (prm cond : String) (l : Fin L) (c : Fin C) (d : Nat)
  | sensorChp (cond : String) (i : Nat)
  | sensorDev (cond : String) (i : Nat)

/-- The parts of a step with the conditions `conds`: `Needs prm cond` if the devices of a parameter of the step are
exposed to a condition, `Sensor cond` if a condition is measured, `D` how many devices or sensors there are. -/
def EnvPart.Used {L C : Nat} (conds : List String) (Needs : String → String → Prop) (Sensor : String → Prop)
    (D : String → Nat) : EnvPart L C → Prop
  | .batch cond => cond ∈ conds
  | .chp cond _ _ => cond ∈ conds
  | .dev prm cond _ _ d => cond ∈ conds ∧ Needs prm cond ∧ d < D prm
  | .sensorChp cond i => cond ∈ conds ∧ Sensor cond ∧ i < D cond
  | .sensorDev cond i => cond ∈ conds ∧ Sensor cond ∧ i < D cond

/-- How the variation model of a condition makes the contribution of a part. -/
def EnvPart.layer {L C : Nat} (fb fc fd : String → ℝ → ℝ) : EnvPart L C → ℝ → ℝ
  | .batch cond => fb cond
  | .chp cond _ _ => fc cond
  | .dev _ cond _ _ _ => fd cond
  | .sensorChp cond _ => fc cond
  | .sensorDev cond _ => fd cond

/-- The value of a condition from what is asked for and the contributions of batch, chip and device. -/
def envValue (t : VType) (base batch chp dev : ℝ) : ℝ :=
  match t with
  | .offset => base + batch + chp + dev
  | .scaling => base * batch * chp * dev

/-- A variation model with finite distributions, and how its layers are made from standard random numbers. -/
structure EnvLayers (N : Numpy) (m : EnvVrtnMdl (Ext ℝ)) (t : VType) (fb fc fd : ℝ → ℝ) : Prop where
  type : m.vrtnType = some t
  batch : N.value m.batch.dist = some fb
  chp : N.value m.chp.dist = some fc
  dev : N.value m.dev.dist = some fd

/-- The devices of a parameter of the step are exposed to a condition. -/
def Exposed {W V : Type} (dm : DeviceMdl W V) (prms : List String) (target : Target) (prm cond : String) : Prop :=
  prm ∈ prms ∧ ∃ p, dm.prms.get? prm = some p ∧ NeedsCond p target cond

/-- The name is not one of a parameter: its condition is measured. -/
def IsSensor {W V : Type} (dm : DeviceMdl W V) (prms : List String) (cond : String) : Prop :=
  cond ∈ prms ∧ dm.prms.get? cond = none

/-- Every array of the result holds, for each device and each sensor, the value of the condition there. -/
def ConditionsAre {W : Type} (dm : DeviceMdl W (Ext ℝ)) (prms : List String) (target : Target) (base : Dict ℝ)
    (D : String → Nat) (t : String → VType) {L C : Nat} (x : EnvPart L C → ℝ)
    (r : Dict (Dict (Arr3 (Ext ℝ)))) : Prop :=
  (∀ prm cond b, base.get? cond = some b → Exposed dm prms target prm cond →
    ∃ a, condOf r prm cond = some a ∧ a.HasDims L C (D prm) ∧
      ∀ (l : Fin L) (c : Fin C), ∀ d < D prm, a.at' l c d =
        .fin (envValue (t cond) b (x (.batch cond)) (x (.chp cond l c)) (x (.dev prm cond l c d)))) ∧
  ∀ cond b, base.get? cond = some b → IsSensor dm prms cond →
    ∃ a, condOf r cond cond = some a ∧ a.HasDims 1 (D cond) 1 ∧
      ∀ i < D cond, a.at' 0 i 0 =
        .fin (envValue (t cond) b (x (.batch cond)) (x (.sensorChp cond i)) (x (.sensorDev cond i)))

/-- A step with the conditions `base` for `L` lots of `C` chips: every condition has a variation model with finite
distributions, every parameter has a number of devices, and sensors measure conditions of the step. Signatures name
no argument twice. -/
structure EnvStep (N : Numpy) (env : PhysTestEnv (Ext ℝ)) (base : Dict ℝ) (t : String → VType)
    (fb fc fd : String → ℝ → ℝ) (dm : DeviceMdl (Tapes N) (Ext ℝ)) (prms : PrmSel) (info : Option Quantities)
    (nc nl L C : Nat) (D : String → Nat) : Prop where
  conds : base.Nodup
  layers : ∀ k ∈ base.keys, EnvLayers N (env.vrtnMdl k) (t k) (fb k) (fc k) (fd k)
  args : ∀ p m, dm.prms.get? p = some (.circ m) → m.compute.argNames.Nodup
  lots : (info.map (·.numLots)).getD nl = L
  chips : (info.map (·.numChps)).getD nc = C
  names : prms.toList.Nodup
  devices : ∃ counts, prms.devCounts info = .ok counts ∧ ∀ p ∈ prms.toList, counts.get? p = some (D p)
  sensors : ∀ p, IsSensor dm prms.toList p → p ∈ base.keys

/-- `Y` is the value of a condition for a device. -/
def RandomCondition {N : Numpy} {Ω : Type} (raw : Nat → Nat → Ω → ℝ) (next : Nat → Nat) (env : PhysTestEnv (Ext ℝ))
    (ord : SetOrder) (base : Dict ℝ) (dm : DeviceMdl (Tapes N) (Ext ℝ)) (prms : PrmSel) (info : Option Quantities)
    (target : Target) (nc nl : Nat) (prm cond : String) (l c d : Nat) (Y : Ω → ℝ) : Prop :=
  ∀ ω, ∃ r w' a, env.genEnvCondVals ord (base.map fun kv => (kv.1, .fin kv.2)) prms info (some dm) target nc nl
      (⟨fun i j => raw i j ω, next⟩ : Tapes N) = (.ok r, w') ∧
    condOf r prm cond = some a ∧ a.at' l c d = .fin (Y ω)

end Gerabaldi.Spec
