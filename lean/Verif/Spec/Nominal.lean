import Verif.Spec.History

/-!
# Devices and tests without any variation (C77)
-/

namespace Gerabaldi.Spec

variable {W V : Type} [PyNum V]

/-- Every latent variable of the model has no variation but the value `lat` gives it, however many samples are
drawn and whatever the state of the random generator. -/
def Fixed [Rng W V] (m : LatentMdl W V) (lat : String → Option V) : Prop :=
  (∀ k lv, m.latentVars.get? k = some lv → ∃ v, lat k = some v ∧
    ∀ L C n (w : W), lv.genLatentVals n C L w = (.ok (Arr3.full L C n v), w)) ∧
  ∀ k, m.latentVars.get? k = none → lat k = none

/-- The function looks at the given names only. -/
def UsesOnly (g : (String → V) → V) (names : String → Prop) : Prop :=
  ∀ env env', (∀ k, names k → env k = env' k) → g env = g env'

/-- The values of the latent variables of a parameter's parts: of its initial value, its conditional shift, the
parameter itself and each of its mechanisms. -/
structure LatentValues (V : Type) where
  init : String → Option V
  cond : String → Option V
  own : String → Option V
  mech : String → String → Option V

/-- The parameter has no variation. -/
structure NoVariation [Rng W V] (m : DegPrmMdl W V) (nom : LatentValues V) : Prop where
  init : Fixed m.initMdl nom.init
  cond : Fixed m.condMdl nom.cond
  own : Fixed m.mdl nom.own
  mechs : ∀ mech k, m.mechs.get? mech = some k → Fixed k.mdl (nom.mech mech)

/-- The equations look at their own arguments only. -/
structure OwnArguments (m : DegPrmMdl W V) (g gc : (String → V) → V) (gm : String → (String → V) → V) : Prop where
  prm : UsesOnly g fun k => k = "init" ∨ k = "cond" ∨ k ∈ m.mechs.keys ∨ k ∈ m.mdl.latentVars.keys
  cond : UsesOnly gc (· ∈ m.condMdl.compute.argNames)
  mechs : ∀ mech k, m.mechs.get? mech = some k → UsesOnly (gm mech) (· ∈ k.mdl.compute.argNames)

/-- The number of rounds of the search for one number alone. -/
def ownRounds (c : MinCfg V) (f : V → V) : Nat :=
  ((List.range c.maxiter).find? fun k => (searchState c f k).done c).getD c.maxiter

/-- The value of one mechanism after stress steps under exactly the requested conditions, as one number. -/
def nominalMech (k : MechMdl W V) (g : (String → V) → V) (unit : TUnit) (lat : String → Option V)
    (sts : List (StrsSpec V)) : V :=
  sts.foldl (fun v st => phaseValue k.kind k.unitary g lat (fun x => st.conditions.get? x)
    (PyArith.ofRat (phaseTime unit st.duration))
    (ownRounds (equivTimeCfg V) (residueOne g lat (fun x => st.conditions.get? x) v)) v) k.unitary

/-- The true value of a parameter after the given steps, as one number. -/
def nominalTrue (m : DegPrmMdl W V) (g gi : (String → V) → V) (gm : String → (String → V) → V)
    (um : String → TUnit) (nom : LatentValues V) (steps : List (Step V)) : V :=
  if (stressSteps steps).isEmpty then gi fun k => (nom.init k).getD default
  else g (prmNames (gi fun k => (nom.init k).getD default) m.condUnitary
    (fun mech => (m.mechs.get? mech).map fun k =>
      nominalMech k (gm mech) (um mech) (nom.mech mech) (stressSteps steps)) nom.own)

/-- What is read from a parameter after the given steps under the given conditions, as one number. -/
def nominalReading (m : DegPrmMdl W V) (g gi gc : (String → V) → V) (gm : String → (String → V) → V)
    (um : String → TUnit) (nom : LatentValues V) (steps : List (Step V)) (conds : Dict V) : V :=
  g (prmNames (nominalTrue m g gi gm um nom steps) (gc (condNames nom.cond fun x => conds.get? x))
    (fun k => (m.mechs.get? k).map (·.unitary)) nom.own)

end Gerabaldi.Spec
