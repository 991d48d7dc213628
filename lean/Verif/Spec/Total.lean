import Verif.Model.Sim
import Verif.Spec.Helpers
import Verif.Spec.Init
import Verif.Spec.Rows
import Verif.Spec.TestSpec

/-!
# Specification vocabulary for simulations that finish
-/

namespace Gerabaldi.Spec

section equations
variable {W V : Type} [Inhabited V]

/-- Every argument of the equation that has no default is among the names. -/
def Provided (f : PyFun W V) (names : List String) : Prop := ∀ p, (p, false) ∈ f.params → p ∈ names

/-- The equation can be given an argument of this name. -/
def Takes (f : PyFun W V) (name : String) : Prop :=
  f.kwName.isSome = true ∨ ∃ b, (name, b) ∈ f.params

/-- The equation returns a value on every set of arguments that fits its signature and whose arrays have
one shape. -/
def Direct (f : PyFun W V) : Prop :=
  ∀ (args : Dict (PyVal V)) L C D (w : W), uniformShape args L C D → f.accepts args = true →
    ∃ v w', f.call args w = (.ok v, w')

/-- The equation returns a value on every such set of arguments without numpy scalars, or it raises
`ValueError` on whole arrays and then returns a number for each sample. -/
def EqnWorks (f : PyFun W V) : Prop :=
  ∀ (args : Dict (PyVal V)) L C D (w : W), uniformShape args L C D → plainScalars args →
    f.accepts args = true →
    (∃ v w', f.call args w = (.ok v, w')) ∨
    ∃ w1 a w', f.call args w = (.error .valueError, w1) ∧ loopCompute f args L C D w1 = (.ok a, w')

end equations

section devices
variable {W V : Type} [PyNum V] [Rng W V]

/-- All latent variables of the model can be sampled. -/
def LatentsDraw (m : LatentMdl W V) : Prop :=
  ∀ k lv, (k, lv) ∈ m.latentVars → ∀ n C L (w : W), ∃ a w', lv.genLatentVals n C L w = (.ok a, w')

/-- A mechanism that can be stressed: not the abstract base class, a known time unit, an equation that
takes the time and works. -/
structure MechWorks (m : MechMdl W V) : Prop where
  kind : m.kind ≠ .base
  unit : timeUnitMap m.timeUnit ≠ none
  draws : LatentsDraw m.mdl
  eqn : EqnWorks m.mdl.compute
  time : Takes m.mdl.compute "time"

/-- A degraded parameter whose equations work and find their arguments (conditions aside), and whose names
do not clash. -/
structure DegWorks (d : DegPrmMdl W V) (N : Nat → Prop := fun _ => True) : Prop where
  shapes : DegShapes d N
  unique : d.mechs.Nodup
  mechs : ∀ k m, (k, m) ∈ d.mechs → MechWorks m
  condName : "cond" ∉ d.mechs.keys
  ownNames : ∀ k ∈ d.mdl.latentVars.keys, k ≠ "cond" ∧ k ∉ d.mechs.keys
  initDraws : LatentsDraw d.initMdl
  initEqn : Direct d.initMdl.compute
  initArgs : Provided d.initMdl.compute d.initMdl.latentVars.keys
  initTakes : ∀ k ∈ d.initMdl.latentVars.keys, Takes d.initMdl.compute k
  condDraws : LatentsDraw d.condMdl
  condEqn : EqnWorks d.condMdl.compute
  condPlain : ∀ args (w w' : W) v, d.condMdl.compute.invoke args w ≠ (.ok (.npscal v), w')
  draws : LatentsDraw d.mdl
  eqn : EqnWorks d.mdl.compute
  args : Provided d.mdl.compute ("init" :: "cond" :: d.mechs.keys ++ d.mdl.latentVars.keys)
  takes : ∀ k ∈ "init" :: "cond" :: d.mechs.keys, Takes d.mdl.compute k

/-- A circuit parameter whose equation works on whole arrays. -/
structure CircWorks (c : LatentMdl W V) (N : Nat → Prop := fun _ => True) : Prop where
  shape : ShapeSafe c.compute N
  eqn : Direct c.compute
  draws : LatentsDraw c

/-- A device whose equations work (for arrays of certain sizes `N`). -/
structure DeviceWorks (dev : DeviceMdl W V) (N : Nat → Prop := fun _ => True) : Prop where
  unique : dev.prms.Nodup
  deg : ∀ p d, dev.prms.get? p = some (.deg d) → DegWorks d N
  circ : ∀ p c, dev.prms.get? p = some (.circ c) → CircWorks c N

/-- All numbers of samples the test asks for give arrays of a size in `N`. -/
def TestSizes (N : Nat → Prop) (test : TestSpec V) : Prop :=
  ∀ p n, requests test.steps p n → N (test.numLots * test.numChps * n)

/-- The sampled latent values hold everything the equations of the degraded parameter may ask for. -/
structure DegLatents (d : DegPrmMdl W V) (lat : Dict (LatNode V)) : Prop where
  mechs : ∀ k m, (k, m) ∈ d.mechs → ∃ sub, lat.get? k = some (.sub sub) ∧
    ∀ j ∈ m.mdl.latentVars.keys, j ∈ sub.keys
  cond : ∃ sub, lat.get? "cond" = some (.sub sub) ∧ ∀ j ∈ d.condMdl.latentVars.keys, j ∈ sub.keys
  own : ∀ j ∈ d.mdl.latentVars.keys, ∃ a, lat.get? j = some (.arr a)

/-- The latent values in the state hold everything the device's equations may ask for. -/
structure LatentsThere (dev : DeviceMdl W V) (s : SimState V) : Prop where
  deg : ∀ p d, dev.prms.get? p = some (.deg d) → ∃ lat, s.latents.get? p = some lat ∧ DegLatents d lat
  circ : ∀ p c, dev.prms.get? p = some (.circ c) → ∃ lat, s.latents.get? p = some lat ∧
    ∀ j ∈ c.latentVars.keys, ∃ a, lat.get? j = some (.arr a)

/-- The conditions of the stress step provide what the mechanisms need. -/
def StressOk (dev : DeviceMdl W V) (st : StrsSpec V) : Prop :=
  ∀ p d k m, dev.prms.get? p = some (.deg d) → (k, m) ∈ d.mechs →
    Provided m.mdl.compute ("time" :: m.mdl.latentVars.keys ++ st.conditions.keys)

/-- The instrument of this name measures whatever it is given, or at least all values in the range `P`. -/
def InstrumentOk (W : Type) [Rng W V] (env : PhysTestEnv V) (prm : String)
    (P : String → V → Prop := fun _ _ => True) : Prop :=
  ∃ ins, env.measInstm prm = .ok ins ∧ ∀ xs (w : W), (∀ x ∈ xs, P prm x) →
    ∃ ys w', ins.measureVals xs w = (.ok ys, w')

/-- Everything the measurement step reads can be measured: every name is a device parameter or a
condition and has a working instrument, and the equations find their arguments. -/
structure MeasureReads (dev : DeviceMdl W V) (env : PhysTestEnv V) (step : MeasSpec V)
    (P : String → V → Prop := fun _ _ => True) : Prop where
  unique : step.measurements.Nodup
  known : ∀ p ∈ step.measurements.keys, p ∈ dev.prms.keys ∨ p ∈ step.conditions.keys
  instms : ∀ p ∈ step.measurements.keys, InstrumentOk W env p P
  degConds : ∀ p d, p ∈ step.measurements.keys → dev.prms.get? p = some (.deg d) →
    Provided d.condMdl.compute (d.condMdl.latentVars.keys ++ step.conditions.keys)
  circArgs : ∀ p c, p ∈ step.measurements.keys → dev.prms.get? p = some (.circ c) →
    Provided c.compute (c.latentVars.keys ++ step.conditions.keys ++ (dev.degPrms.map (·.1)))
  circSome : ∀ p c, p ∈ step.measurements.keys → dev.prms.get? p = some (.circ c) →
    ∃ a ∈ c.compute.argNames,
      a ∈ c.latentVars.keys ++ step.conditions.keys ++ (dev.degPrms.map (·.1))

/-- Everything the measurement step reads can be measured, and the counts suit the devices that exist: not
more than there are, and for a circuit parameter exactly as many as of the parameters it takes. -/
structure MeasureOk (dev : DeviceMdl W V) (env : PhysTestEnv V) (counts : Dict Nat)
    (step : MeasSpec V) (P : String → V → Prop := fun _ _ => True) :
    Prop extends MeasureReads (W := W) dev env step P where
  degCount : ∀ p d n, (p, n) ∈ step.measurements → dev.prms.get? p = some (.deg d) →
    ∃ k, counts.get? p = some k ∧ n ≤ k
  circCount : ∀ c n, (c, n) ∈ step.measurements → ∀ m, dev.prms.get? c = some (.circ m) →
    counts.get? c = some n ∧ ∀ p, Needs dev c p → counts.get? p = some n

/-- All stress durations are timedeltas, and the time that has passed stays a representable timedelta. -/
def TimesFit : Int → List (Step V) → Prop
  | t, [] => tdValid t
  | t, .strs s :: rest => tdValid t ∧ ∃ us, s.duration = .td us ∧ TimesFit (t + us) rest
  | t, .meas _ :: rest => TimesFit t rest
  | t, .other _ :: rest => TimesFit t rest

/-- The steps suit the device, the environment and the device counts. -/
structure StepsOk (dev : DeviceMdl W V) (env : PhysTestEnv V) (counts : Dict Nat)
    (steps : List (Step V)) (P : String → V → Prop := fun _ _ => True) : Prop where
  stress : ∀ st, .strs st ∈ steps → StressOk dev st
  measure : ∀ m, .meas m ∈ steps → MeasureOk dev env counts m P

/-- The names whose device counts are tied to that of `c`: two names are tied when a measured circuit
parameter takes one as an argument of the other. -/
inductive Tied (dev : DeviceMdl W V) (steps : List (Step V)) (c : String) : String → Prop
  | self : Tied dev steps c c
  | down {x p n} : Tied dev steps c x → requests steps x n → Needs dev x p → Tied dev steps c p
  | up {x p n} : Tied dev steps c p → requests steps x n → Needs dev x p → Tied dev steps c x

/-- The test suits the device and the environment: every device parameter is measured or needed by a
measured circuit parameter; the equations find their arguments; for a measured circuit parameter all tied
names are requested in the same number; and the time does not overflow. -/
structure TestOk (dev : DeviceMdl W V) (env : PhysTestEnv V) (test : TestSpec V)
    (P : String → V → Prop := fun _ _ => True) : Prop where
  stress : ∀ st, .strs st ∈ test.steps → StressOk dev st
  measure : ∀ m, .meas m ∈ test.steps → MeasureReads (W := W) dev env m P
  all : ∀ p ∈ dev.prms.keys, ∃ c n, requests test.steps c n ∧ (p = c ∨ Needs dev c p)
  tied : ∀ c m n, dev.prms.get? c = some (.circ m) → requests test.steps c n →
    ∀ x k, Tied dev test.steps c x → requests test.steps x k → k = n
  times : TimesFit 0 test.steps

end devices

end Gerabaldi.Spec
