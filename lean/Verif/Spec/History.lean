import Verif.Spec.FailHistory
import Verif.Model.Sim

/-!
# The history of a device, sample by sample (C74)
-/

namespace Gerabaldi.Spec

variable {W V : Type} [PyNum V]

/-- The state of the search for the smallest value of `f`, for one number alone, after `k` rounds. -/
def searchState (c : MinCfg V) (f : V → V) (k : Nat) : BState V :=
  (fun s : BState V => s.update (s.step c) (f (c.xf (PyArith.add s.x (s.step c)))))^[k] (c.init (f (c.xf c.x0)))

/-- The number it has found by then. -/
def searchOne (c : MinCfg V) (f : V → V) (k : Nat) : V := c.xf (searchState c f k).x

/-- Something holds at all samples. -/
def allSamples (L C n : Nat) (p : Nat → Nat → Nat → Bool) : Bool :=
  (List.range L).all fun l => (List.range C).all fun c => (List.range n).all fun d => p l c d

/-- The number of rounds of simultaneous searches, one for each sample: until all are done, but at most the
maximum number. -/
def commonRounds (c : MinCfg V) (L C n : Nat) (f : Nat → Nat → Nat → V → V) : Nat :=
  ((List.range c.maxiter).find? fun k =>
    allSamples L C n fun l ch d => (searchState c (f l ch d) k).done c).getD c.maxiter

/-- What one stress phase meant for the devices of a parameter: its length and the conditions at every device. -/
structure Phase (V : Type) where
  duration : TimeVal
  conds : Dict (Arr3 V)

/-- How far an old value is from what the equation gives for a time. -/
def residueOne (g : (String → V) → V) (lat cond : String → Option V) (v t : V) : V :=
  PyArith.abs (PyArith.sub v (g (mechNames t lat cond)))

/-- The value of one sample of a mechanism after a stress phase of the given length and conditions. A failure
mechanism leaves failed samples alone and otherwise evaluates its equation for the length of this phase. Other
mechanisms evaluate it for the length of the phase added to the time that would have given the old value under
the conditions of this phase, as found by the search. Times above 9e9 units leave the old value. -/
def phaseValue (kind : MechKind) (u : V) (g : (String → V) → V) (lat cond : String → Option V) (length : V)
    (rounds : Nat) (v : V) : V :=
  match kind with
  | .fail =>
    if PyArith.eq v u = false ∨ (PyArith.lt (PyArith.ofRat 9000000000) length = true ∧
      PyArith.eq v PyNum.inf = false) then v
    else g (mechNames length lat cond)
  | _ =>
    if PyArith.lt (PyArith.ofRat 9000000000) (PyArith.add (searchOne (equivTimeCfg V)
        (residueOne g lat cond v) rounds) length) = true ∧
      PyArith.eq v PyNum.inf = false then v
    else g (mechNames (PyArith.add (searchOne (equivTimeCfg V)
      (residueOne g lat cond v) rounds) length) lat cond)

/-- The values of all samples of a mechanism after a stress phase. -/
def phaseValues (k : MechMdl W V) (g : (String → V) → V) (unit : TUnit) (lat : Dict (Arr3 V)) (L C n : Nat)
    (v : Nat → Nat → Nat → V) (ph : Phase V) (l c d : Nat) : V :=
  phaseValue k.kind k.unitary g (condAt lat l c d) (condAt ph.conds l c d)
    (PyArith.ofRat (phaseTime unit ph.duration))
    (commonRounds (equivTimeCfg V) L C n fun l c d => residueOne g (condAt lat l c d) (condAt ph.conds l c d) (v l c d))
    (v l c d)

/-- The values of all samples of a mechanism after stress phases. -/
def mechHistory (k : MechMdl W V) (g : (String → V) → V) (unit : TUnit) (lat : Dict (Arr3 V)) (L C n : Nat)
    (phases : List (Phase V)) : Nat → Nat → Nat → V :=
  phases.foldl (phaseValues k g unit lat L C n) fun _ _ _ => k.unitary

/-- The stress steps of a test. -/
def stressSteps : List (Step V) → List (StrsSpec V)
  | [] => []
  | .strs st :: rest => st :: stressSteps rest
  | .meas _ :: rest => stressSteps rest
  | .other _ :: rest => stressSteps rest

/-- The phase is what the environment made of the stress step for the devices of parameter `prm`. -/
def PhaseOf [Rng W V] (ord : SetOrder) (dev : DeviceMdl W V) (env : PhysTestEnv V) (q : Quantities) (prm : String)
    (st : StrsSpec V) (ph : Phase V) : Prop :=
  ph.duration = st.duration ∧
    ∃ conds, ∃ u u' : W, env.genEnvCondVals ord st.conditions (.names (dev.degPrms.map (·.1))) (some q) (some dev)
      .stress 1 1 u = (.ok conds, u') ∧ conds.get? prm = some ph.conds

/-- The equations of the mechanisms of a parameter compute `gm` sample by sample, take the time, and have time
units. -/
structure MechEquations (m : DegPrmMdl W V) (gm : String → (String → V) → V) (um : String → TUnit)
    (N : Nat → Prop := fun _ => True) : Prop where
  eqn : ∀ mech k, m.mechs.get? mech = some k → SampleEquation k.mdl.compute (gm mech) N
  time : ∀ mech k, m.mechs.get? mech = some k → "time" ∈ k.mdl.compute.argNames
  unit : ∀ mech k, m.mechs.get? mech = some k → timeUnitMap k.timeUnit = some (um mech)

/-- The latent values of a part of the parameter (a mechanism or 'cond'). -/
def partLatents (lat : Dict (LatNode V)) (part : String) : Dict (Arr3 V) :=
  match lat.get? part with
  | some (.sub d) => d
  | _ => []

/-- The values of the mechanisms of the sample `(l, c, d)` after stress phases. -/
def mechsAfter (m : DegPrmMdl W V) (gm : String → (String → V) → V) (um : String → TUnit)
    (lat : Dict (LatNode V)) (L C n : Nat) (phases : List (Phase V)) (l c d : Nat) (mech : String) : Option V :=
  (m.mechs.get? mech).map fun k => mechHistory k (gm mech) (um mech) (partLatents lat mech) L C n phases l c d

/-- The true value of the sample `(l, c, d)` of a parameter with the initial value `init` after stress phases:
the initial value before any stress, then what the equation of the parameter gives for the initial value, the
neutral conditional shift, the mechanism values and the parameter's latent values. -/
def trueAfter (m : DegPrmMdl W V) (g : (String → V) → V) (gm : String → (String → V) → V) (um : String → TUnit)
    (init : V) (lat : Dict (LatNode V)) (L C n : Nat) (phases : List (Phase V)) (l c d : Nat) : V :=
  if phases.isEmpty then init
  else g (prmNames init m.condUnitary (mechsAfter m gm um lat L C n phases l c d) (ownAt lat l c d))

/-- What happened to the devices of a parameter in the given steps: there are `n` of them, the stress
phases belong to the stress steps, and the latent values of the initial value (`il`), the mechanisms, the
conditional shift and the parameter itself are drawn from their variables. -/
structure DeviceHistory [Rng W V] (ord : SetOrder) (dev : DeviceMdl W V) (env : PhysTestEnv V) (q : Quantities)
    (prm : String) (m : DegPrmMdl W V) (n : Nat) (steps : List (Step V)) (phases : List (Phase V))
    (il : Dict (Arr3 V)) (lat : Dict (LatNode V)) : Prop where
  count : q.devCounts.get? prm = some n
  phases : List.Forall₂ (PhaseOf (W := W) ord dev env q prm) (stressSteps steps) phases
  init : Drawn m.initMdl q.numLots q.numChps n il
  mechs : ∀ mech k, m.mechs.get? mech = some k → Drawn k.mdl q.numLots q.numChps n (partLatents lat mech)
  cond : Drawn m.condMdl q.numLots q.numChps n (partLatents lat "cond")
  own : ∃ own, Drawn m.mdl q.numLots q.numChps n own ∧ ∀ k a, own.get? k = some a → lat.get? k = some (.arr a)

/-- The initial value of the sample `(l, c, d)`, from the latent values drawn for it. -/
def initialAt (gi : (String → V) → V) (il : Dict (Arr3 V)) (l c d : Nat) : V :=
  gi fun k => (condAt il l c d k).getD default

/-- The value of the sample `(l, c, d)` that an instrument sees under the given conditions: what the equation
gives for the true value, the conditional shift and neutral mechanism values. -/
def shownAfter (m : DegPrmMdl W V) (g gc : (String → V) → V) (true_ : V) (lat : Dict (LatNode V))
    (cs : Dict (Arr3 V)) (l c d : Nat) : V :=
  g (prmNames true_ (gc (condNames (condAt (partLatents lat "cond") l c d) (condAt cs l c d)))
    (fun k => (m.mechs.get? k).map (·.unitary)) (ownAt lat l c d))

end Gerabaldi.Spec
