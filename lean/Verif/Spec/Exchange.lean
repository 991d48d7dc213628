import Verif.Spec.Together
import Verif.Spec.Others
import Mathlib.Logic.Equiv.Defs

/-!
# Devices in another order (C101)
-/

namespace Gerabaldi.Spec
open Gerabaldi

/-- Other numbers for the lots, for the chips of every lot, and for the devices of every parameter on every chip. -/
structure Relabelling (L C : Nat) where
  lot : Equiv.Perm (Fin L)
  chp : Fin L → Equiv.Perm (Fin C)
  dev : String → Fin L → Fin C → Equiv.Perm Nat

/-- The first `D p` devices of every parameter `p` remain the first. -/
def Relabelling.Keeps {L C : Nat} (R : Relabelling L C) (D : String → Nat) : Prop :=
  ∀ p l c d, R.dev p l c d < D p ↔ d < D p

/-- Something random about a device of a test: the initial value of a parameter, the value of a latent variable, the
value of a condition in a step. -/
inductive DeviceValue
  | initial (prm : String)
  | latent (slot : Slot)
  | cond (step : Nat) (prm cond : String)

/-- The parameter the devices belong to. -/
def DeviceValue.prm : DeviceValue → String
  | .initial p => p
  | .latent s => s.prm
  | .cond _ p _ => p

/-- `Y` is the value of a new device. -/
def RandomNew {N : Numpy} {Ω : Type} (raw : Nat → Nat → Ω → ℝ) (next : Nat → Nat) (dm : DeviceMdl (Tapes N) (Ext ℝ))
    (counts : Dict Nat) (L C : Nat) (l c d : Nat) (Y : Ω → ℝ) : DeviceValue → Prop
  | .initial p => (∃ m, dm.prms.get? p = some (.deg m)) ∧ RandomInitial raw next dm counts L C p l c d Y
  | .latent s => (latentAt dm s).isSome ∧ s.role ≠ .init ∧ RandomLatent raw next dm counts L C s l c d Y
  | .cond _ _ _ => False

/-- `Y` is the value of a device of a test, one of the first `D j p` in step `j`. -/
def RandomInTest {N : Numpy} {Ω : Type} (raw : Nat → Nat → Ω → ℝ) (next : Nat → Nat) (ord : SetOrder)
    (test : TestSpec (Ext ℝ)) (dm : DeviceMdl (Tapes N) (Ext ℝ)) (env : PhysTestEnv (Ext ℝ)) (base : Nat → Dict ℝ)
    (D : Nat → String → Nat) (l c d : Nat) (Y : Ω → ℝ) : DeviceValue → Prop
  | .cond j p k => (∃ st cs prms target b, test.steps[j]? = some st ∧ asked dm st = some (cs, prms, target) ∧
      (base j).get? k = some b ∧ Exposed dm prms.toList target p k) ∧ d < D j p ∧
      RandomStepValue raw next ord test dm env j p k l c d Y
  | q => RandomNew raw next dm (augment dm (calcSamplesNeeded test.steps)) test.numLots test.numChps l c d Y q

/-- The devices of a population of `L'` lots of `C'` chips with `n'` devices are those of a population of `L` lots of
`C` chips with `n` devices, in the order given by `f` (there may be copies). -/
structure Reorders (f : Nat × Nat × Nat → Nat × Nat × Nat) (L C n L' C' n' : Nat) : Prop where
  into : ∀ l < L', ∀ c < C', ∀ d < n', (f (l, c, d)).1 < L ∧ (f (l, c, d)).2.1 < C ∧ (f (l, c, d)).2.2 < n
  onto : ∀ l < L, ∀ c < C, ∀ d < n, ∃ l' < L', ∃ c' < C', ∃ d' < n', f (l', c', d') = (l, c, d)

/-- Sample `p` of one population and sample `p'` of another have the same latent values of a parameter. -/
structure SameLatents {V : Type} [PyNum V] (lat lat' : Dict (LatNode V)) (p p' : Nat × Nat × Nat) : Prop where
  own : ownAt lat p.1 p.2.1 p.2.2 = ownAt lat' p'.1 p'.2.1 p'.2.2
  parts : ∀ part, condAt (partLatents lat part) p.1 p.2.1 p.2.2 = condAt (partLatents lat' part) p'.1 p'.2.1 p'.2.2

/-- Sample `p` of one population and sample `p'` of another go through the same stress. -/
def LikeStress {V : Type} [PyNum V] (phases phases' : List (Phase V)) (p p' : Nat × Nat × Nat) : Prop :=
  List.Forall₂ (fun a b : Phase V => a.duration = b.duration ∧
    condAt a.conds p.1 p.2.1 p.2.2 = condAt b.conds p'.1 p'.2.1 p'.2.2) phases phases'

/-- The stress phases that the devices of a parameter meet in the steps from number `i` on, starting from a state,
report and world: the length of each stress step and the conditions that the environment really gives in it. -/
inductive MetPhases {W V : Type} [PyNum V] [Rng W V] (ord : SetOrder) (dev : DeviceMdl W V) (env : PhysTestEnv V)
    (prm : String) : Nat → List (Step V) → SimState V × SimReport V → W → List (Phase V) → Prop
  | done {i : Nat} {sr : SimState V × SimReport V} {w : W} : MetPhases ord dev env prm i [] sr w []
  | strs {i : Nat} {st : StrsSpec V} {steps : List (Step V)} {sr sr' : SimState V × SimReport V} {w w' u : W}
      {conds : Dict (Dict (Arr3 V))} {cs : Dict (Arr3 V)} {phases : List (Phase V)} :
      env.genEnvCondVals ord st.conditions (.names (dev.degPrms.map (·.1))) (some sr.2.info) (some dev)
        .stress 1 1 w = (.ok conds, u) → conds.get? prm = some cs →
      simStep ord dev env sr (i, .strs st) w = (.ok sr', w') → MetPhases ord dev env prm (i + 1) steps sr' w' phases →
      MetPhases ord dev env prm i (.strs st :: steps) sr w (⟨st.duration, cs⟩ :: phases)
  | skip {i : Nat} {st : Step V} {steps : List (Step V)} {sr sr' : SimState V × SimReport V} {w w' : W}
      {phases : List (Phase V)} : (∀ s, st ≠ .strs s) →
      simStep ord dev env sr (i, st) w = (.ok sr', w') → MetPhases ord dev env prm (i + 1) steps sr' w' phases →
      MetPhases ord dev env prm i (st :: steps) sr w phases

/-- A simulation of the first steps of a test from new devices: the state before and after them, and what the `n`
devices of a parameter are and meet: their latent values, initial values and stress phases. -/
structure RunWith {W V : Type} [PyNum V] [Rng W V] (ord : SetOrder) (dev : DeviceMdl W V) (env : PhysTestEnv V)
    (test : TestSpec V) (steps : List (Step V)) (prm : String) (w w₁ : W) (n : Nat) (lat : Dict (LatNode V))
    (init : Arr3 V) (phases : List (Phase V)) (s : SimState V) (r : SimReport V) : Prop where
  run : ∃ s₀ r₀ w₀, simStart dev test none w = (.ok (s₀, r₀), w₀) ∧
    runSteps ord dev env 0 steps (s₀, r₀) w₀ = (.ok (s, r), w₁) ∧ r₀.devCounts.get? prm = some n ∧
    s₀.latents.get? prm = some lat ∧ s₀.initPrm.get? prm = some (.arr init) ∧
    MetPhases ord dev env prm 0 steps (s₀, r₀) w₀ phases

/-- The rows of a parameter in step `i` show what its instrument reads from the values `x` of the first `n` devices. -/
def ShownFrom {W V : Type} [PyNum V] [Rng W V] (env : PhysTestEnv V) (prm : String) (i L C n : Nat)
    (x : Nat → Nat → Nat → V) (rows : List (MeasRow V)) : Prop :=
  ∃ t ys, ∃ u u' : W, (instrumentOf env prm).measureVals ((expectedRows L C n x prm t i).map (·.measured)) u = (.ok ys, u') ∧
    rowsAt rows i prm = List.zipWith (fun x y => { x with measured := y }) (expectedRows L C n x prm t i) ys

end Gerabaldi.Spec
