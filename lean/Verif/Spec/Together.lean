import Verif.Spec.Inspect
import Verif.Spec.EnvVariation

/-!
# Everything random in a test
-/

namespace Gerabaldi.Spec
open Gerabaldi

/-- The conditions that a step sets, the names it sets them for, and whether it stresses or measures. -/
def asked {W V : Type} (dm : DeviceMdl W V) : Step V → Option (Dict V × PrmSel × Target)
  | .strs s => some (s.conditions, .names (dm.degPrms.map (·.1)), .stress)
  | .meas m => some (m.conditions, .counts m.measurements, .measure)
  | .other _ => none

/-- The numbers of devices, chips and lots of a test. -/
def testSizes {W V : Type} (dm : DeviceMdl W V) (test : TestSpec V) : Quantities :=
  ⟨augment dm (calcSamplesNeeded test.steps), test.numChps, test.numLots⟩

/-- A test with finite conditions, `base j` in its step `j`: variation models with finite distributions, and a number
of devices for every parameter. -/
def RandomTest (N : Numpy) (dm : DeviceMdl (Tapes N) (Ext ℝ)) (env : PhysTestEnv (Ext ℝ)) (test : TestSpec (Ext ℝ))
    (base : Nat → Dict ℝ) (t : String → VType) (fb fc fd : String → ℝ → ℝ) (D : Nat → String → Nat) : Prop :=
  ∀ j st c prms target, test.steps[j]? = some st → asked dm st = some (c, prms, target) →
    c = (base j).map (fun kv => (kv.1, .fin kv.2)) ∧
    EnvStep N env (base j) t fb fc fd dm prms (some (testSizes dm test)) 1 1 test.numLots test.numChps (D j)

/-- What varies in step `j` of a test. -/
def StepPart {W V : Type} (dm : DeviceMdl W V) (test : TestSpec V) (base : Nat → Dict ℝ) (D : Nat → String → Nat)
    (j : Nat) (k : EnvPart test.numLots test.numChps) : Prop :=
  ∃ st c prms target, test.steps[j]? = some st ∧ asked dm st = some (c, prms, target) ∧
    k.Used (base j).keys (Exposed dm prms.toList target) (IsSensor dm prms.toList) (D j)

/-- In the simulation, step `j` happens under the conditions that the contributions `x` make. -/
def StepHas {N : Numpy} (ord : SetOrder) (dm : DeviceMdl (Tapes N) (Ext ℝ)) (env : PhysTestEnv (Ext ℝ))
    (test : TestSpec (Ext ℝ)) (base : Nat → Dict ℝ) (t : String → VType) (D : Nat → String → Nat)
    (x : Nat → EnvPart test.numLots test.numChps → ℝ) (start : SimState (Ext ℝ) × SimReport (Ext ℝ)) (w : Tapes N)
    (j : Nat) : Prop :=
  ∀ st c prms target, test.steps[j]? = some st → asked dm st = some (c, prms, target) →
    ∃ sr w₁ r w₂, runSteps ord dm env 0 (test.steps.take j) start w = (.ok sr, w₁) ∧
      env.genEnvCondVals ord c prms (some sr.2.info) (some dm) target 1 1 w₁ = (.ok r, w₂) ∧
      ConditionsAre dm prms.toList target (base j) (D j) t (x j) r

/-- The simulation with exact instruments works for all random numbers, with rows for the given names and no NaN. -/
def ExactRuns {N : Numpy} {Ω : Type} (raw : Nat → Nat → Ω → ℝ) (next : Nat → Nat) (ord : SetOrder)
    (test : TestSpec (Ext ℝ)) (dm : DeviceMdl (Tapes N) (Ext ℝ)) (env : PhysTestEnv (Ext ℝ)) (names : List String) : Prop :=
  ∀ ω, ∃ r₀ w₀, simulate ord test dm (exactEnv env) none (⟨fun i j => raw i j ω, next⟩ : Tapes N) = (.ok r₀, w₀) ∧
    r₀.measurements.map (·.prm) = names ∧ ∀ r ∈ r₀.measurements, r.measured ≠ .nan

/-- `Y` is the value of a condition for a device in step `j` of a simulation of new devices. -/
def RandomStepValue {N : Numpy} {Ω : Type} (raw : Nat → Nat → Ω → ℝ) (next : Nat → Nat) (ord : SetOrder)
    (test : TestSpec (Ext ℝ)) (dm : DeviceMdl (Tapes N) (Ext ℝ)) (env : PhysTestEnv (Ext ℝ)) (j : Nat) (prm cond : String)
    (l c d : Nat) (Y : Ω → ℝ) : Prop :=
  ∀ ω, ∃ start w st cs prms target sr w₁ r w₂ a,
    simStart dm test none (⟨fun i j => raw i j ω, next⟩ : Tapes N) = (.ok start, w) ∧
    test.steps[j]? = some st ∧ asked dm st = some (cs, prms, target) ∧
    runSteps ord dm env 0 (test.steps.take j) start w = (.ok sr, w₁) ∧
    env.genEnvCondVals ord cs prms (some sr.2.info) (some dm) target 1 1 w₁ = (.ok r, w₂) ∧
    condOf r prm cond = some a ∧ a.at' l c d = .fin (Y ω)

end Gerabaldi.Spec
