import Verif.Model.Demos
import Verif.Spec.Tapes

/-!
# The chance of a defect in the demonstration of oxide breakdown
-/

namespace Gerabaldi.Spec
open Gerabaldi MeasureTheory ProbabilityTheory

/-- The chance that a defect forms, for the time `t` in hours, the temperature `T` in K, the voltage `v`,
the thickness `d`, the constant `c`, the bond strength `b` and the thermal exponent `h`. A chance above 1
is certain. -/
noncomputable def defectChance (t T v d c b h : ℝ) : ℝ :=
  min 1 (max 0 (t * (c * (v / d) * (T ^ h / b))))

/-- The mechanism of the demonstration, whatever time unit and name it was given afterwards. -/
def IsDefect {N : Numpy} (k : MechMdl (Tapes N) (Ext ℝ)) : Prop :=
  ∃ (c th : ℚ) (k₀ : MechMdl (Tapes N) (Ext ℝ)), defectMech c th = .ok k₀ ∧ k.kind = k₀.kind ∧
    k.unitary = k₀.unitary ∧ k.mdl.compute = k₀.mdl.compute

/-- A stress phase: times under stress, conditions and latent values. -/
structure DefectPhase where
  times : Arr3 (Ext ℝ)
  conds : Dict (Arr3 (Ext ℝ))
  lats : Dict (Arr3 (Ext ℝ))

/-- The array under a name has the given values. -/
def ArrayOf (x : Dict (Arr3 (Ext ℝ))) (k : String) (L C D : Nat) (f : Nat → Nat → Nat → ℝ) : Prop :=
  ∃ a, x.get? k = some a ∧ a.HasDims L C D ∧ ∀ l < L, ∀ c < C, ∀ d < D, a.at' l c d = .fin (f l c d)

/-- The conditions and latent values of a phase are there, and `q` is the chance of a defect for each
device. -/
structure PhaseChances (ph : DefectPhase) (L C D : Nat) (q : Nat → Nat → Nat → ℝ) : Prop where
  dims : ph.times.HasDims L C D
  noTime : ph.conds.get? "time" = none
  onlyLats : ∀ k a, ph.lats.get? k = some a → k ∈ ["t_diel", "c", "bond_strength", "thermal_dist"]
  values : ∃ t T v d c b h : Nat → Nat → Nat → ℝ,
    (∀ i < L, ∀ j < C, ∀ n < D, ph.times.at' i j n = .fin (t i j n) ∧ t i j n ≤ 9000000000 ∧ 0 < T i j n ∧
      d i j n ≠ 0 ∧ b i j n ≠ 0 ∧
      q i j n = defectChance (t i j n) (T i j n) (v i j n) (d i j n) (c i j n) (b i j n) (h i j n)) ∧
    ArrayOf ph.conds "temp" L C D T ∧ ArrayOf ph.conds "v_g" L C D v ∧
    ArrayOf ph.lats "t_diel" L C D d ∧ ArrayOf ph.lats "c" L C D c ∧
    ArrayOf ph.lats "bond_strength" L C D b ∧ ArrayOf ph.lats "thermal_dist" L C D h

/-- The state of a mechanism after stress phases, one after the other. -/
noncomputable def defectsAfter {N : Numpy} (k : MechMdl (Tapes N) (Ext ℝ)) (L C D : Nat) :
    List DefectPhase → Arr3 (Ext ℝ) → M (Tapes N) (Arr3 (Ext ℝ))
  | [], pre => pure pre
  | ph :: rest, pre => do
    let r ← k.calcDegVals ph.times pre ph.conds ph.lats L C D
    defectsAfter k L C D rest r

end Gerabaldi.Spec
