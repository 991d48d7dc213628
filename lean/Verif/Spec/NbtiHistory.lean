import Verif.Spec.Exposure
import Verif.Props.Nbti

/-!
# The prebuilt NBTI mechanism in tests with changing conditions (C89)
-/

namespace Gerabaldi.Spec

/-- The temperatures `T` and voltages `v` of stress phases at one sample with the latent values `a`, `e`, `α` and
`m`. The latent values have no names of conditions, and no condition is called 'time'. -/
structure NbtiPhases (lat : Dict (Arr3 (Ext ℝ))) (l c d : Nat) (a e α m : ℝ) (T v : Phase (Ext ℝ) → ℝ)
    (phases : List (Phase (Ext ℝ))) : Prop where
  sample : ∀ ph ∈ phases, NbtiSample ph.conds lat l c d a e (T ph) (v ph) α m
  pos : ∀ ph ∈ phases, 0 < T ph ∧ 0 < v ph
  long : ∀ ph ∈ phases, 0 ≤ timeVal ph.duration
  temp : lat.get? "temp" = none
  vdd : lat.get? "vdd" = none
  time : lat.get? "time" = none ∧ ∀ ph ∈ phases, ph.conds.get? "time" = none

/-- The damage that belongs to a shift: the shift is a power of the time, and damage is what grows linearly. -/
noncomputable def damage (m shift : ℝ) : ℝ := shift ^ (1 / m)

/-- The sum of the damages that the phases would do to new samples, each for itself. -/
noncomputable def totalDamage (unit : TUnit) (a e α m : ℝ) (T v : Phase (Ext ℝ) → ℝ)
    (phases : List (Phase (Ext ℝ))) : ℝ :=
  (phases.map fun ph => damage m (nbtiShift a e (T ph) (v ph) α m (lengthOf unit ph))).sum

/-- The damage of one unit of time under the conditions of a phase. -/
noncomputable def damageRate (a e α m : ℝ) (T v : Phase (Ext ℝ) → ℝ) (ph : Phase (Ext ℝ)) : ℝ :=
  damage m (nbtiShift a e (T ph) (v ph) α m 1)

/-- The equation of the mechanism for named values. -/
noncomputable def nbtiLaw (env : String → Ext ℝ) : Ext ℝ := exprOn env nbtiExpr

end Gerabaldi.Spec
