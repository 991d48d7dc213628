import Verif.Model.Ext

/-!
# Specification of rounding to significant figures
-/

namespace Gerabaldi.Spec

variable {K : Type} [Field K] [LinearOrder K]

/-- `u` is the unit of the `p`-th significant figure of `x`. -/
def IsSigUnit (p : Int) (x u : K) : Prop :=
  ∃ k : Int, u = (10 : K) ^ k ∧ (10 : K) ^ (p - 1) * u ≤ |x| ∧ |x| < (10 : K) ^ p * u

/-- `y` is `x` read with `p` significant figures: within half a unit, same sign, a multiple of the
unit; zero and the infinities are unchanged. -/
def SigReading (p : Int) : Ext K → Ext K → Prop
  | .nan, _ => False
  | .pinf, y => y = .pinf
  | .ninf, y => y = .ninf
  | .fin x, y => if x = 0 then y = .fin 0 else
      ∃ u z, y = .fin z ∧ IsSigUnit p x u ∧ |z - x| ≤ u / 2 ∧ (∃ m : Int, z = m * u) ∧
        (0 < x → 0 < z) ∧ (x < 0 → z < 0)

/-- `x` lies in `[lo, hi]`. -/
def Within (lo hi x : Ext K) : Prop := PyArith.le lo x = true ∧ PyArith.le x hi = true

end Gerabaldi.Spec
