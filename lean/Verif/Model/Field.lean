import Verif.Model.Num
import Mathlib.Algebra.Order.Field.Basic
import Mathlib.Data.Rat.Cast.Order

/-!
# Exact arithmetic

The numbers of an ordered field as Python numbers (used locally, never a global instance).
-/

namespace Gerabaldi

/-- Exact arithmetic of an ordered field. -/
@[reducible] def fieldArith (K : Type) [Field K] [LinearOrder K] : PyArith K where
  add := (· + ·)
  sub := (· - ·)
  mul := (· * ·)
  div := (· / ·)
  neg := fun x => -x
  abs := fun x => |x|
  lt := fun x y => decide (x < y)
  le := fun x y => decide (x ≤ y)
  eq := fun x y => decide (x = y)
  ofRat := fun q => (q : K)

end Gerabaldi
