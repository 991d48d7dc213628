import Verif.Model.Py
import Mathlib.Data.Rat.Defs

/-!
# Numbers

Python/numpy scalars are an abstract type with operations and **no laws**: theorems that are
stated for every `PyArith`/`PyNum` instance hold for IEEE doubles as well as for exact numbers.
-/

namespace Gerabaldi

/-- The arithmetic and comparisons that gerabaldi applies to values. `div` is numpy division
(no exception). `ofRat` embeds the literals of the source code. Integer versus float dtypes are
not distinguished. -/
class PyArith (V : Type) where
  add : V → V → V
  sub : V → V → V
  mul : V → V → V
  div : V → V → V
  neg : V → V
  abs : V → V
  lt : V → V → Bool
  le : V → V → Bool
  eq : V → V → Bool
  ofRat : ℚ → V

/-- Additional numpy/math operations: `np.inf`, `np.isinf`, `10**x`,
`int(floor(log10(x)))` (raises for NaN), `np.round(x, decimals)`. -/
class PyNum (V : Type) extends PyArith V where
  inf : V
  isInf : V → Bool
  pow10 : V → V
  floorLog10 : V → Except Err Int
  roundDec : V → Int → V

/-- `np.greater(x, y)` is `np.less(y, x)`. -/
def PyArith.gt {V : Type} [PyArith V] (x y : V) : Bool := PyArith.lt y x

/-- `np.greater_equal(x, y)` is `np.less_equal(y, x)`. -/
def PyArith.ge {V : Type} [PyArith V] (x y : V) : Bool := PyArith.le y x

/-- Adding zero and multiplying by one change nothing. Holds for exact numbers with infinities and
NaN, and for doubles up to the sign of zero. -/
class UnitLaws (V : Type) [PyArith V] : Prop where
  add_zero : ∀ x : V, PyArith.add x (PyArith.ofRat 0) = x
  zero_add : ∀ x : V, PyArith.add (PyArith.ofRat 0) x = x
  mul_one : ∀ x : V, PyArith.mul x (PyArith.ofRat 1) = x
  one_mul : ∀ x : V, PyArith.mul (PyArith.ofRat 1) x = x

end Gerabaldi
