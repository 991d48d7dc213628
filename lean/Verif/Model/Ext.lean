import Verif.Model.Num
import Mathlib.Algebra.Order.Floor.Ring
import Mathlib.Data.Int.Log
import Mathlib.Data.Rat.Floor
import Mathlib.Analysis.SpecialFunctions.Pow.Real

/-!
# Extended exact numbers

The numbers of a field together with `inf`, `-inf` and `nan`, computing like IEEE doubles except
that finite results are exact (no rounding, no overflow, no signed zero). Theorems about numeric
values use this type; theorems that need no arithmetic laws are stated for every `PyNum`.
-/

namespace Gerabaldi

/-- Finite numbers, the two infinities and NaN. -/
inductive Ext (K : Type)
  | fin (x : K)
  | pinf
  | ninf
  | nan
  deriving DecidableEq, Repr

/-- `10**x`. -/
class Pow10 (K : Type) where
  pow10 : K → K

noncomputable instance : Pow10 ℝ := ⟨fun x => (10 : ℝ) ^ x⟩

namespace Ext
variable {K : Type} [Field K] [LinearOrder K]

/-- Numpy addition. -/
def add : Ext K → Ext K → Ext K
  | nan, _ => nan
  | _, nan => nan
  | fin a, fin b => fin (a + b)
  | fin _, y => y
  | x, fin _ => x
  | pinf, pinf => pinf
  | ninf, ninf => ninf
  | _, _ => nan

/-- Numpy negation. -/
def neg : Ext K → Ext K
  | fin a => fin (-a)
  | pinf => ninf
  | ninf => pinf
  | nan => nan

/-- An infinity with the sign of `a`, NaN for `a = 0`. -/
def signInf (a : K) : Ext K := if 0 < a then pinf else if a < 0 then ninf else nan

/-- Numpy multiplication. -/
def mul : Ext K → Ext K → Ext K
  | nan, _ => nan
  | _, nan => nan
  | fin a, fin b => fin (a * b)
  | fin a, pinf => signInf a
  | fin a, ninf => neg (signInf a)
  | pinf, fin b => signInf b
  | ninf, fin b => neg (signInf b)
  | pinf, pinf => pinf
  | ninf, ninf => pinf
  | pinf, ninf => ninf
  | ninf, pinf => ninf

/-- Numpy division; every zero counts as positive zero. -/
def div : Ext K → Ext K → Ext K
  | nan, _ => nan
  | _, nan => nan
  | fin a, fin b => if b = 0 then signInf a else fin (a / b)
  | fin _, _ => fin 0
  | pinf, fin b => if b < 0 then ninf else pinf
  | ninf, fin b => if b < 0 then pinf else ninf
  | _, _ => nan

/-- Numpy absolute value. -/
def abs : Ext K → Ext K
  | fin a => fin |a|
  | pinf => pinf
  | ninf => pinf
  | nan => nan

/-- Numpy `<`. -/
def lt : Ext K → Ext K → Bool
  | fin a, fin b => decide (a < b)
  | fin _, pinf => true
  | ninf, fin _ => true
  | ninf, pinf => true
  | _, _ => false

/-- Numpy `==`. -/
def eq : Ext K → Ext K → Bool
  | fin a, fin b => decide (a = b)
  | pinf, pinf => true
  | ninf, ninf => true
  | _, _ => false

/-- Numpy `<=`. -/
def le (x y : Ext K) : Bool := lt x y || eq x y

/-- Round half to even. -/
def rhe [FloorRing K] (x : K) : Int :=
  if x - ⌊x⌋ < 1 / 2 then ⌊x⌋
  else if 1 / 2 < x - ⌊x⌋ then ⌊x⌋ + 1
  else if ⌊x⌋ % 2 = 0 then ⌊x⌋ else ⌊x⌋ + 1

instance : PyArith (Ext K) where
  add := add
  sub := fun x y => add x (neg y)
  mul := mul
  div := div
  neg := neg
  abs := abs
  lt := lt
  le := le
  eq := eq
  ofRat := fun q => fin (q : K)

/-- `int(floor(math.log10(x)))` for `x > 0` is `Int.log 10 x`; `math.log10` raises `ValueError` for
zero and negative numbers, `floor` raises `OverflowError` for infinity and `ValueError` for NaN.
`np.round(x, d)` rounds `x * 10**d` half to even and divides by `10**d`. -/
instance [FloorRing K] [Pow10 K] : PyNum (Ext K) where
  inf := pinf
  isInf := fun x => match x with
    | pinf => true
    | ninf => true
    | _ => false
  pow10 := fun x => match x with
    | fin a => fin (Pow10.pow10 a)
    | pinf => pinf
    | ninf => fin 0
    | nan => nan
  floorLog10 := fun x => match x with
    | fin a => if 0 < a then .ok (Int.log 10 a) else .error .valueError
    | pinf => .error .overflow
    | ninf => .error .valueError
    | nan => .error .valueError
  roundDec := fun x d => match x with
    | fin a => fin ((rhe (a * (10 : K) ^ d) : K) / (10 : K) ^ d)
    | y => y

end Ext

instance {K : Type} [Field K] [LinearOrder K] [IsStrictOrderedRing K] : UnitLaws (Ext K) where
  add_zero := fun x => by
    show Ext.add x (Ext.fin ((0 : ℚ) : K)) = x
    cases x <;> simp [Ext.add]
  zero_add := fun x => by
    show Ext.add (Ext.fin ((0 : ℚ) : K)) x = x
    cases x <;> simp [Ext.add]
  mul_one := fun x => by
    show Ext.mul x (Ext.fin ((1 : ℚ) : K)) = x
    cases x <;> simp [Ext.mul, Ext.signInf, Ext.neg]
  one_mul := fun x => by
    show Ext.mul (Ext.fin ((1 : ℚ) : K)) x = x
    cases x <;> simp [Ext.mul, Ext.signInf, Ext.neg]

end Gerabaldi
