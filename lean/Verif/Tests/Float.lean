import Verif.Model.Sim
import Verif.Model.CookbookMech
import Verif.Model.ReportIO

/-!
# Doubles, to run the model against the tests of the repository

Lean's `Float` is IEEE binary64, evaluated by the compiler's runtime. Nothing is proved about it: the files in
`Verif/Tests` compare the model with the literal results in `/repo/tests` (`#guard`), as a check that the model
was transcribed faithfully.
-/

namespace Gerabaldi.Tests

/-- A literal as a double. -/
def ofRat (q : ℚ) : Float := Float.ofInt q.num / Float.ofNat q.den

/-- `np.rint`: half to even. -/
def rint (x : Float) : Float :=
  let f := x.floor
  let r := x - f
  if r < 0.5 then f
  else if 0.5 < r then f + 1
  else if (f / 2).floor * 2 == f then f else f + 1

/-- `np.round(x, decimals)`: scale, round to an integer, scale back. -/
def roundDec (x : Float) (d : Int) : Float :=
  if 0 ≤ d then rint (x * (10 : Float) ^ Float.ofInt d) / (10 : Float) ^ Float.ofInt d
  else rint (x / (10 : Float) ^ Float.ofInt (-d)) * (10 : Float) ^ Float.ofInt (-d)

instance : PyNum Float where
  add := (· + ·)
  sub := (· - ·)
  mul := (· * ·)
  div := (· / ·)
  neg := fun x => -x
  abs := Float.abs
  lt := fun x y => x < y
  le := fun x y => x ≤ y
  eq := fun x y => x == y
  ofRat := ofRat
  inf := 1 / 0
  isInf := Float.isInf
  pow10 := fun x => (10 : Float) ^ x
  floorLog10 := fun x =>
    if x.isNaN then .error .valueError else .ok (x.log10.floor.toInt64.toInt)
  roundDec := roundDec

instance : PyTrans Float where
  exp := Float.exp
  pow := fun x y => x ^ y

/-- The class `Sequential` of `/repo/tests/conftest.py`: a variable that always yields an arithmetic sequence.
It takes the place of the normal variables. -/
instance : Rng Unit Float where
  draw := fun _ _ ps n => fun w =>
    match ps.get? "loc", ps.get? "scale" with
    | some s, some i => (.ok ((List.range n).map fun k => s + i * Float.ofNat k), w)
    | _, _ => (.error .unmodelled, w)

/-- `sequential_var(start, increment)`. -/
def seq (start inc : Float) : RVar Float := ⟨1, .normal start inc, none⟩

/-- `np.allclose` with its default tolerances, for two numbers. -/
def close (x y : Float) : Bool := x == y || (x - y).abs ≤ 1e-8 + 1e-5 * y.abs

/-- `np.allclose` for lists of the same length. -/
def closes (xs ys : List Float) : Bool := xs.length == ys.length && (xs.zip ys).all fun p => close p.1 p.2

/-- `round(x, n) == y`, comparing with half a unit of the last digit. -/
def rounds (x : Float) (n : Int) (y : Float) : Bool := (roundDec x n - y).abs < 1e-9 * (1 + y.abs)

/-- The result of a computation that must not raise and must satisfy a test. -/
def okAnd {α : Type} (m : M Unit α) (p : α → Bool) : Bool :=
  match m () with
  | (.ok a, _) => p a
  | (.error _, _) => false

/-- The same for pure computations. -/
def isOk {α : Type} (m : Except Err α) (p : α → Bool) : Bool :=
  match m with
  | .ok a => p a
  | .error _ => false

/-- `pytest.raises`. -/
def raises {α : Type} (m : Except Err α) (e : Err) : Bool :=
  match m with
  | .ok _ => false
  | .error e' => e == e'

/-- An array of the given shape; the literals below have the right length. -/
def arr (L C D : Nat) (xs : List Float) : Arr3 Float :=
  match Arr3.reshape L C D xs with
  | .ok a => a
  | .error _ => Arr3.full 0 0 0 0

/-- Shape and contents. -/
def isArr (a : Arr3 Float) (L C D : Nat) (xs : List Float) : Bool :=
  a.nl == L && a.nc == C && a.nd == D && closes a.data xs

/-- The same for a computed value. -/
def isVal (v : PyVal Float) (L C D : Nat) (xs : List Float) : Bool :=
  match v with
  | .arr a => isArr a L C D xs
  | .scal x => closes [x] xs
  | .npscal x => closes [x] xs

/-- A scalar argument. -/
def one (x : Float) : Arr3 Float := Arr3.full 1 1 1 x

/-- `LatentVar(deter_val=v)`. -/
def fixedVar (v : Float) : LatentVar Float :=
  match LatentVar.mk' none none none (some v) none "scaling" with
  | .ok l => l
  | .error _ => LatentVar.blank

/-- `LatentVar(dev, chp, lot, deter_val, name, vrtn_type)`. -/
def var (dev chp lot : Option (RVar Float)) (det : Option Float) (t : String) : LatentVar Float :=
  match LatentVar.mk' dev chp lot det none t with
  | .ok l => l
  | .error _ => LatentVar.blank

/-- An equation given as an expression. -/
def eqn (params : List String) (e : NumExpr Float) : PyFun Unit Float := e.fn params

instance : Add (NumExpr Float) := ⟨.bin (· + ·)⟩
instance : Sub (NumExpr Float) := ⟨.bin (· - ·)⟩
instance : Mul (NumExpr Float) := ⟨.bin (· * ·)⟩
instance : Div (NumExpr Float) := ⟨.bin (· / ·)⟩
instance : Neg (NumExpr Float) := ⟨.un fun x => -x⟩
instance : HPow (NumExpr Float) (NumExpr Float) (NumExpr Float) := ⟨.bin (· ^ ·)⟩

/-- An argument. -/
def v (name : String) : NumExpr Float := .arg name

/-- A literal. -/
def k (x : Float) : NumExpr Float := .lit x

/-- `np.log`. -/
def ln (e : NumExpr Float) : NumExpr Float := .un Float.log e

/-- Keep the order of first appearance in sets. -/
def order : SetOrder where
  order := fun xs => xs.dedup
  nodup := fun xs => List.nodup_dedup xs
  mem := fun _ _ => List.mem_dedup

end Gerabaldi.Tests
