import Verif.Model.RandomVars

/-!
# Model of `MeasInstrument` (`gerabaldi/models/phys_envs.py:28-98`)
-/

namespace Gerabaldi

/-- The containers `measure` may be handed: pandas Series, one-dimensional numpy array, Python `int` or
`float`, numpy scalar, Python list. (Arrays of more dimensions make `pd.Series` raise and are not
modelled.) -/
inductive Container
  | series
  | ndarray
  | pyNum
  | npNum
  | list
  deriving DecidableEq, Repr

/-- A `MeasInstrument`, `gerabaldi/models/phys_envs.py:28-55`. Limits are two numbers. -/
structure Instrument (V : Type) where
  precision : Option Int := none
  error : Option (RVar V) := none
  range : Option (V × V) := none

section
variable {W V : Type} [PyNum V]
open PyArith PyNum

/-- The rounding of one value, `gerabaldi/models/phys_envs.py:86-88`. -/
def sigRound (p : Int) (x : V) : Except Err V :=
  if eq x (ofRat 0) || isInf x then .ok x
  else match floorLog10 (abs x) with
    | .ok e => .ok (roundDec x (p - e - 1))
    | .error e => .error e

/-- `[f(x) for x in xs]` where `f` may raise. -/
def mapExcept {α β : Type} (f : α → Except Err β) : List α → Except Err (List β)
  | [] => .ok []
  | x :: xs => match f x with
    | .error e => .error e
    | .ok y => match mapExcept f xs with
      | .error e => .error e
      | .ok ys => .ok (y :: ys)

/-- pandas `Series.clip` of one value with scalar limits (which it exchanges if out of order); NaN is
left alone. -/
def clip1 (lo hi x : V) : V :=
  let l := if lt hi lo then hi else lo
  let h := if lt hi lo then lo else hi
  let y := if lt x l then l else x
  if lt h y then h else y

/-- The container of the result, `gerabaldi/models/phys_envs.py:93-98`. -/
def Container.result : Container → Container
  | .series => .series
  | .ndarray => .ndarray
  | .pyNum => .npNum
  | .npNum => .series
  | .list => .series

/-- Adding the instrument's error, `gerabaldi/models/phys_envs.py:79-81`. -/
def Instrument.addNoise [Rng W V] (ins : Instrument V) (xs : List V) : M W (List V) :=
  match ins.error with
  | none => pure xs
  | some r => do
    let es ← r.sample xs.length
    pure (List.zipWith add xs es)

/-- Rounding to the instrument's precision, `gerabaldi/models/phys_envs.py:82-88`; `if self._precision`
is false for None and 0. -/
def Instrument.applyPrecision (ins : Instrument V) (xs : List V) : Except Err (List V) :=
  match ins.precision with
  | none => .ok xs
  | some p => if p = 0 then .ok xs else mapExcept (sigRound p) xs

/-- The instrument's limits, `gerabaldi/models/phys_envs.py:89-91`. -/
def Instrument.applyRange (ins : Instrument V) (xs : List V) : List V :=
  match ins.range with
  | none => xs
  | some (lo, hi) => xs.map (clip1 lo hi)

/-- `measure` on the values of a Series, `gerabaldi/models/phys_envs.py:79-91`. -/
def Instrument.measureVals [Rng W V] (ins : Instrument V) (xs : List V) : M W (List V) := do
  let noisy ← ins.addNoise xs
  let rounded ← M.ofExcept (ins.applyPrecision noisy)
  pure (ins.applyRange rounded)

/-- `measure`, `gerabaldi/models/phys_envs.py:57-98`. -/
def Instrument.measure [Rng W V] (ins : Instrument V) (c : Container) (xs : List V) :
    M W (Container × List V) := do
  let ys ← ins.measureVals xs
  pure (c.result, ys)

end

end Gerabaldi
