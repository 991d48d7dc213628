import Verif.Model.Py
import Mathlib.Data.Rat.Floor

/-!
# Model of `_convert_time` and of Python's `timedelta`
-/

namespace Gerabaldi

/-- Smallest `timedelta` (`timedelta.min`), in microseconds. -/
def tdMin : Int := -999999999 * 86400000000
/-- Largest `timedelta` (`timedelta.max`), in microseconds. -/
def tdMax : Int := 1000000000 * 86400000000 - 1

/-- Representable as `timedelta`. -/
def tdValid (us : Int) : Prop := tdMin ≤ us ∧ us ≤ tdMax

instance (us : Int) : Decidable (tdValid us) := inferInstanceAs (Decidable (_ ∧ _))

/-- Build a `timedelta` from a number of microseconds: `OverflowError` out of range. -/
def tdMk (us : Int) : Except Err Int := if tdValid us then .ok us else .error .overflow

/-- `timedelta + timedelta`. -/
def tdAdd (a b : Int) : Except Err Int := tdMk (a + b)

/-- A time value as the API accepts it: `datetime.timedelta` (microseconds),
`pandas.Timedelta` (simplified to microseconds) or a number. -/
inductive TimeVal
  | td (us : Int)
  | pdtd (us : Int)
  | num (q : ℚ)
  deriving DecidableEq, Repr

/-- The five canonical units, `gerabaldi/helpers.py:97-110`. -/
inductive TUnit
  | days | hours | seconds | milliseconds | microseconds
  deriving DecidableEq, Repr

/-- `TIME_UNIT_MAP`, `gerabaldi/helpers.py:97-109`; `none` is Python `None`. -/
def timeUnitMap : Option String → Option TUnit
  | none => some .hours
  | some s =>
    if s = "days" then some .days
    else if s = "d" then some .days
    else if s = "hours" then some .hours
    else if s = "h" then some .hours
    else if s = "seconds" then some .seconds
    else if s = "s" then some .seconds
    else if s = "milliseconds" then some .milliseconds
    else if s = "ms" then some .milliseconds
    else if s = "microseconds" then some .microseconds
    else if s = "us" then some .microseconds
    else none

/-- `TIME_SECOND_FACTORS`, `gerabaldi/helpers.py:110`. The doubles `0.001` and `0.000001` are
simplified to the exact rationals. -/
def timeSecondFactor : TUnit → ℚ
  | .days => 86400
  | .hours => 3600
  | .seconds => 1
  | .milliseconds => 1 / 1000
  | .microseconds => 1 / 1000000

/-- Round half to even, the rounding of the `timedelta` constructor (CPython
`datetime.timedelta.__new__`). -/
def roundHalfEven (q : ℚ) : Int :=
  let f := ⌊q⌋
  let r := q - f
  if r < 1 / 2 then f
  else if 1 / 2 < r then f + 1
  else if f % 2 = 0 then f else f + 1

/-- Microseconds per unit as used by the `timedelta(**{unit: x})` keyword constructor (CPython). -/
def tdKwMicros : TUnit → ℚ
  | .days => 86400000000
  | .hours => 3600000000
  | .seconds => 1000000
  | .milliseconds => 1000
  | .microseconds => 1

/-- `timedelta(**{unit: x})`, `gerabaldi/helpers.py:125`. Exact rational arithmetic, one rounding
at the end; CPython's float splitting of `days`/`seconds` arguments is not modelled. -/
def tdOfNum (u : TUnit) (x : ℚ) : Except Err Int := tdMk (roundHalfEven (x * tdKwMicros u))

/-- `time.total_seconds() / TIME_SECOND_FACTORS[unit]`, `gerabaldi/helpers.py:123`, exact. -/
def numOfTd (u : TUnit) (us : Int) : ℚ := ((us : ℚ) / 1000000) / timeSecondFactor u

/-- `_convert_time`, `gerabaldi/helpers.py:113-125`. The unit lookup comes first (KeyError is
turned into `UserConfigError`), then the direction is decided by the type of `time`. -/
def convertTime (time : TimeVal) (units : Option String) : Except Err TimeVal :=
  match timeUnitMap units with
  | none => .error .userConfig
  | some u =>
    match time with
    | .td us => .ok (.num (numOfTd u us))
    | .pdtd us => .ok (.num (numOfTd u us))
    | .num q =>
      match tdOfNum u q with
      | .ok us => .ok (.td us)
      | .error e => .error e

end Gerabaldi
