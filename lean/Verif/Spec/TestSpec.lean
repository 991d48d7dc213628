import Verif.Model.TestSpec

/-!
# Specification vocabulary for times and test definitions

Independent of the model's functions (only its data types are used).
-/

namespace Gerabaldi.Spec

/-- The documented time units and the number of microseconds in one of each; `none` is Python's
`None` (unit not given, hours). -/
def acceptedUnits : List (Option String × ℚ) :=
  [(none, 3600000000),
   (some "days", 86400000000), (some "d", 86400000000),
   (some "hours", 3600000000), (some "h", 3600000000),
   (some "seconds", 1000000), (some "s", 1000000),
   (some "milliseconds", 1000), (some "ms", 1000),
   (some "microseconds", 1), (some "us", 1)]

/-- The range of Python's `timedelta`, in microseconds. -/
def inTimedeltaRange (us : Int) : Prop :=
  -86399999913600000000 ≤ us ∧ us ≤ 86399999999999999999

instance (us : Int) : Decidable (inTimedeltaRange us) := inferInstanceAs (Decidable (_ ∧ _))

/-- Total stress time of a list of steps (microseconds). -/
def stressTime {V : Type} : List (Step V) → Int
  | [] => 0
  | .strs s :: rest => (match s.duration with | .td us => us | _ => 0) + stressTime rest
  | _ :: rest => stressTime rest

/-- Sum of the absolute stress durations; bounds every intermediate sum. -/
def absStressTime {V : Type} : List (Step V) → Int
  | [] => 0
  | .strs s :: rest => (match s.duration with | .td us => |us| | _ => 0) + absStressTime rest
  | _ :: rest => absStressTime rest

/-- Every stress step carries a `timedelta` duration (what `StrsSpec` stores for numbers and
timedeltas). -/
def allTimedelta {V : Type} (l : List (Step V)) : Prop :=
  ∀ s, Step.strs s ∈ l → ∃ us, s.duration = .td us

/-- Some element of the list is not a measurement. -/
def hasNonMeas {V : Type} (l : List (Step V)) : Prop := ∃ s ∈ l, ∀ m, s ≠ .meas m

/-- `n` copies of `l`, one after the other. -/
def copies {V : Type} (n : Nat) (l : List (Step V)) : List (Step V) := (List.replicate n l).flatten

/-- Some measurement step of the test requests `n` samples of `prm`. -/
def requests {V : Type} (steps : List (Step V)) (prm : String) (n : Nat) : Prop :=
  ∃ m, Step.meas m ∈ steps ∧ (prm, n) ∈ m.measurements

end Gerabaldi.Spec
