import Verif.Model.Report
import Verif.Model.Device

/-!
# Specification vocabulary for simulations
-/

namespace Gerabaldi.Spec

variable {V : Type}

/-- The row with its step number `k` higher. -/
def laterRow (k : Nat) (r : MeasRow V) : MeasRow V := { r with step := r.step + k }

/-- A count in a cell, `k` higher. -/
def laterCell (k : Nat) : Cell V → Cell V
  | .nat n => .nat (n + k)
  | c => c

/-- The summary row with its step number `k` higher. -/
def laterLine (k : Nat) (row : SumRow V) : SumRow V :=
  row.map fun kv => (kv.1, laterCell k kv.2)

/-- A time as a number: microseconds for timedeltas. -/
def timeVal : TimeVal → ℚ
  | .td us => us
  | .pdtd us => us
  | .num q => q

/-- What a line of the test summary should say. -/
structure Line where
  name : String
  type : String
  number : Nat
  duration : ℚ
  start : ℚ
  stop : ℚ
  deriving DecidableEq

/-- The summary that a test starting at time `t` with step number `i` should have. -/
def timeline : Nat → ℚ → List (Step V) → List Line
  | _, _, [] => []
  | i, t, .strs s :: rest =>
    ⟨s.name, "stress", i, timeVal s.duration, t, t + timeVal s.duration⟩ ::
      timeline (i + 1) (t + timeVal s.duration) rest
  | i, t, .meas m :: rest => ⟨m.name, "measure", i, 0, t, t⟩ :: timeline (i + 1) t rest
  | i, t, .other _ :: rest => timeline (i + 1) t rest

/-- The time cell `key` of a row holds the time `t`. -/
def holdsTime (row : SumRow V) (key : String) (t : ℚ) : Prop :=
  ∃ v, row.get? key = some (.time v) ∧ timeVal v = t

/-- The row says what the line says. -/
structure Says (row : SumRow V) (line : Line) : Prop where
  name : row.get? "step name" = some (.str line.name)
  type : row.get? "step type" = some (.str line.type)
  number : row.get? "step number" = some (.nat line.number)
  duration : holdsTime row "duration" line.duration
  start : holdsTime row "start time" line.start
  stop : holdsTime row "end time" line.stop

/-- The columns the summary reserves for itself. -/
def reserved : List String :=
  ["step name", "step type", "step number", "duration", "start time", "end time"]

/-- The conditions of a step. -/
def stepConditions : Step V → Dict V
  | .strs s => s.conditions
  | .meas m => m.conditions
  | .other _ => []

/-- The stress time of a step. -/
def stressLen : Step V → ℚ
  | .strs s => timeVal s.duration
  | _ => 0

/-- The value of a mechanism in a state. -/
def mechVal (s : SimState V) (prm mech : String) : Option (Arr3 V) :=
  (s.currMech.get? prm).bind fun d => d.get? mech

/-- The index is valid in the array. -/
def inRange (a : Arr3 V) (l c d : Nat) : Prop := l < a.nl ∧ c < a.nc ∧ d < a.nd

/-- An equation without side effects. -/
def PureEqn {W : Type} (f : PyFun W V) : Prop := ∀ args w, (f.call args w).2 = w

end Gerabaldi.Spec
