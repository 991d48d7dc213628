import Verif.Spec.Sim

/-!
# Shifted clocks (C82)
-/

namespace Gerabaldi.Spec

variable {V : Type}

/-- The time `k` microseconds later. -/
def delay (k : Int) : TimeVal → TimeVal
  | .td us => .td (us + k)
  | .pdtd us => .pdtd (us + k)
  | .num q => .num (q + k)

/-- The same reading, `k` microseconds later. -/
def delayRow (k : Int) (x : MeasRow V) : MeasRow V := { x with time := delay k x.time }

/-- The cell of a column `k` microseconds later: only the start and end times change. -/
def delayCell (k : Int) (col : String) (c : Cell V) : Cell V :=
  if col = "start time" ∨ col = "end time" then
    match c with
    | .time t => .time (delay k t)
    | c => c
  else c

/-- The same line of the summary, `k` microseconds later. -/
def delayLine (k : Int) (line : SumRow V) : SumRow V := line.map fun kv => (kv.1, delayCell k kv.1 kv.2)

/-- The same report, `k` microseconds later. -/
def delayReport (k : Int) (r : SimReport V) : SimReport V :=
  { r with measurements := r.measurements.map (delayRow k), summary := r.summary.map (delayLine k) }

/-- The same devices, `k` microseconds later. -/
def delayState (k : Int) (s : SimState V) : SimState V := { s with elapsed := delay k s.elapsed }

/-- From the time `t` on, all times of the steps are timedeltas: the durations are, and no time is out of range. -/
def ClockFits : Int → List (Step V) → Prop
  | t, [] => tdValid t
  | t, .strs st :: rest => tdValid t ∧ ∃ us, st.duration = .td us ∧ ClockFits (t + us) rest
  | t, _ :: rest => ClockFits t rest

end Gerabaldi.Spec
