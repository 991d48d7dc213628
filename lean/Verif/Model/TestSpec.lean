import Verif.Model.Time
import Verif.Model.Num

/-!
# Model of `gerabaldi/models/test_specs.py` and `gerabaldi/cookbook/test_specs.py`
-/

namespace Gerabaldi

/-- `MeasSpec`, `gerabaldi/models/test_specs.py:16-43`. Sample counts are naturals. -/
structure MeasSpec (V : Type) where
  measurements : Dict Nat
  conditions : Dict V
  name : String
  deriving DecidableEq, Repr

/-- `StrsSpec`, `gerabaldi/models/test_specs.py:46-83`. `duration` is what the constructor stored:
a `timedelta`, or a number when a `pandas.Timedelta` was passed. -/
structure StrsSpec (V : Type) where
  conditions : Dict V
  duration : TimeVal
  name : String
  deriving DecidableEq, Repr

/-- Members of `TestSpec.steps`. `other` is an object of any further type: the code only ever tests
`type(step) is StrsSpec` / `is MeasSpec`. -/
inductive Step (V : Type)
  | meas (m : MeasSpec V)
  | strs (s : StrsSpec V)
  | other (tag : String)
  deriving DecidableEq, Repr

/-- `StrsSpec.__init__`, `gerabaldi/models/test_specs.py:60-83`. Log warnings are not modelled. -/
def StrsSpec.mk' {V : Type} (conditions : Dict V) (duration : TimeVal) (name : String)
    (timeUnit : Option String) : Except Err (StrsSpec V) :=
  -- lines 75-78: `type(duration) is not timedelta` holds for numbers and for pd.Timedelta
  match (match duration with
    | .td us => .ok (.td us)
    | d => convertTime d timeUnit : Except Err TimeVal) with
  | .error e => .error e
  | .ok d =>
    -- line 80: comparison with a number is False
    if d = .td 0 then .error .userConfig
    else .ok { conditions := conditions, duration := d, name := name }

/-- `TestSpec`, `gerabaldi/models/test_specs.py:86-140`. -/
structure TestSpec (V : Type) where
  steps : List (Step V)
  numChps : Nat := 1
  numLots : Nat := 1
  name : String := "unspecified"
  description : String := "none provided"
  deriving DecidableEq, Repr

/-- The `steps` argument of `append_steps`: a single object, a list, or the test's own `steps` list
object (aliasing: it grows while it is being appended). -/
inductive AppendArg (V : Type)
  | one (s : Step V)
  | many (l : List (Step V))
  | own
  deriving DecidableEq, Repr

/-- Lines 159-162 / 185-188 of `gerabaldi/models/test_specs.py`: `extend` or `append`. -/
def AppendArg.addTo {V : Type} (arg : AppendArg V) (steps : List (Step V)) : List (Step V) :=
  match arg with
  | .one s => steps ++ [s]
  | .many l => steps ++ l
  | .own => steps ++ steps

/-- `for step in steps: if type(step) is StrsSpec: t += step.duration`,
`gerabaldi/models/test_specs.py:191-193`. Adding a number to a timedelta is a `TypeError`. -/
def addStrsTimes {V : Type} : List (Step V) → Int → Except Err Int
  | [], t => .ok t
  | .strs s :: rest, t =>
    match s.duration with
    | .td us => match tdAdd t us with
      | .ok t' => addStrsTimes rest t'
      | .error e => .error e
    | _ => .error .typeError
  | .meas _ :: rest, t => addStrsTimes rest t
  | .other _ :: rest, t => addStrsTimes rest t

/-- Lines 190-195 of `gerabaldi/models/test_specs.py`: stress time of one repetition. For `own`
the list iterated is the already extended one. A single object without `duration` is an
`AttributeError`. -/
def AppendArg.countTime {V : Type} (arg : AppendArg V) (stepsNow : List (Step V)) (t : Int) :
    Except Err Int :=
  match arg with
  | .one (.strs s) => addStrsTimes [.strs s] t
  | .one _ => .error .attributeError
  | .many l => addStrsTimes l t
  | .own => addStrsTimes stepsNow t

/-- `type(steps) is MeasSpec or (type(steps) is list and all(type(step) is MeasSpec ...))`,
`gerabaldi/models/test_specs.py:177`. -/
def AppendArg.onlyMeas {V : Type} (arg : AppendArg V) (stepsNow : List (Step V)) : Bool :=
  let isMeas : Step V → Bool := fun | .meas _ => true | _ => false
  match arg with
  | .one s => isMeas s
  | .many l => l.all isMeas
  | .own => stepsNow.all isMeas

/-- The `while t < duration` loop, `gerabaldi/models/test_specs.py:183-195`. `none` means the fuel
ran out (the loop is still running). Returns the final `t` and the steps. -/
def appendLoop {V : Type} (arg : AppendArg V) (duration : Int) :
    Nat → List (Step V) → Int → Option (Except Err Int × List (Step V))
  | 0, _, _ => none
  | fuel + 1, steps, t =>
    if t < duration then
      let steps' := arg.addTo steps
      match arg.countTime steps' t with
      | .ok t' => appendLoop arg duration fuel steps' t'
      | .error e => some (.error e, steps')
    else some (.ok t, steps)

/-- `append_steps`, `gerabaldi/models/test_specs.py:142-202`. Result: outcome and the new steps
list (also after an exception), `none` when out of fuel. `(t / duration).is_integer()` is exact
divisibility (float rounding of the quotient, relevant above 2^53 microseconds, not modelled). -/
def appendSteps {V : Type} (fuel : Nat) (steps : List (Step V)) (arg : AppendArg V)
    (loopFor : Option TimeVal) (timeUnit : Option String) :
    Option (Except Err Unit × List (Step V)) :=
  match loopFor with
  | none => some (.ok (), arg.addTo steps)
  | some lf =>
    match (match lf with
      | .td us => .ok (.td us)
      | d => convertTime d timeUnit : Except Err TimeVal) with
    | .error e => some (.error e, steps)
    | .ok (.td duration) =>
      if duration = 0 then some (.error .userConfig, steps)
      else if arg.onlyMeas steps then some (.error .userConfig, steps)
      else
        match appendLoop arg duration fuel steps 0 with
        | none => none
        | some (.error e, st) => some (.error e, st)
        | some (.ok t, st) =>
          if t % duration = 0 then some (.ok (), st) else some (.error .userWarning, st)
    | .ok _ =>
      -- a pd.Timedelta became a number; `timedelta() < number` raises TypeError unless the
      -- measurement-only check raises first
      if arg.onlyMeas steps then some (.error .userConfig, steps) else some (.error .typeError, steps)

/-- `calc_samples_needed`, `gerabaldi/models/test_specs.py:204-224`: inner loop body. -/
def samplesUpdate (acc : Dict Nat) (prm : String) (n : Nat) : Dict Nat :=
  match acc.get? prm with
  | none => acc.set prm n
  | some m => if m < n then acc.set prm n else acc

/-- `calc_samples_needed`, `gerabaldi/models/test_specs.py:204-224`. -/
def calcSamplesNeeded {V : Type} (steps : List (Step V)) : Dict Nat :=
  steps.foldl (fun acc step =>
    match step with
    | .meas m => m.measurements.foldl (fun acc kv => samplesUpdate acc kv.1 kv.2) acc
    | _ => acc) []

/-- A `TestSpec` object together with its iteration attribute `_curr_step`
(`gerabaldi/models/test_specs.py:226-238`); `none` means the attribute does not exist. -/
structure IterObj (V : Type) where
  steps : List (Step V)
  cursor : Option Nat := none
  deriving DecidableEq, Repr

/-- `__iter__`, `gerabaldi/models/test_specs.py:226-229`. -/
def IterObj.iter {V : Type} (o : IterObj V) : IterObj V := { o with cursor := some 0 }

/-- `__next__`, `gerabaldi/models/test_specs.py:231-238`. -/
def IterObj.next {V : Type} (o : IterObj V) : Except Err (Step V) × IterObj V :=
  match o.cursor with
  | none => (.error .attributeError, o)
  | some i =>
    match o.steps[i]? with
    | some s => (.ok s, { o with cursor := some (i + 1) })
    | none => (.error .stopIteration, { o with cursor := none })

/-- `htol`, `gerabaldi/cookbook/test_specs.py:16-87`. Interval and duration are integers of hours
as annotated; temperatures and voltages are model values. `none`: the append loop does not end
within the fuel. -/
def htol {V : Type} [PyArith V] (fuel : Nat) (toMeas : Dict Nat) (vddNom vddStrsMult : V)
    (intrvl duration : Int) (numChps numLots : Nat) (temp : V) :
    Option (Except Err (TestSpec V)) :=
  let c2k : V := PyArith.ofRat (27315 / 100)
  let strsConds : Dict V :=
    [("temp", PyArith.add temp c2k), ("vdd", PyArith.mul vddNom vddStrsMult)]
  let roomConds : Dict V := [("temp", PyArith.add (PyArith.ofRat 25) c2k), ("vdd", vddNom)]
  let measStrs : Step V := .meas ⟨toMeas, strsConds, "Stress Temp Measurement"⟩
  let measRoom : Step V := .meas ⟨toMeas, roomConds, "Room Temp Measurement"⟩
  -- timedelta(hours=htol_duration) and the StrsSpec constructor, lines 60-62
  match tdOfNum .hours duration with
  | .error e => some (.error e)
  | .ok dur =>
    match StrsSpec.mk' strsConds (.td dur) "HTOL Stress" none with
    | .error e => some (.error e)
    | .ok htolStrs =>
      let finish : List (Step V) → Option (Except Err (TestSpec V)) := fun steps =>
        some (.ok {
          steps := (AppendArg.one measRoom).addTo steps, numChps := numChps, numLots := numLots,
          name := "Standard HTOL",
          description := "A typical HTOL test with configurable measurements during stress." })
      if intrvl ≥ duration then finish ((AppendArg.one (.strs htolStrs)).addTo [measRoom])
      else if intrvl = 0 then some (.error .zeroDivision)
      else if duration % intrvl ≠ 0 then some (.error .userConfig)
      else
        match tdOfNum .hours intrvl with
        | .error e => some (.error e)
        | .ok iv =>
          let strs' : Step V := .strs { htolStrs with duration := .td iv }
          let steps1 := (AppendArg.one measStrs).addTo [measRoom]
          match appendSteps fuel steps1 (.many [strs', measStrs]) (some (.num duration)) none with
          | none => none
          | some (.error e, _) => some (.error e)
          | some (.ok (), steps2) => finish steps2

end Gerabaldi
