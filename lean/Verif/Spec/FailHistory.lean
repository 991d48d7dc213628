import Verif.Spec.Start

/-!
# The history of a failure mechanism (C73)
-/

namespace Gerabaldi.Spec

variable {V : Type} [PyNum V]

/-- What the names of the equation of a mechanism stand for: its own latent variables first, then the
conditions, then the time. -/
def mechNames (time : V) (lat cond : String → Option V) (k : String) : V :=
  match lat k with
  | some v => v
  | none =>
    match cond k with
    | some v => v
    | none => if k = "time" then time else default

/-- The length of a stress phase in a time unit. -/
def phaseTime (u : TUnit) (duration : TimeVal) : ℚ := timeVal duration / 1000000 / timeSecondFactor u

/-- What one phase of a test does to a sample of a failure mechanism with the unfailed value `u`: measurements
nothing; stress gives an unfailed sample the value of the mechanism's equation for the length of this phase
alone, under the conditions of this phase, unless it is longer than the limit of 9e9 time units. -/
def failPhase (u : V) (g : (String → V) → V) (unit : TUnit) (lat : String → Option V) (v : V) : Step V → V
  | .meas _ => v
  | .other _ => v
  | .strs st =>
    if PyArith.eq v u = false ∨
      (PyArith.lt (PyArith.ofRat 9000000000) (PyArith.ofRat (phaseTime unit st.duration) : V) = true ∧
        PyArith.eq v PyNum.inf = false) then v
    else g (mechNames (PyArith.ofRat (phaseTime unit st.duration)) lat fun k => st.conditions.get? k)

/-- The value of a sample of a failure mechanism after the phases of a test. -/
def failHistory (u : V) (g : (String → V) → V) (unit : TUnit) (lat : String → Option V) (steps : List (Step V)) :
    V := steps.foldl (failPhase u g unit lat) u

end Gerabaldi.Spec
