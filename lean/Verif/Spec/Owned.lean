import Verif.Model.StepRefs
import Verif.Spec.TestSpec

/-!
# Tests that own their steps (C84)
-/

namespace Gerabaldi.Spec

variable {V : Type}

/-- Tests and lists of a program when every test has its own steps and every list stays what the caller made it. -/
structure Plain (V : Type) where
  tests : List (List (Step V))
  lists : Nat → List (Step V)
  next : Nat

/-- The steps argument with the list filled in. -/
def plainArg (lists : Nat → List (Step V)) : StepsArg V → AppendArg V
  | .one s => .one s
  | .list a => .many (lists a)

/-- One operation: making a test copies the list, appending changes the one test. -/
def Plain.step (fuel : Nat) (p : Plain V) : TestOp V → Option (Plain V)
  | .list l => some { p with lists := Function.update p.lists p.next l, next := p.next + 1 }
  | .make none => some { p with tests := p.tests ++ [[]], next := p.next + 1 }
  | .make (some a) => some { p with tests := p.tests ++ [p.lists a] }
  | .append i arg lf u =>
    match p.tests[i]? with
    | none => some p
    | some steps => (appendSteps fuel steps (plainArg p.lists arg) lf u).map fun r =>
        { p with tests := p.tests.set i r.2 }

/-- The program uses every list for at most one test, and not any more after giving it to a test. `free` are the lists
made but not given to a test, `n` the identity of the next list. -/
def GivenOnce : Nat → List Nat → List (TestOp V) → Prop
  | _, _, [] => True
  | n, free, .list _ :: rest => GivenOnce (n + 1) (n :: free) rest
  | n, free, .make none :: rest => GivenOnce (n + 1) free rest
  | n, free, .make (some a) :: rest => a ∈ free ∧ GivenOnce n (free.filter (· ≠ a)) rest
  | n, free, .append _ arg _ _ :: rest => (∀ a, arg = .list a → a ∈ free) ∧ GivenOnce n free rest

/-- A program that has not started. -/
def Program.start : Program V := ⟨[], ⟨fun _ => [], 0⟩⟩

/-- The same for plain tests. -/
def Plain.start : Plain V := ⟨[], fun _ => [], 0⟩

/-- The steps of all tests of a program. -/
def Program.contents (p : Program V) : List (List (Step V)) := p.tests.map p.store.lists

/-- No stress step is negative. -/
def noNegative (l : List (Step V)) : Prop := absStressTime l = stressTime l

end Gerabaldi.Spec
