import Verif.Model.TestSpec
import Mathlib.Logic.Function.Basic

/-!
# Tests and lists of steps as objects

A list of steps is an object that several tests and the caller can hold. `Verif.Model.TestSpec` treats lists as
values; here the same methods work on a store of list objects.
-/

namespace Gerabaldi

/-- The list objects of a program, by identity; `next` is the first identity that is not in use. -/
structure ListStore (V : Type) where
  lists : Nat → List (Step V)
  next : Nat

/-- Change the content of one list object. -/
def ListStore.set {V : Type} (h : ListStore V) (a : Nat) (l : List (Step V)) : ListStore V :=
  { h with lists := Function.update h.lists a l }

/-- A new list object. -/
def ListStore.alloc {V : Type} (h : ListStore V) (l : List (Step V)) : Nat × ListStore V :=
  (h.next, { lists := Function.update h.lists h.next l, next := h.next + 1 })

/-- The list object that is the attribute `steps` of a new test, `gerabaldi/models/test_specs.py:134-136`: a new empty
list, or the very object that the caller gave. -/
def ListStore.newTest {V : Type} (h : ListStore V) (arg : Option Nat) : Nat × ListStore V :=
  match arg with
  | none => h.alloc []
  | some a => (a, h)

/-- The `steps` argument of `append_steps`: a single step or a list object. -/
inductive StepsArg (V : Type)
  | one (s : Step V)
  | list (a : Nat)

/-- `self.steps.extend(steps)` or `self.steps.append(steps)`, `gerabaldi/models/test_specs.py:159-162,185-188`. -/
def StepsArg.addTo {V : Type} (arg : StepsArg V) (t : Nat) (h : ListStore V) : ListStore V :=
  match arg with
  | .one s => h.set t (h.lists t ++ [s])
  | .list a => h.set t (h.lists t ++ h.lists a)

/-- The stress time of one repetition, `gerabaldi/models/test_specs.py:190-195`, counted after the steps have been
added. -/
def StepsArg.countTime {V : Type} (arg : StepsArg V) (h : ListStore V) (time : Int) : Except Err Int :=
  match arg with
  | .one (.strs s) => addStrsTimes [.strs s] time
  | .one _ => .error .attributeError
  | .list a => addStrsTimes (h.lists a) time

/-- The check for measurements only, `gerabaldi/models/test_specs.py:177`. -/
def StepsArg.onlyMeas {V : Type} (arg : StepsArg V) (h : ListStore V) : Bool :=
  let isMeas : Step V → Bool := fun | .meas _ => true | _ => false
  match arg with
  | .one s => isMeas s
  | .list a => (h.lists a).all isMeas

/-- The `while t < duration` loop, `gerabaldi/models/test_specs.py:183-195`. `none` means that the fuel ran out. -/
def loopOn {V : Type} (arg : StepsArg V) (t : Nat) (duration : Int) :
    Nat → ListStore V → Int → Option (Except Err Int × ListStore V)
  | 0, _, _ => none
  | fuel + 1, h, time =>
    if time < duration then
      match arg.countTime (arg.addTo t h) time with
      | .ok time' => loopOn arg t duration fuel (arg.addTo t h) time'
      | .error e => some (.error e, arg.addTo t h)
    else some (.ok time, h)

/-- `append_steps`, `gerabaldi/models/test_specs.py:142-202`, of the test whose `steps` is the list object `t`. -/
def appendOn {V : Type} (fuel : Nat) (t : Nat) (h : ListStore V) (arg : StepsArg V)
    (loopFor : Option TimeVal) (timeUnit : Option String) : Option (Except Err Unit × ListStore V) :=
  match loopFor with
  | none => some (.ok (), arg.addTo t h)
  | some lf =>
    match (match lf with
      | .td us => .ok (.td us)
      | d => convertTime d timeUnit : Except Err TimeVal) with
    | .error e => some (.error e, h)
    | .ok (.td duration) =>
      if duration = 0 then some (.error .userConfig, h)
      else if arg.onlyMeas h then some (.error .userConfig, h)
      else
        match loopOn arg t duration fuel h 0 with
        | none => none
        | some (.error e, h') => some (.error e, h')
        | some (.ok time, h') =>
          if time % duration = 0 then some (.ok (), h') else some (.error .userWarning, h')
    | .ok _ =>
      if arg.onlyMeas h then some (.error .userConfig, h) else some (.error .typeError, h)

/-- What a program does with tests. `make` makes a test from nothing or from a list object; `append` calls
`append_steps` of the `i`-th test; `list` makes a list object of its own. -/
inductive TestOp (V : Type)
  | list (l : List (Step V))
  | make (arg : Option Nat)
  | append (i : Nat) (arg : StepsArg V) (loopFor : Option TimeVal) (timeUnit : Option String)

/-- The tests of a program (the list object of each) and its store. -/
structure Program (V : Type) where
  tests : List Nat
  store : ListStore V

/-- One operation. Exceptions are caught (the steps already appended stay). A test that does not exist is not
changed. -/
def Program.step {V : Type} (fuel : Nat) (p : Program V) : TestOp V → Option (Program V)
  | .list l => some { p with store := (p.store.alloc l).2 }
  | .make arg => some { tests := p.tests ++ [(p.store.newTest arg).1], store := (p.store.newTest arg).2 }
  | .append i arg lf u =>
    match p.tests[i]? with
    | none => some p
    | some t => (appendOn fuel t p.store arg lf u).map fun r => { p with store := r.2 }

end Gerabaldi
