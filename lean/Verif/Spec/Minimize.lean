import Verif.Model.Py

/-!
# Specification vocabulary for the equivalent time search

Observing an objective function from outside: which points it was called with and what it returned.
-/

namespace Gerabaldi.Spec

/-- One observed call of a vectorised objective: the points and the outcome. -/
abbrev Call (V : Type) := List V × Except Err (List V)

/-- The same objective, with every call appended to a log that is carried along in the world. -/
def logged {W V : Type} (func : List V → M W (List V)) :
    List V → M (W × List (Call V)) (List V) :=
  fun xs w => ((func xs w.1).1, ((func xs w.1).2, w.2 ++ [(xs, (func xs w.1).1)]))

/-- What a log says about sample `i`: `(point, value)` is the `k`-th evaluation for that sample. -/
def evalAt {V : Type} (log : List (Call V)) (i k : Nat) (x f : V) : Prop :=
  ∃ xs fs, log[k]? = some (xs, .ok fs) ∧ xs[i]? = some x ∧ fs[i]? = some f

/-- `x` is the point at which sample `i` is evaluated (or would be, if the call raises) in call `k`. -/
def pointAt {V : Type} (log : List (Call V)) (i k : Nat) (x : V) : Prop :=
  ∃ xs r, log[k]? = some (xs, r) ∧ xs[i]? = some x

/-- The elementwise objective of a scalar function. -/
def elementwise {W V : Type} (g : V → V) (xs : List V) : M W (List V) := pure (xs.map g)

end Gerabaldi.Spec
