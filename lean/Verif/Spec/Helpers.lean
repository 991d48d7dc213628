import Verif.Model.Helpers

/-!
# Specification vocabulary for per-sample evaluation
-/

namespace Gerabaldi.Spec

variable {V : Type} [Inhabited V]

/-- The number a value contributes for the sample at lot `l`, chip `c`, device `d`. -/
def sampleVal (v : PyVal V) (l c d : Nat) : V :=
  match v with
  | .scal x => x
  | .npscal x => x
  | .arr a => a.at' l c d

/-- The arguments belonging to the sample at lot `l`, chip `c`, device `d`: plain numbers. -/
def sampleArgs (args : Dict (PyVal V)) (l c d : Nat) : Dict (PyVal V) :=
  args.map fun kv => (kv.1, .scal (sampleVal kv.2 l c d))

/-- All arrays among the arguments have shape `(L, C, D)`. -/
def uniformShape (args : Dict (PyVal V)) (L C D : Nat) : Prop :=
  ∀ k a, (k, PyVal.arr a) ∈ args → a.HasDims L C D

/-- All scalars among the arguments are Python numbers or `np.float64`. -/
def plainScalars (args : Dict (PyVal V)) : Prop := ∀ k v, (k, PyVal.npscal v) ∉ args

/-- Sample number `n` in lot, chip, device order. -/
def sampleAt (C D n : Nat) : Nat × Nat × Nat := (n / (C * D), n / D % C, n % D)

/-- `f` acts elementwise as `g`: on plain numbers it returns `g` of them, on arrays of one shape it
returns the array of the sample values; neither has side effects. -/
structure Elementwise {W : Type} (f : PyFun W V) (g : Dict (PyVal V) → V) : Prop where
  onNumbers : ∀ args : Dict (PyVal V), args.Nodup → (∀ k v, (k, v) ∈ args → ∃ x, v = PyVal.scal x) → f.accepts args →
    ∀ w, f.call args w = (.ok (.scal (g args)), w)
  onArrays : ∀ (args : Dict (PyVal V)) L C D, args.Nodup → uniformShape args L C D → (∃ k a, (k, PyVal.arr a) ∈ args) →
    f.accepts args → ∀ w, ∃ r, f.call args w = (.ok (.arr r), w) ∧ r.HasDims L C D ∧
      ∀ l < L, ∀ c < C, ∀ d < D, r.at' l c d = g (sampleArgs args l c d)

/-- Observe an equation: every call is appended to a log with its arguments and its result. -/
def observed {W : Type} (f : PyFun W V) :
    PyFun (W × List (Dict (PyVal V) × PyVal V)) V where
  params := f.params
  kwName := f.kwName
  call := fun args wl =>
    match f.call args wl.1 with
    | (.ok r, w') => (.ok r, (w', wl.2 ++ [(args, r)]))
    | (.error e, w') => (.error e, (w', wl.2))

end Gerabaldi.Spec
