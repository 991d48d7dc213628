import Verif.Model.Arr

/-!
# Model of user functions and of `_get_single_index`, `_loop_compute` (`gerabaldi/helpers.py`)
-/

namespace Gerabaldi

/-- Values handed to and returned by model equations. `scal`: Python `int`/`float` or `np.float64`;
`npscal`: scalars of any other type (`np.int64`, `np.float32`, `np.bool_`, ...), which
`_get_single_index` drops; `arr`: three dimensional arrays. Other arrays, lists, tuples and nested
dictionaries never reach an equation in the modelled call sites and are left out. -/
inductive PyVal (V : Type)
  | scal (v : V)
  | npscal (v : V)
  | arr (a : Arr3 V)
  deriving DecidableEq

/-- A user supplied callable: named parameters (with a flag for "has a default"), the name of a
`**kwargs` parameter if any, and its behaviour on keyword arguments. -/
structure PyFun (W V : Type) where
  params : List (String × Bool)
  kwName : Option String := none
  call : Dict (PyVal V) → M W (PyVal V)

/-- `inspect.signature(f).parameters.keys()`, `gerabaldi/models/devices.py:272`. -/
def PyFun.argNames {W V : Type} (f : PyFun W V) : List String :=
  f.params.map (·.1) ++ f.kwName.toList

/-- The keyword arguments bind to the signature. -/
def PyFun.accepts {W V : Type} (f : PyFun W V) (args : Dict (PyVal V)) : Bool :=
  (f.params.all fun p => p.2 || args.has p.1) &&
    (f.kwName.isSome || args.all fun a => f.params.any fun p => p.1 == a.1)

/-- `f(**args)`: `TypeError` for missing or unexpected arguments. -/
def PyFun.invoke {W V : Type} (f : PyFun W V) (args : Dict (PyVal V)) : M W (PyVal V) :=
  if f.accepts args then f.call args else M.throw .typeError

section
variable {W V : Type} [Inhabited V]

/-- `_get_single_index`, `gerabaldi/helpers.py:151-181`, for flat dictionaries: arrays are indexed
(`IndexError` out of range), Python numbers are kept, other scalar types are dropped. -/
def getSingleIndex : Dict (PyVal V) → Nat → Nat → Nat → Except Err (Dict (PyVal V))
  | [], _, _, _ => .ok []
  | (key, val) :: rest, i, j, k =>
    match val with
    | .arr a =>
      if i < a.nl ∧ j < a.nc ∧ k < a.nd then
        match getSingleIndex rest i j k with
        | .ok new => .ok ((key, .scal (a.at' i j k)) :: new)
        | .error e => .error e
      else .error .indexError
    | .scal v =>
      match getSingleIndex rest i j k with
      | .ok new => .ok ((key, .scal v) :: new)
      | .error e => .error e
    | .npscal _ => getSingleIndex rest i j k

/-- The index triples in the order of the loops `for i.. for j.. for k..`,
`gerabaldi/helpers.py:187-189`. -/
def idx3 (L C D : Nat) : List (Nat × Nat × Nat) :=
  (List.range L).flatMap fun i => (List.range C).flatMap fun j => (List.range D).map fun k => (i, j, k)

/-- Loop body, `gerabaldi/helpers.py:190-191`. An equation that returns an array for scalar arguments
is not modelled. -/
def loopBody (eqn : PyFun W V) (args : Dict (PyVal V)) (p : Nat × Nat × Nat) : M W V := do
  let a ← M.ofExcept (getSingleIndex args p.1 p.2.1 p.2.2)
  let r ← eqn.invoke a
  match r with
  | .scal v => pure v
  | .npscal v => pure v
  | .arr _ => M.throw .unmodelled

/-- `_loop_compute`, `gerabaldi/helpers.py:184-192`. -/
def loopCompute (eqn : PyFun W V) (args : Dict (PyVal V)) (L C D : Nat) : M W (Arr3 V) := do
  let xs ← M.mapList (loopBody eqn args) (idx3 L C D)
  M.ofExcept (Arr3.reshape L C D xs)

/-- A binary numpy/Python operator on values, with broadcasting. Scalar kinds of the result are not
tracked (a scalar result counts as an ordinary number). -/
def PyVal.bin (f : V → V → V) : PyVal V → PyVal V → Except Err (PyVal V)
  | .arr a, .arr b => match Arr3.bcast2 f a b with
    | .ok r => .ok (.arr r)
    | .error e => .error e
  | .arr a, .scal y => .ok (.arr (a.map fun x => f x y))
  | .arr a, .npscal y => .ok (.arr (a.map fun x => f x y))
  | .scal x, .arr b => .ok (.arr (b.map fun y => f x y))
  | .npscal x, .arr b => .ok (.arr (b.map fun y => f x y))
  | .scal x, .scal y => .ok (.scal (f x y))
  | .scal x, .npscal y => .ok (.scal (f x y))
  | .npscal x, .scal y => .ok (.scal (f x y))
  | .npscal x, .npscal y => .ok (.scal (f x y))

/-- The value as an array that broadcasts like it. -/
def PyVal.toArr : PyVal V → Arr3 V
  | .arr a => a
  | .scal v => Arr3.full 1 1 1 v
  | .npscal v => Arr3.full 1 1 1 v

end

end Gerabaldi
