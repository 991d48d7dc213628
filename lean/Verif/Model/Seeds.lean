import Verif.Model.RandomVars

/-!
# Creation of random variables: seeds (`gerabaldi/models/random_vars.py`)

A concrete world for `Rng`: every generator has a state of its own, made from a seed or from entropy of
the operating system.
-/

namespace Gerabaldi

/-- Numpy's bit generator: the state made from a seed, and a draw (method name, keyword parameters,
size), which may raise but always leaves a state. -/
class BitGen (S V : Type) where
  ofSeed : Nat → S
  draw : S → String → Dict V → Nat → Except Err (List V) × S

/-- The generators created so far, and the unpredictable states that `default_rng()` will yield. -/
structure Gens (S : Type) where
  states : Nat → S
  count : Nat
  entropy : Nat → S
  used : Nat

section
variable {S V : Type}

/-- Drawing from one generator. -/
instance [BitGen S V] : Rng (Gens S) V where
  draw := fun id m ps n w =>
    let r := BitGen.draw (w.states id) m ps n
    (r.1, { w with states := fun j => if j = id then r.2 else w.states j })

/-- `np.random.default_rng(seed=s)`: a negative seed raises `ValueError`. -/
def newSeeded (V : Type) [BitGen S V] (s : Int) : M (Gens S) Nat := fun w =>
  if s < 0 then (.error .valueError, w)
  else (.ok w.count,
    { w with
      states := fun j => if j = w.count then BitGen.ofSeed V s.toNat else w.states j
      count := w.count + 1 })

/-- `np.random.default_rng()`. -/
def newUnseeded : M (Gens S) Nat := fun w =>
  (.ok w.count,
    { w with
      states := fun j => if j = w.count then w.entropy w.used else w.states j
      count := w.count + 1
      used := w.used + 1 })

/-- The generator of a new variable, `gerabaldi/models/random_vars.py:33-36`: `if test_seed:` is false for
None and for 0. -/
def newGenerator (V : Type) [BitGen S V] (seed : Option Int) : M (Gens S) Nat :=
  match seed with
  | some s => if s = 0 then newUnseeded else newSeeded V s
  | none => newUnseeded

/-- The constructors `Deterministic`, `Normal`, `Gamma` and `Uniform`, `gerabaldi/models/random_vars.py:28-36`,
130-144, 175-191, 240-256, 279-295 (`Deterministic` too makes a generator). -/
def newVar [BitGen S V] (d : Dist V) (name : Option String) (seed : Option Int) : M (Gens S) (RVar V) := do
  let id ← newGenerator V seed
  pure ⟨id, d, name⟩

/-- What a program does with a random variable. -/
inductive VarOp (V : Type)
  | sample (n : Nat)
  | setCentre (value : V)

/-- What a program does with random variables: create one, or use the `i`-th one. -/
inductive RvOp (V : Type)
  | create (d : Dist V) (name : Option String) (seed : Option Int)
  | use (i : Nat) (op : VarOp V)

/-- A program's variables and the generators. -/
structure RvState (S V : Type) where
  vars : List (RVar V)
  gens : Gens S

/-- `sample` and `set_centre` on a variable: the samples or the exception (`set_centre` yields no
samples). -/
def useVar [PyArith V] [BitGen S V] (st : RvState S V) (i : Nat) (r : RVar V) (op : VarOp V) :
    Except Err (List V) × RvState S V :=
  match op with
  | .sample n =>
    let x := r.sample n st.gens
    (x.1, { st with gens := x.2 })
  | .setCentre v => match r.setCentre v none with
    | .ok r' => (.ok [], { st with vars := st.vars.set i r' })
    | .error e => (.error e, st)

/-- One operation; what the use of a variable yields is recorded with the variable's number. -/
def rvStep [PyArith V] [BitGen S V] (st : RvState S V) (op : RvOp V) :
    List (Nat × Except Err (List V)) × RvState S V :=
  match op with
  | .create d name seed => match newVar d name seed st.gens with
    | (.ok r, g) => ([], ⟨st.vars ++ [r], g⟩)
    | (.error _, g) => ([], { st with gens := g })
  | .use i op => match st.vars[i]? with
    | some r =>
      let x := useVar st i r op
      ([(i, x.1)], x.2)
    | none => ([], st)

/-- A history of operations. -/
def rvRun [PyArith V] [BitGen S V] (st : RvState S V) :
    List (RvOp V) → List (Nat × Except Err (List V)) × RvState S V
  | [] => ([], st)
  | op :: rest =>
    let x := rvStep st op
    let y := rvRun x.2 rest
    (x.1 ++ y.1, y.2)

end

end Gerabaldi
