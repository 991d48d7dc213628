import Verif.Model.Arr

/-!
# Model of `gerabaldi/models/random_vars.py`
-/

namespace Gerabaldi

/-- The distribution classes and their parameters, `gerabaldi/models/random_vars.py:120-304`. -/
inductive Dist (V : Type)
  | deterministic (value : V)
  | normal (mu sigma : V)
  | gamma (alpha beta : V)
  | uniform (start stop : V)
  deriving DecidableEq, Repr

/-- A `RandomVar` object: `id` stands for its own numpy generator (created in
`gerabaldi/models/random_vars.py:33-36`), so two variables share a generator exactly when they are the
same object. -/
structure RVar (V : Type) where
  id : Nat
  dist : Dist V
  name : Option String := none
  deriving DecidableEq, Repr

/-- Numpy's random generators: generator `id`, method name, keyword parameters, size. The world holds
their states. Nothing is assumed about the streams here. -/
class Rng (W V : Type) where
  draw : Nat → String → Dict V → Nat → M W (List V)

/-- What is assumed of the generators where a theorem needs it: a draw of size `n` yields `n` numbers,
and generators of different objects do not influence each other. -/
class LawfulRng (W V : Type) [Rng W V] : Prop where
  length : ∀ {id m ps n} {w w' : W} {xs : List V},
    Rng.draw id m ps n w = (.ok xs, w') → xs.length = n
  commute : ∀ {i j m m' ps ps' n n'} {w w1 w2 : W} {xs ys : List V}, i ≠ j →
    Rng.draw i m ps n w = (.ok xs, w1) → Rng.draw j m' ps' n' w1 = (.ok ys, w2) →
    ∃ w1', Rng.draw j m' ps' n' w = (.ok ys, w1') ∧ Rng.draw i m ps n w1' = (.ok xs, w2)

section
variable {W V : Type} [PyArith V]
open PyArith

/-- `_dist_type`, lines 144, 188, 253, 292 of `gerabaldi/models/random_vars.py`. -/
def Dist.typeName : Dist V → String
  | .deterministic _ => "deterministic"
  | .normal _ _ => "normal"
  | .gamma _ _ => "gamma"
  | .uniform _ _ => "uniform"

/-- `_params_for_numpy`, lines 107-108, 196-197, 261-262, 300-301. `1 / self.beta` raises
`ZeroDivisionError` for a Python zero. -/
def Dist.paramsForNumpy : Dist V → Except Err (Dict V)
  | .deterministic _ => .error .notImplemented
  | .normal mu sigma => .ok [("loc", mu), ("scale", sigma)]
  | .gamma alpha beta =>
    if eq beta (ofRat 0) then .error .zeroDivision
    else .ok [("shape", alpha), ("scale", div (ofRat 1) beta)]
  | .uniform start stop => .ok [("low", start), ("high", stop)]

/-- `_params_for_pymc`, lines 104-105, 193-194, 258-259, 297-298. -/
def Dist.paramsForPymc : Dist V → Except Err (Dict V)
  | .deterministic _ => .error .notImplemented
  | .normal mu sigma => .ok [("mu", mu), ("sigma", sigma)]
  | .gamma alpha beta => .ok [("alpha", alpha), ("beta", beta)]
  | .uniform start stop => .ok [("lower", start), ("upper", stop)]

/-- `_params_for_pyro`, lines 110-111, 199-200, 264-265, 303-304. -/
def Dist.paramsForPyro : Dist V → Except Err (Dict V)
  | .deterministic _ => .error .notImplemented
  | .normal mu sigma => .ok [("loc", mu), ("scale", sigma)]
  | .gamma alpha beta => .ok [("concentration", alpha), ("rate", beta)]
  | .uniform start stop => .ok [("low", start), ("high", stop)]

/-- `_get_dist_params`, `gerabaldi/models/random_vars.py:38-46`. -/
def Dist.getDistParams (d : Dist V) (target : String) : Except Err (Dict V) :=
  if target = "pymc" then d.paramsForPymc
  else if target = "numpy" then d.paramsForNumpy
  else if target = "pyro" then d.paramsForPyro
  else .error .notImplemented

/-- `sample`, `gerabaldi/models/random_vars.py:48-62` and, for `Deterministic`, 147-161
(`np.full(quantity, value)`). -/
def RVar.sample [Rng W V] (r : RVar V) (quantity : Nat) : M W (List V) :=
  match r.dist with
  | .deterministic v => pure (List.replicate quantity v)
  | d => do
    let ps ← M.ofExcept (d.getDistParams "numpy")
    Rng.draw r.id d.typeName ps quantity

/-- What `get_cbi_form` hands to a CBI framework: class name, variable name, parameters. -/
structure CbiForm (V : Type) where
  framework : String
  cls : String
  name : Option String
  params : Dict V
  deriving DecidableEq, Repr

/-- `str.capitalize` for the distribution type names. -/
def Dist.className : Dist V → String
  | .deterministic _ => "Deterministic"
  | .normal _ _ => "Normal"
  | .gamma _ _ => "Gamma"
  | .uniform _ _ => "Uniform"

/-- `get_cbi_form`, `gerabaldi/models/random_vars.py:64-101`. The framework's own constructor is not
modelled (it is assumed to accept the parameters). -/
def RVar.getCbiForm (r : RVar V) (target : String) : Except Err (CbiForm V) :=
  if target = "pymc" ∨ target = "pyro" then
    match r.dist.getDistParams target with
    | .ok ps => .ok ⟨target, r.dist.className, r.name, ps⟩
    | .error e => .error e
  else .error .notImplemented

/-- `get_centre`, `gerabaldi/models/random_vars.py:113-114, 202-210`. -/
def RVar.getCentre (r : RVar V) : Except Err V :=
  match r.dist with
  | .normal mu _ => .ok mu
  | _ => .error .notImplemented

/-- `set_centre`, `gerabaldi/models/random_vars.py:116-117, 212-226`; `op` is the optional
operation. -/
def RVar.setCentre (r : RVar V) (value : V) (op : Option (V → V → V)) : Except Err (RVar V) :=
  match r.dist with
  | .normal mu sigma => match op with
    | some f => .ok { r with dist := .normal (f value mu) sigma }
    | none => .ok { r with dist := .normal value sigma }
  | _ => .error .notImplemented

end

end Gerabaldi
