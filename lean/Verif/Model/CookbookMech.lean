import Verif.Model.Build
import Verif.Model.CookbookEnv
import Verif.Model.Ext

/-!
# Model of the prebuilt mechanism (`gerabaldi/cookbook/mech_mdls.py`)

The equation is a numpy expression. Such expressions are modelled as syntax trees that are evaluated with
broadcasting, like the Python operators.
-/

namespace Gerabaldi

/-- `np.exp(x)` and `x**y`. -/
class PyTrans (V : Type) where
  exp : V → V
  pow : V → V → V

/-- `np.exp` and `**` for extended reals. A power of an infinity or NaN, and an infinite or NaN exponent,
give NaN here (numpy has some finite and infinite results among these); a negative number to a power that is
not an integer gives NaN, as in numpy. -/
noncomputable instance : PyTrans (Ext ℝ) where
  exp := fun x => match x with
    | .fin a => .fin (Real.exp a)
    | .pinf => .pinf
    | .ninf => .fin 0
    | .nan => .nan
  pow := fun x y => match x, y with
    | .fin a, .fin b =>
      if 0 < a then .fin (a ^ b)
      else if a = 0 then (if b < 0 then .pinf else .fin ((0 : ℝ) ^ b))
      else if b = ⌊b⌋ then .fin (a ^ ⌊b⌋)
      else .nan
    | _, _ => .nan

/-- A unary numpy function on values. -/
def PyVal.un {V : Type} (f : V → V) : PyVal V → PyVal V
  | .arr a => .arr (a.map f)
  | .scal x => .scal (f x)
  | .npscal x => .scal (f x)

/-- Python expressions built from arguments, literals and elementwise operators. -/
inductive NumExpr (V : Type)
  | arg (name : String)
  | lit (v : V)
  | un (f : V → V) (e : NumExpr V)
  | bin (f : V → V → V) (e₁ e₂ : NumExpr V)

section
variable {W V : Type} [Inhabited V]

/-- Evaluation with broadcasting. -/
def NumExpr.eval (args : Dict (PyVal V)) : NumExpr V → Except Err (PyVal V)
  | .arg a => args.getE a
  | .lit v => .ok (.scal v)
  | .un f e => do
    let x ← e.eval args
    pure (x.un f)
  | .bin f e₁ e₂ => do
    let x ← e₁.eval args
    let y ← e₂.eval args
    PyVal.bin f x y

/-- `def f(<params>): return <expression>`. -/
def NumExpr.fn (params : List String) (e : NumExpr V) : PyFun W V where
  params := params.map fun p => (p, false)
  call := fun args => M.ofExcept (e.eval args)

end

section
variable {W V : Type} [PyArith V] [PyTrans V]
open PyArith

/-- `nbti_vth_shift_empirical`, `gerabaldi/cookbook/mech_mdls.py:26-27`, with `BOLTZMANN_CONST_EV` of line
11. -/
def nbtiExpr : NumExpr V :=
  .bin mul
    (.bin mul
      (.bin mul (.arg "a_0")
        (.un PyTrans.exp
          (.bin div (.arg "e_aa") (.bin mul (.lit (ofRat (8617 / 100000000))) (.arg "temp")))))
      (.bin PyTrans.pow (.arg "vdd") (.arg "alpha")))
    (.bin PyTrans.pow (.arg "time") (.arg "n"))

/-- Its signature, line 26. -/
def nbtiParams : List String := ["a_0", "e_aa", "temp", "vdd", "alpha", "time", "n"]

/-- `LatentVar(dev_vrtn_mdl=Normal(mu, sigma))`; `vrtn_type` defaults to scaling
(`gerabaldi/models/devices.py:90`). -/
def devNormal (i : Nat) (mu sigma : ℚ) : Except Err (LatentVar V) :=
  LatentVar.mk' (some (normalVar i mu sigma)) none none none none "scaling"

/-- `jedec_nbti_mdl`, `gerabaldi/cookbook/mech_mdls.py:14-37`. The numbers identify the random variable
objects. -/
def jedecNbti : Except Err (MechMdl W V) := do
  let a0 ← devNormal 1 (6 / 1000) (2 / 10000)
  let eaa ← devNormal 2 (5 / 100) (2 / 10000)
  let alpha ← devNormal 3 (34 / 10) (4 / 1000)
  let n ← devNormal 4 (21 / 100) (5 / 1000)
  pure (MechMdl.mk' .deg 0 (some (nbtiExpr.fn nbtiParams)) (some "JEDEC's Empirical NBTI Vth Shift Model")
    (ofRat 0) none [("a_0", a0), ("e_aa", eaa), ("alpha", alpha), ("n", n)])

end

end Gerabaldi
