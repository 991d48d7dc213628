import Verif.Lemmas.NumExpr
import Verif.Model.Sim
import Verif.Spec.Rows

/-!
# What a parameter equation computes (C65)

The equation of a parameter is a function of its initial value ('init'), its conditional shift ('cond'), its
mechanism values and its own latent variables, all at one sample.
-/

namespace Gerabaldi.Spec

variable {W V : Type} [PyArith V]

/-- The value of an expression when the names have the values `env`. -/
def exprOn (env : String → V) : NumExpr V → V
  | .arg a => env a
  | .lit v => v
  | .un f e => f (exprOn env e)
  | .bin f e₁ e₂ => f (exprOn env e₁) (exprOn env e₂)

/-- What the names of a parameter equation stand for: mechanisms first, then the initial value and the
conditional shift, then the parameter's own latent variables. -/
def prmNames (init cond : V) (mech lat : String → Option V) (k : String) : V :=
  match mech k with
  | some v => v
  | none => if k = "init" then init else if k = "cond" then cond else (lat k).getD default

/-- The parameter's own latent values at one sample. -/
def ownAt (lat : Dict (LatNode V)) (l c d : Nat) (k : String) : Option V :=
  match lat.get? k with
  | some (.arr a) => some (a.at' l c d)
  | _ => none

/-- A value whose scalars survive the loop over the samples, which drops numpy scalars. -/
def loopable : PyVal V → Prop
  | .npscal _ => False
  | _ => True

/-- The equation of the parameter computes `g` sample by sample: whenever it returns, for arguments whose
arrays have one shape of a size in `N`, whose values are of a kind in `S` and which are arrays except possibly
for the conditional shift and the mechanism values, the result has that shape and
each sample of it is `g` of what the names stand for at that sample. -/
structure HasEquation (m : DegPrmMdl W V) (g : (String → V) → V) (N : Nat → Prop := fun _ => True)
    (S : PyVal V → Prop := fun _ => True) : Prop where
  arr : ∀ a, S (.arr a)
  scal : ∀ x, S (.scal x)
  value : ∀ (args : Dict (PyVal V)) L C n (w w' : W) v, N (L * C * n) → args.Nodup →
    uniformShape args L C n → (∃ k a, args.get? k = some (PyVal.arr a)) → (∀ k v, (k, v) ∈ args → S v) →
    OwnArrays m args →
    computeOrLoop m.mdl.compute args L C n w = (.ok v, w') →
    ∃ a, v = .arr a ∧ a.HasDims L C n ∧ ∀ l < L, ∀ c < C, ∀ d < n, ∀ env : String → V,
      (∀ k v, args.get? k = some v → sampleVal v l c d = env k) → a.at' l c d = g env

/-- In state `s` the true value of each of the `n` devices of parameter `prm` is `g` of its initial value,
the neutral conditional shift, its mechanism values and its latent values. -/
def Computed (m : DegPrmMdl W V) (g : (String → V) → V) (s : SimState V) (L C n : Nat) (prm : String) :
    Prop :=
  ∃ ia a mv lat, s.initPrm.get? prm = some (.arr ia) ∧ ia.HasDims L C n ∧
    s.currPrm.get? prm = some (.arr a) ∧ a.HasDims L C n ∧
    s.currMech.get? prm = some mv ∧ mv.keys = m.mechs.keys ∧ s.latents.get? prm = some lat ∧
    ∀ l < L, ∀ c < C, ∀ d < n, a.at' l c d =
      g (prmNames (ia.at' l c d) m.condUnitary
        (fun k => (mv.get? k).map (·.at' l c d)) (ownAt lat l c d))

/-- The value `x` is what the equation gives for it when every mechanism and the conditional shift have
their neutral values, with these latent values. -/
def Kept (m : DegPrmMdl W V) (g : (String → V) → V) (lat : String → Option V) (x : V) : Prop :=
  g (prmNames x m.condUnitary (fun k => (m.mechs.get? k).map (·.unitary)) lat) = x

/-- The equation returns the initial value when every mechanism has its neutral value and the conditional
shift is neutral, whatever the latent variables are. -/
def Neutral (m : DegPrmMdl W V) (g : (String → V) → V) : Prop := ∀ x lat, Kept m g lat x

/-- All true values of parameter `prm` in state `s` are kept by its equation. -/
def AllKept (m : DegPrmMdl W V) (g : (String → V) → V) (s : SimState V) (L C n : Nat) (prm : String) : Prop :=
  ∀ a lat, s.currPrm.get? prm = some (.arr a) → s.latents.get? prm = some lat →
    ∀ l < L, ∀ c < C, ∀ d < n, Kept m g (ownAt lat l c d) (a.at' l c d)

end Gerabaldi.Spec
