import Verif.Spec.Circuit
import Verif.Lemmas.LoopEqn

/-!
# Equations that compute each sample from the arguments at that sample (C71, C72, C73)
-/

namespace Gerabaldi.Spec

variable {W V : Type} [PyArith V]

/-- The equation computes `g` sample by sample, directly or through the loop over the samples: for arguments
whose arrays have one shape of a size in `N`, every sample of what it returns is `g` of what the names stand
for at that sample. -/
def SampleEquation (f : PyFun W V) (g : (String → V) → V) (N : Nat → Prop := fun _ => True) : Prop :=
  ∀ (args : Dict (PyVal V)) L C n (w w' : W) v, N (L * C * n) → args.Nodup → uniformShape args L C n →
    plainScalars args → computeOrLoop f args L C n w = (.ok v, w') →
    (∀ x, v ≠ .npscal x) ∧ ∀ l < L, ∀ c < C, ∀ d < n, ∀ env : String → V,
      (∀ k v, args.get? k = some v → sampleVal v l c d = env k) → sampleVal v l c d = g env

/-- An equation for single numbers only: it raises `ValueError` when one of its arguments is an array (as
`if` on an array does), and returns the number `g` of its arguments when all are numbers. -/
structure NumberEquation (f : PyFun W V) (g : (String → V) → V) : Prop where
  arrays : ∀ args w, (∃ k a, args.get? k = some (PyVal.arr a)) → f.accepts args = true →
    (f.call args w).1 = .error .valueError
  numbers : ∀ args w w' v, Numbers args → f.accepts args = true → f.call args w = (.ok v, w') →
    ∃ x, v = .scal x ∧ ∀ env : String → V, (∀ k v, args.get? k = some v → v = .scal (env k)) → x = g env

/-- What the names of the equation of a conditional shift stand for: its own latent variables first, then the
conditions. -/
def condNames (lat cond : String → Option V) (k : String) : V :=
  match lat k with
  | some v => v
  | none => (cond k).getD default

end Gerabaldi.Spec
