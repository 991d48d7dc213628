import Verif.Spec.Equation

/-!
# What a circuit parameter's equation computes (C67)

The equation of a circuit parameter is a function of its own latent variables, of the conditions of the
measurement and of the true values of the device's other parameters, all at one sample.
-/

namespace Gerabaldi.Spec

variable {W V : Type} [PyArith V]

/-- What the names of the equation stand for: own latent variables first, then conditions, then parameters. -/
def circNames (lat cond prm : String → Option V) (k : String) : V :=
  match lat k with
  | some v => v
  | none => match cond k with
    | some v => v
    | none => (prm k).getD default

/-- The conditions at one sample. -/
def condAt (conds : Dict (Arr3 V)) (l c d : Nat) (k : String) : Option V := (conds.get? k).map (·.at' l c d)

/-- The true values of the parameters of one sample. -/
def trueAt (s : SimState V) (l c d : Nat) (k : String) : Option V :=
  match s.currPrm.get? k with
  | some (.arr a) => some (a.at' l c d)
  | _ => none

/-- The equation computes `g` sample by sample: arrays it returns for arguments whose arrays have one shape
have that shape, and each sample of them is `g` of what the names stand for at that sample. -/
def CircEquation (f : PyFun W V) (g : (String → V) → V) : Prop :=
  ∀ (args : Dict (PyVal V)) L C n (w w' : W) a, args.Nodup → uniformShape args L C n →
    f.invoke args w = (.ok (.arr a), w') →
    a.HasDims L C n ∧ ∀ l < L, ∀ c < C, ∀ d < n, ∀ env : String → V,
      (∀ k v, args.get? k = some v → sampleVal v l c d = env k) → a.at' l c d = g env

end Gerabaldi.Spec
