import Verif.Model.Latent

/-!
# Specification of layered variation models

What the user has configured, and the values that configuration stands for.
-/

namespace Gerabaldi.Spec

variable {V : Type} [PyArith V]

/-- What a user has configured on a latent variable: distributions (object and parameters) for the
layers they defined, the base value, and whether layers are multiplied (else added). -/
structure LatentCfg (V : Type) where
  dev : Option (Nat × Dist V)
  chp : Option (Nat × Dist V)
  lot : Option (Nat × Dist V)
  base : Option V
  scaling : Bool

/-- The random variable object and parameters of a layer argument. -/
def layerOf (r : Option (RVar V)) : Option (Nat × Dist V) := r.map fun r => (r.id, r.dist)

/-- The configuration after one more assignment: the last accepted value counts. -/
def LatentCfg.record (cfg : LatentCfg V) : LatentAssign V → LatentCfg V
  | .dev r => { cfg with dev := layerOf r }
  | .chp r => { cfg with chp := layerOf r }
  | .lot r => { cfg with lot := layerOf r }
  | .deterVal v => { cfg with base := v }
  | .name _ => cfg
  | .vrtnType s =>
    if s = "scaling" then { cfg with scaling := true }
    else if s = "offset" then { cfg with scaling := false } else cfg

/-- Product (or sum) of the given contributions, from left to right. -/
def combine (scaling : Bool) (parts : List V) : V :=
  match parts with
  | [] => if scaling then PyArith.ofRat 1 else PyArith.ofRat 0
  | x :: xs => xs.foldl (if scaling then PyArith.mul else PyArith.add) x

/-- Draws of one layer: nothing is drawn for a layer that is not defined. -/
def drawLayer {W : Type} [Rng W V] (layer : Option (Nat × Dist V)) (n : Nat) :
    M W (Option (List V)) :=
  match layer with
  | none => pure none
  | some (id, dist) => do
    let xs ← RVar.sample ⟨id, dist, none⟩ n
    pure (some xs)

/-- The contribution of draw number `i` of a layer, if the layer is defined. -/
def pick (xs : Option (List V)) (i : Nat) : List V :=
  match xs with
  | none => []
  | some xs => [xs.getD i default]

/-- The value array a configuration stands for: base, device, chip and lot contributions combined,
one device draw per device, one chip draw per chip, one lot draw per lot. -/
def layeredVals (cfg : LatentCfg V) (L C D : Nat) (lotS chpS devS : Option (List V)) : Arr3 V :=
  Arr3.ofFn L C D fun l c d => combine cfg.scaling
    (cfg.base.toList ++ pick devS ((l * C + c) * D + d) ++ pick chpS (l * C + c) ++ pick lotS l)

/-- Sampling a configuration: lot draws, then chip draws, then device draws. -/
def sampleCfg {W : Type} [Rng W V] (cfg : LatentCfg V) (L C D : Nat) : M W (Arr3 V) := do
  let lotS ← drawLayer cfg.lot L
  let chpS ← drawLayer cfg.chp (L * C)
  let devS ← drawLayer cfg.dev (L * C * D)
  pure (layeredVals cfg L C D lotS chpS devS)

end Gerabaldi.Spec
