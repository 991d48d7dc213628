import Verif.Model.Env
import Verif.Spec.Latent

/-!
# Specification of environmental variation
-/

namespace Gerabaldi.Spec

variable {V : Type} [PyArith V]

/-- What a user has configured on an environmental variation model. -/
structure EnvCfg (V : Type) where
  batch : Option (Nat × Dist V)
  chp : Option (Nat × Dist V)
  dev : Option (Nat × Dist V)
  scaling : Bool

/-- The configuration after one more assignment. -/
def EnvCfg.record (cfg : EnvCfg V) : EnvAssign V → EnvCfg V
  | .batch r => { cfg with batch := layerOf r }
  | .chp r => { cfg with chp := layerOf r }
  | .dev r => { cfg with dev := layerOf r }
  | .name _ => cfg
  | .vrtnType s =>
    if s = "scaling" then { cfg with scaling := true }
    else if s = "offset" then { cfg with scaling := false } else cfg

/-- Sampling a configuration around a base value: one batch draw, then one draw per chip, then one per
device; layers that are not configured draw and contribute nothing. -/
def sampleEnv {W : Type} [Rng W V] (cfg : EnvCfg V) (base : V) (L C D : Nat) : M W (Arr3 V) := do
  let b ← drawLayer cfg.batch 1
  let c ← drawLayer cfg.chp (C * L)
  let d ← drawLayer cfg.dev (D * (L * C))
  pure (Arr3.ofFn L C D fun l k i => combine cfg.scaling
    ([base] ++ pick b 0 ++ pick c (l * C + k) ++ pick d ((l * C + k) * D + i)))

/-- The condition `cond` is an argument of one of the equations that parameter `p` evaluates in a stress
phase (its own and its mechanisms') or in a measurement (its own and the conditional shift's). -/
def NeedsCond {W : Type} (p : PrmMdl W V) (target : Target) (cond : String) : Prop :=
  match p with
  | .circ m => cond ∈ m.compute.argNames
  | .deg m => cond ∈ m.mdl.compute.argNames ∨
    match target with
    | .stress => ∃ kv ∈ m.mechs, cond ∈ kv.2.mdl.compute.argNames
    | .measure => cond ∈ m.condMdl.compute.argNames

/-- The value of a condition for a parameter in the result of the environment. -/
def condOf (r : Dict (Dict (Arr3 V))) (prm cond : String) : Option (Arr3 V) :=
  match r.get? prm with
  | none => none
  | some d => d.get? cond

/-- Sampling one variable cannot influence the other: they are different objects or one of them is
constant. -/
def Independent (r r' : RVar V) : Prop :=
  (∃ v, r.dist = .deterministic v) ∨ (∃ v, r'.dist = .deterministic v) ∨ r.id ≠ r'.id

end Gerabaldi.Spec
