import Verif.Props.Readings
import Verif.Spec.Tapes

/-!
# Measurement errors
-/

namespace Gerabaldi.Spec
open Gerabaldi MeasureTheory

/-- The same surroundings with exact instruments. -/
def exactEnv {V : Type} (env : PhysTestEnv V) : PhysTestEnv V :=
  { env with instms := env.instms.map fun kv => (kv.1, { precision := none, range := none, error := none }) }

/-- The instrument shows `y` for `x`, its error apart. -/
def ShownFor (N : Numpy) (ins : Instrument (Ext ℝ)) (x y : Ext ℝ) : Prop :=
  ∀ w : Tapes N, ({ ins with error := none } : Instrument (Ext ℝ)).measureVals [x] w = (.ok [y], w)

/-- A random variable that uses none of the generators. -/
def Elsewhere (G : Set Nat) (r : RVar (Ext ℝ)) : Prop := r.id ∉ G ∨ ∃ v, r.dist = .deterministic v

/-- An equation that uses no generator. -/
def IsFunction {W V : Type} (f : PyFun W V) : Prop := ∀ args, ∃ e, f.call args = M.ofExcept e

/-- The latent variables of a model use none of the generators, and its equation uses no generator at all. -/
structure ModelElsewhere {W : Type} (G : Set Nat) (m : LatentMdl W (Ext ℝ)) : Prop where
  eqn : IsFunction m.compute
  latents : ∀ kv ∈ m.latentVars, Elsewhere G kv.2.lot ∧ Elsewhere G kv.2.chp ∧ Elsewhere G kv.2.dev

/-- The generators `G` belong to the instruments: all errors come from them, and neither the device nor the
conditions use them. -/
structure OwnGenerators (N : Numpy) (G : Set Nat) {W : Type} (dev : DeviceMdl W (Ext ℝ)) (env : PhysTestEnv (Ext ℝ)) :
    Prop where
  names : dev.prms.Nodup
  errors : ∀ kv ∈ env.instms, ∀ r, kv.2.error = some r → r.id ∈ G ∧ ∃ f, N.value r.dist = some f
  conds : ∀ kv ∈ env.vars, Elsewhere G kv.2.batch ∧ Elsewhere G kv.2.chp ∧ Elsewhere G kv.2.dev
  deg : ∀ kv ∈ dev.prms, ∀ m, kv.2 = .deg m → ModelElsewhere G m.mdl ∧ ModelElsewhere G m.condMdl ∧
    ModelElsewhere G m.initMdl ∧ ∀ mech ∈ m.mechs, ModelElsewhere G mech.2.mdl
  circ : ∀ kv ∈ dev.prms, ∀ m, kv.2 = .circ m → ModelElsewhere G m

open Classical in
/-- The generators `G` give random numbers, the others any fixed numbers. -/
noncomputable def mixed {N : Numpy} {Ω : Type} (G : Set Nat) (raw : Nat → Nat → Ω → ℝ) (tape : Nat → Nat → ℝ)
    (next : Nat → Nat) (ω : Ω) : Tapes N :=
  ⟨fun i j => if i ∈ G then raw i j ω else tape i j, next⟩

/-- The error of an instrument: nothing, or a random number with the distribution of its error. -/
def ErrorOf (N : Numpy) {Ω : Type} [MeasurableSpace Ω] (P : Measure Ω) (P₀ : Measure ℝ) (ins : Instrument (Ext ℝ))
    (E : Ω → ℝ) : Prop :=
  match ins.error with
  | none => ∀ ω, E ω = 0
  | some r => ∀ f, N.value r.dist = some f → P.map E = P₀.map f

/-- An instrument with a normally distributed error and neither limits nor rounding. -/
structure NormalError (ins : Instrument (Ext ℝ)) (mu : ℝ) (sigma : NNReal) : Prop where
  error : ∃ r, ins.error = some r ∧ r.dist = .normal (.fin mu) (.fin sigma)
  precision : ins.precision = none
  range : ins.range = none

end Gerabaldi.Spec
