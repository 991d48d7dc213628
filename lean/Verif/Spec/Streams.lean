import Verif.Model.Sim
import Verif.Model.Seeds

/-!
# Specification vocabulary: set-ups and the generators they use
-/

namespace Gerabaldi.Spec
open Gerabaldi

variable {W V S : Type}

/-! ## The same set-up with other generators -/

/-- The same distribution and name, another generator. -/
def overVar (g : Nat → Nat) (r : RVar V) : RVar V := { r with id := g r.id }

def overLatent (g : Nat → Nat) (lv : LatentVar V) : LatentVar V :=
  { lv with dev := overVar g lv.dev, chp := overVar g lv.chp, lot := overVar g lv.lot }

def overModel (g : Nat → Nat) (m : LatentMdl W V) : LatentMdl W V :=
  { m with latentVars := m.latentVars.map fun kv => (kv.1, overLatent g kv.2) }

def overMech (g : Nat → Nat) (m : MechMdl W V) : MechMdl W V := { m with mdl := overModel g m.mdl }

def overDeg (g : Nat → Nat) (m : DegPrmMdl W V) : DegPrmMdl W V :=
  { m with
    initMdl := overModel g m.initMdl
    condMdl := overModel g m.condMdl
    mechs := m.mechs.map fun kv => (kv.1, overMech g kv.2)
    mdl := overModel g m.mdl }

def overPrm (g : Nat → Nat) : PrmMdl W V → PrmMdl W V
  | .deg m => .deg (overDeg g m)
  | .circ m => .circ (overModel g m)

/-- The device with every generator `i` replaced by `g i`. -/
def overDevice (g : Nat → Nat) (dev : DeviceMdl W V) : DeviceMdl W V :=
  { dev with prms := dev.prms.map fun kv => (kv.1, overPrm g kv.2) }

def overVrtn (g : Nat → Nat) (m : EnvVrtnMdl V) : EnvVrtnMdl V :=
  { m with batch := overVar g m.batch, chp := overVar g m.chp, dev := overVar g m.dev }

def overInstm (g : Nat → Nat) (m : Instrument V) : Instrument V := { m with error := m.error.map (overVar g) }

/-- The environment with every generator `i` replaced by `g i`. -/
def overEnv (g : Nat → Nat) (env : PhysTestEnv V) : PhysTestEnv V where
  vars := env.vars.map fun kv => (kv.1, overVrtn g kv.2)
  instms := env.instms.map fun kv => (kv.1, overInstm g kv.2)

/-! ## The generators a set-up uses -/

/-- The generator is one of `G`, or there is nothing to draw. -/
def DrawsFrom (G : Set Nat) (r : RVar V) : Prop := r.id ∈ G ∨ ∃ v, r.dist = .deterministic v

/-- The equation draws nothing, and the latent variables use `G`. -/
structure ModelWithin (G : Set Nat) (m : LatentMdl W V) : Prop where
  eqn : ∀ args, ∃ e, m.compute.call args = M.ofExcept e
  latents : ∀ kv ∈ m.latentVars, DrawsFrom G kv.2.lot ∧ DrawsFrom G kv.2.chp ∧ DrawsFrom G kv.2.dev

/-- All random variables of a device and an environment use the generators `G`. -/
structure SetupWithin (G : Set Nat) (dev : DeviceMdl W V) (env : PhysTestEnv V) : Prop where
  deg : ∀ kv ∈ dev.prms, ∀ m, kv.2 = .deg m → ModelWithin G m.mdl ∧ ModelWithin G m.condMdl ∧
    ModelWithin G m.initMdl ∧ ∀ mech ∈ m.mechs, ModelWithin G mech.2.mdl
  circ : ∀ kv ∈ dev.prms, ∀ m, kv.2 = .circ m → ModelWithin G m
  vars : ∀ kv ∈ env.vars, DrawsFrom G kv.2.batch ∧ DrawsFrom G kv.2.chp ∧ DrawsFrom G kv.2.dev
  errors : ∀ kv ∈ env.instms, ∀ r, kv.2.error = some r → DrawsFrom G r

/-- Generator `g i` of the second world is where generator `i` of the first is. -/
def SameStreams (G : Set Nat) (g : Nat → Nat) (w w' : Gens S) : Prop := ∀ i ∈ G, w'.states (g i) = w.states i

/-- A script creates random variables with these seeds, builds the set-up from them (its variable number `i` uses the
`i`-th generator) and simulates. -/
def script [PyNum V] [BitGen S V] (seeds : List (Option Int)) (ord : SetOrder) (test : TestSpec V)
    (dev : DeviceMdl (Gens S) V) (env : PhysTestEnv V) (init : Option (SimState V)) : M (Gens S) (SimReport V) := do
  let ids ← M.mapList (newGenerator V) seeds
  simulate ord test (overDevice (fun i => ids.getD i 0) dev) (overEnv (fun i => ids.getD i 0) env) init

end Gerabaldi.Spec
