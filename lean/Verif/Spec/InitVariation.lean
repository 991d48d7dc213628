import Verif.Spec.Tapes
import Verif.Spec.Start

/-!
# The random variation of new devices
-/

namespace Gerabaldi.Spec
open Gerabaldi

/-- What a latent variable of a parameter is used for: its equation, its conditional shift, a mechanism, its initial
value. -/
inductive Role
  | own
  | cond
  | mech (name : String)
  | init
  deriving DecidableEq

/-- A latent variable of a device. -/
structure Slot where
  prm : String
  role : Role
  var : String
  deriving DecidableEq

section
variable {W V : Type}

/-- The latent variables of a parameter for a role. -/
def latentsOf (dm : DeviceMdl W V) (prm : String) (role : Role) : Option (Dict (LatentVar V)) :=
  match dm.prms.get? prm, role with
  | some (.deg m), .own => some m.mdl.latentVars
  | some (.deg m), .cond => some m.condMdl.latentVars
  | some (.deg m), .mech k => (m.mechs.get? k).map (·.mdl.latentVars)
  | some (.deg m), .init => some m.initMdl.latentVars
  | some (.circ m), .own => some m.latentVars
  | _, _ => none

/-- The latent variable at a slot. -/
def latentAt (dm : DeviceMdl W V) (s : Slot) : Option (LatentVar V) :=
  match latentsOf dm s.prm s.role with
  | some d => d.get? s.var
  | none => none

/-- The values of a latent variable in a state; those for the initial value are not kept. -/
def keptLatent (st : SimState V) (s : Slot) : Option (Arr3 V) :=
  match st.latents.get? s.prm with
  | none => none
  | some lat =>
    match s.role with
    | .own => match lat.get? s.var with
      | some (.arr a) => some a
      | _ => none
    | .cond => match lat.get? "cond" with
      | some (.sub d) => d.get? s.var
      | _ => none
    | .mech k => match lat.get? k with
      | some (.sub d) => d.get? s.var
      | _ => none
    | .init => none

end

/-- What varies: lots, chips, devices. -/
inductive Spot (L C : Nat)
  | lot (l : Fin L)
  | chp (l : Fin L) (c : Fin C)
  | dev (l : Fin L) (c : Fin C) (d : Nat)

/-- There are devices up to `n`. -/
def Spot.Within {L C : Nat} (n : Nat) : Spot L C → Prop
  | .dev _ _ d => d < n
  | _ => True

/-- The contribution of a lot, chip or device. -/
def Spot.layer {L C : Nat} (fl fc fd : ℝ → ℝ) : Spot L C → ℝ → ℝ
  | .lot _ => fl
  | .chp _ _ => fc
  | .dev _ _ _ => fd

/-- The variation models of the latent variables of a device. -/
structure Variation where
  type : Slot → VType
  base : Slot → Option ℝ
  lot : Slot → ℝ → ℝ
  chp : Slot → ℝ → ℝ
  dev : Slot → ℝ → ℝ

/-- The value of a latent variable for a device, from the contributions of lots, chips and devices. -/
def Variation.value {L C : Nat} (v : Variation) (x : Slot → Spot L C → ℝ) (s : Slot) (l : Fin L) (c : Fin C)
    (d : Nat) : ℝ :=
  match v.type s with
  | .offset => (v.base s).getD 0 + x s (.dev l c d) + x s (.chp l c) + x s (.lot l)
  | .scaling => (v.base s).getD 1 * x s (.dev l c d) * x s (.chp l c) * x s (.lot l)

/-- The variation model of a latent variable has finite parameters. -/
structure LatentLayers (N : Numpy) (v : Variation) (s : Slot) (lv : LatentVar (Ext ℝ)) : Prop where
  type : lv.vrtnType = some (v.type s)
  base : lv.deterVal = (v.base s).map .fin
  lot : N.value lv.lot.dist = some (v.lot s)
  chp : N.value lv.chp.dist = some (v.chp s)
  dev : N.value lv.dev.dist = some (v.dev s)

/-- The equation for initial values is defined for all finite arguments; it gives `g` on each device. -/
def InitEquation {W : Type} (m : LatentMdl W (Ext ℝ)) (g : (String → ℝ) → ℝ) : Prop :=
  ∀ (args : Dict (Arr3 (Ext ℝ))) (L C D : Nat) (x : String → Nat → Nat → Nat → ℝ), args.keys = m.latentVars.keys →
    (∀ k a, args.get? k = some a → a.HasDims L C D ∧
      ∀ l < L, ∀ c < C, ∀ d < D, a.at' l c d = .fin (x k l c d)) →
    ∀ w, ∃ a, m.compute.invoke (args.map fun kv => (kv.1, .arr kv.2)) w = (.ok (.arr a), w) ∧ a.HasDims L C D ∧
      ∀ l < L, ∀ c < C, ∀ d < D, a.at' l c d = .fin (g fun k => x k l c d)

/-- A device of which every parameter has a number of samples and every latent variable a variation model with finite
parameters. Dictionaries have no key twice. -/
structure NewSetup (N : Numpy) (dm : DeviceMdl (Tapes N) (Ext ℝ)) (counts : Dict Nat) (D : String → Nat)
    (v : Variation) (g : String → (String → ℝ) → ℝ) : Prop where
  prms : dm.prms.Nodup
  names : ∀ p m, dm.prms.get? p = some (.deg m) → OwnNames m
  vars : ∀ p r d, latentsOf dm p r = some d → d.Nodup
  layers : ∀ s lv, latentAt dm s = some lv → LatentLayers N v s lv
  equations : ∀ p m, dm.prms.get? p = some (.deg m) → InitEquation m.initMdl (g p)
  counts : ∀ p ∈ dm.prms.keys, counts.get? p = some (D p)

/-- All latent values of the state, and the initial values of its parameters, are made of the contributions `x`. -/
def NewStateIs {W : Type} (dm : DeviceMdl W (Ext ℝ)) (D : String → Nat) (v : Variation)
    (g : String → (String → ℝ) → ℝ) {L C : Nat} (x : Slot → Spot L C → ℝ) (st : SimState (Ext ℝ)) : Prop :=
  (∀ s lv, latentAt dm s = some lv → s.role ≠ .init → ∃ a, keptLatent st s = some a ∧ a.HasDims L C (D s.prm) ∧
    ∀ (l : Fin L) (c : Fin C), ∀ d < D s.prm, a.at' l c d = .fin (v.value x s l c d)) ∧
  ∀ p m, dm.prms.get? p = some (.deg m) → ∃ a, st.initPrm.get? p = some (.arr a) ∧ st.currPrm.get? p = some (.arr a) ∧
    a.HasDims L C (D p) ∧
    ∀ (l : Fin L) (c : Fin C), ∀ d < D p, a.at' l c d = .fin (g p fun k => v.value x ⟨p, .init, k⟩ l c d)

/-- `Y` is the initial value of a parameter of a device. -/
def RandomInitial {N : Numpy} {Ω : Type} (raw : Nat → Nat → Ω → ℝ) (next : Nat → Nat)
    (dm : DeviceMdl (Tapes N) (Ext ℝ)) (counts : Dict Nat) (L C : Nat) (p : String) (l c d : Nat) (Y : Ω → ℝ) : Prop :=
  ∀ ω, ∃ st w' a, dm.genInitState counts C L (⟨fun i j => raw i j ω, next⟩ : Tapes N) = (.ok st, w') ∧
    st.initPrm.get? p = some (.arr a) ∧ a.at' l c d = .fin (Y ω)

/-- `Y` is the value of a latent variable of a device. -/
def RandomLatent {N : Numpy} {Ω : Type} (raw : Nat → Nat → Ω → ℝ) (next : Nat → Nat)
    (dm : DeviceMdl (Tapes N) (Ext ℝ)) (counts : Dict Nat) (L C : Nat) (s : Slot) (l c d : Nat) (Y : Ω → ℝ) : Prop :=
  ∀ ω, ∃ st w' a, dm.genInitState counts C L (⟨fun i j => raw i j ω, next⟩ : Tapes N) = (.ok st, w') ∧
    keptLatent st s = some a ∧ a.at' l c d = .fin (Y ω)

end Gerabaldi.Spec
