import Verif.Spec.Sample

/-!
# The state a simulation starts from (C72)
-/

namespace Gerabaldi.Spec

variable {W V : Type} [PyNum V] [Rng W V]

/-- The dictionary holds, for every latent variable of the model and for nothing else, values drawn from that
very variable for `L` lots of `C` chips with `n` devices. -/
def Drawn (m : LatentMdl W V) (L C n : Nat) (d : Dict (Arr3 V)) : Prop :=
  (∀ k lv, m.latentVars.get? k = some lv → ∃ a, ∃ u u' : W, d.get? k = some a ∧ a.HasDims L C n ∧
    lv.genLatentVals n C L u = (.ok a, u')) ∧
  ∀ k, m.latentVars.get? k = none → d.get? k = none

/-- The names of the model's parts are different: no mechanism is called 'cond', and no latent variable of the
parameter itself has the name of a mechanism or 'cond'. -/
structure OwnNames (m : DegPrmMdl W V) : Prop where
  mechs : m.mechs.Nodup
  cond : "cond" ∉ m.mechs.keys
  latents : m.mdl.latentVars.Nodup
  own : ∀ k ∈ m.mdl.latentVars.keys, k ≠ "cond" ∧ k ∉ m.mechs.keys

/-- In state `s` every mechanism of parameter `prm` has its neutral value at each of the `n` devices, and all
latent values are drawn from the variables they belong to. -/
structure NewMechs (m : DegPrmMdl W V) (s : SimState V) (L C n : Nat) (prm : String) : Prop where
  mechs : ∃ mv, s.currMech.get? prm = some mv ∧ s.initMech.get? prm = some mv ∧ mv.keys = m.mechs.keys ∧
    ∀ k x, m.mechs.get? k = some x → ∃ a, mv.get? k = some a ∧ a.HasDims L C n ∧
      ∀ l < L, ∀ c < C, ∀ d < n, a.at' l c d = x.unitary
  latents : ∃ lat, s.latents.get? prm = some lat ∧
    (∃ cl, lat.get? "cond" = some (.sub cl) ∧ Drawn m.condMdl L C n cl) ∧
    (∀ k x, m.mechs.get? k = some x → ∃ d, lat.get? k = some (.sub d) ∧ Drawn x.mdl L C n d) ∧
    ∃ own, Drawn m.mdl L C n own ∧ ∀ k a, own.get? k = some a → lat.get? k = some (.arr a)

/-- In state `s` the `n` devices of parameter `prm` are new: each has the initial value `gi` of its own drawn
latent values, every mechanism has its neutral value, and all latent values are drawn from the variables they
belong to. -/
structure NewDevices (m : DegPrmMdl W V) (gi : (String → V) → V) (s : SimState V) (L C n : Nat) (prm : String) :
    Prop extends NewMechs m s L C n prm where
  value : ∃ ia il, s.initPrm.get? prm = some (.arr ia) ∧ s.currPrm.get? prm = some (.arr ia) ∧
    ia.HasDims L C n ∧ Drawn m.initMdl L C n il ∧ ∀ l < L, ∀ c < C, ∀ d < n,
      ia.at' l c d = gi fun k => (condAt il l c d k).getD default

end Gerabaldi.Spec
