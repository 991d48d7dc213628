import Verif.Spec.Exposure

/-!
# The same device among different other devices (C76)
-/

namespace Gerabaldi.Spec

variable {V : Type} [PyNum V]

/-- Sample `p` of one population and sample `p'` of another have the same latent values and, phase by phase,
stress of the same length under the same conditions. -/
structure SameDevice (lat lat' : Dict (Arr3 V)) (phases phases' : List (Phase V)) (p p' : Nat × Nat × Nat) : Prop where
  lat : condAt lat p.1 p.2.1 p.2.2 = condAt lat' p'.1 p'.2.1 p'.2.2
  phases : List.Forall₂ (fun a b : Phase V => a.duration = b.duration ∧
    condAt a.conds p.1 p.2.1 p.2.2 = condAt b.conds p'.1 p'.2.1 p'.2.2) phases phases'

end Gerabaldi.Spec
