import Verif.Model.Device

/-!
# Specification vocabulary for initial states
-/

namespace Gerabaldi.Spec

variable {W V : Type}

/-- Circuit parameter `c` takes the device parameter `p` as an argument. -/
def Needs (dev : DeviceMdl W V) (c p : String) : Prop :=
  ∃ m, dev.prms.get? c = some (.circ m) ∧ p ∈ dev.prms.keys ∧ p ∈ m.compute.argNames

/-- Device counts `after` suit the circuit parameters among the requested counts `before`. -/
structure EnoughDevices (dev : DeviceMdl W V) (before after : Dict Nat) : Prop where
  /-- no requested count is lowered -/
  keeps : ∀ {p n}, before.get? p = some n → ∃ n', after.get? p = some n' ∧ n ≤ n'
  /-- what a circuit parameter needs exists at least as often as it was requested -/
  enough : ∀ {c p n}, before.get? c = some n → Needs dev c p → ∃ k, after.get? p = some k ∧ n ≤ k
  /-- other counts do not change -/
  same : ∀ {p}, (∀ c n, before.get? c = some n → ¬ Needs dev c p) → after.get? p = before.get? p

/-- Every count that a circuit parameter needs was requested already, high enough. -/
def Supplied (dev : DeviceMdl W V) (counts : Dict Nat) : Prop :=
  ∀ c p n, counts.get? c = some n → Needs dev c p → ∃ k, counts.get? p = some k ∧ n ≤ k

end Gerabaldi.Spec
