import Verif.Spec.History

/-!
# Degradation in other units

What it means to express the degradation of a mechanism in another unit, with another zero.
-/

namespace Gerabaldi.Spec
open Gerabaldi

variable {K : Type} [Field K]

/-- A quantity in another unit: a number `a` becomes `κ a + β`; infinities and NaN have no unit. -/
def inUnit (κ β : K) : Ext K → Ext K
  | .fin a => .fin (κ * a + β)
  | .pinf => .pinf
  | .ninf => .ninf
  | .nan => .nan

variable {W : Type} [LinearOrder K] [FloorRing K] [Pow10 K]

/-- The mechanism `k'` with equation `g'` is the mechanism `k` with equation `g` in another unit. -/
structure OtherUnit (κ β : K) (k k' : MechMdl W (Ext K)) (g g' : (String → Ext K) → Ext K) : Prop where
  kind : k'.kind = k.kind
  unitary : k'.unitary = inUnit κ β k.unitary
  eqn : ∀ args, g' args = inUnit κ β (g args)

/-- The parameter `m'` with equation `g'` is the parameter `m` with equation `g`, but its mechanisms have units
of their own, which its equation converts back. -/
structure OtherUnits (κ β : String → K) (m m' : DegPrmMdl W (Ext K)) (g g' : (String → Ext K) → Ext K)
    (gm gm' : String → (String → Ext K) → Ext K) : Prop where
  pos : ∀ mech, 0 < κ mech
  mechs : ∀ mech k, m.mechs.get? mech = some k → ∃ k', m'.mechs.get? mech = some k' ∧
    OtherUnit (κ mech) (β mech) k k' (gm mech) (gm' mech)
  none : ∀ mech, m.mechs.get? mech = none → m'.mechs.get? mech = none
  cond : m'.condUnitary = m.condUnitary
  eqn : ∀ init cond vals own, (∀ mech, (vals mech).isSome = (m.mechs.get? mech).isSome) →
    g' (prmNames init cond (fun mech => (vals mech).map (inUnit (κ mech) (β mech))) own) =
      g (prmNames init cond vals own)

end Gerabaldi.Spec
