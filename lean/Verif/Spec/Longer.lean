import Verif.Spec.History

/-!
# Stress steps of different lengths (C78)
-/

namespace Gerabaldi.Spec

variable {V : Type} [PyNum V]

/-- The time from which a mechanism with the value `v` goes on in a stress phase. -/
def startTime (kind : MechKind) (g : (String → V) → V) (lat cond : String → Option V) (rounds : Nat) (v : V) : V :=
  match kind with
  | .fail => PyArith.ofRat 0
  | _ => searchOne (equivTimeCfg V) (residueOne g lat cond v) rounds

/-- The phase ends later than 9e9 units of time. -/
def tooLong (kind : MechKind) (g : (String → V) → V) (lat cond : String → Option V) (length : V) (rounds : Nat)
    (v : V) : Bool :=
  PyArith.lt (PyArith.ofRat 9000000000) (PyArith.add (startTime kind g lat cond rounds v) length)

/-- The values of the equation are related for times that are ordered. -/
def Follows {K : Type} [Field K] [LinearOrder K] [FloorRing K] [Pow10 K] (R : Ext K → Ext K → Prop) (g : (String → Ext K) → Ext K)
    (lat cond : String → Option (Ext K)) : Prop :=
  ∀ t t' : K, 0 ≤ t → t ≤ t' → R (g (mechNames (.fin t) lat cond)) (g (mechNames (.fin t') lat cond))

end Gerabaldi.Spec
