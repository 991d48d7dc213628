import Verif.Spec.Exposure

/-!
# Accelerated tests (C83)
-/

namespace Gerabaldi.Spec

variable {W : Type}

/-- The sample `(l, c, d)` of a mechanism with unfailed value `y` can be followed through the phases: its equation
is a curve `φ` of the exposure that starts at `y`, times stay in reach of the searches, and the searches
finish. -/
structure Followed (k : MechMdl W (Ext ℝ)) (g : (String → Ext ℝ) → Ext ℝ) (unit : TUnit) (lat : Dict (Arr3 (Ext ℝ)))
    (L C n l c d : Nat) (φ : ℝ → ℝ) (y : ℝ) (rate : Phase (Ext ℝ) → ℝ) (ph : Phase (Ext ℝ))
    (rest : List (Phase (Ext ℝ))) : Prop where
  start : k.unitary = .fin y
  fresh : FreshCurve φ y
  law : RateLaw g lat l c d φ rate (ph :: rest)
  first : lengthOf unit ph + 11 / 10000 ≤ 9000000000
  reach : InReach unit rate (rate ph * (11 / 10000)) 0 (rate ph * lengthOf unit ph) rest
  finish : Finishes k g unit lat L C n l c d (phaseValues k g unit lat L C n (fun _ _ _ => k.unitary) ph) rest

/-- Phase by phase, the second test stresses at least as long and at least as fast. -/
def Harsher (unit : TUnit) (rate : Phase (Ext ℝ) → ℝ) (phases phases' : List (Phase (Ext ℝ))) : Prop :=
  List.Forall₂ (fun a b => lengthOf unit a ≤ lengthOf unit b ∧ rate a ≤ rate b) phases phases'

/-- Phase by phase, the second test has a rate that is `A` times as high, for a time that is `A` times shorter. -/
def AcceleratedBy (unit : TUnit) (rate : Phase (Ext ℝ) → ℝ) (A : ℝ) (phases phases' : List (Phase (Ext ℝ))) : Prop :=
  List.Forall₂ (fun a b => rate b = A * rate a ∧ lengthOf unit b * A = lengthOf unit a) phases phases'

/-- The first phase of new devices lasts up to this much longer than requested, as an exposure. -/
noncomputable def startUp (rate : Phase (Ext ℝ) → ℝ) (ph : Phase (Ext ℝ)) : ℝ := rate ph * (11 / 10000)

end Gerabaldi.Spec
