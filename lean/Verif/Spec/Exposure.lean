import Verif.Spec.History
import Verif.Lemmas.Fresh

/-!
# Exposure that accumulates over stress phases (C75)
-/

namespace Gerabaldi.Spec

variable {W : Type}

/-- The length of a stress phase as a real number of time units. -/
noncomputable def lengthOf (unit : TUnit) (ph : Phase (Ext ℝ)) : ℝ := (phaseTime unit ph.duration : ℚ)

/-- The exposure that stress phases add up to: the length of each, times the rate its conditions stand for. -/
noncomputable def exposure (unit : TUnit) (rate : Phase (Ext ℝ) → ℝ) (phases : List (Phase (Ext ℝ))) : ℝ :=
  (phases.map fun ph => rate ph * lengthOf unit ph).sum

/-- The equation of a mechanism, for one sample: under the conditions of each phase it is the same function `φ`
of the exposure, and the conditions (and the sample's latent values) only decide on the rate of exposure. -/
structure RateLaw (g : (String → Ext ℝ) → Ext ℝ) (lat : Dict (Arr3 (Ext ℝ))) (l c d : Nat) (φ : ℝ → ℝ)
    (rate : Phase (Ext ℝ) → ℝ) (phases : List (Phase (Ext ℝ))) : Prop where
  pos : ∀ ph ∈ phases, 0 < rate ph
  long : ∀ ph ∈ phases, 0 ≤ timeVal ph.duration
  law : ∀ ph ∈ phases, ∀ t : ℝ, 0 < t →
    g (mechNames (.fin t) (condAt lat l c d) (condAt ph.conds l c d)) = .fin (φ (rate ph * t))

/-- The factor within which a finished search finds a time. -/
noncomputable def slack : ℝ := 10 ^ (1 / 100000 : ℝ)

/-- The time searched for in each phase is between the bounds of the search, and the time after the phase is
below 9e9 units, for the exposure `S` before the phases, `j` searches made by then and an extra exposure of up to
`extra`. -/
def InReach (unit : TUnit) (rate : Phase (Ext ℝ) → ℝ) (extra : ℝ) : Nat → ℝ → List (Phase (Ext ℝ)) → Prop
  | _, _, [] => True
  | j, S, ph :: rest => rate ph / 1000 ≤ S / slack ^ j ∧
      (S + extra) * slack ^ (j + 1) + rate ph * lengthOf unit ph ≤ 9000000000 * rate ph ∧
      InReach unit rate extra (j + 1) (S + rate ph * lengthOf unit ph) rest

/-- In each phase the search for sample `(l, c, d)` finishes. -/
def Finishes (k : MechMdl W (Ext ℝ)) (g : (String → Ext ℝ) → Ext ℝ) (unit : TUnit) (lat : Dict (Arr3 (Ext ℝ)))
    (L C n l c d : Nat) : (Nat → Nat → Nat → Ext ℝ) → List (Phase (Ext ℝ)) → Prop
  | _, [] => True
  | v, ph :: rest =>
    (searchState (equivTimeCfg (Ext ℝ)) (residueOne g (condAt lat l c d) (condAt ph.conds l c d) (v l c d))
      (commonRounds (equivTimeCfg (Ext ℝ)) L C n fun l c d =>
        residueOne g (condAt lat l c d) (condAt ph.conds l c d) (v l c d))).done (equivTimeCfg (Ext ℝ)) = true ∧
      Finishes k g unit lat L C n l c d (phaseValues k g unit lat L C n v ph) rest

end Gerabaldi.Spec
