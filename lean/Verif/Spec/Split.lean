import Verif.Spec.Degrade

/-!
# Specification vocabulary for consecutive stress steps
-/

namespace Gerabaldi.Spec

variable {W V : Type} [PyNum V] [Rng W V]

/-- The stress steps `sts`, numbered from `i`, run successfully one after the other from state `s`, report
`r` and random state `w` to `s'`, `r'`, `w'`. In each of them the mechanism `k` sees the same conditions
`cs` and latent values `lat`, and its search stops by itself. Its values are `pre` before and `v` after. -/
inductive SameStress (ord : SetOrder) (dev : DeviceMdl W V) (env : PhysTestEnv V) (prm mech : String)
    (k : MechMdl W V) (cs lat : Dict (Arr3 V)) (n : Nat) : Nat → SimState V → SimReport V → W →
    Arr3 V → List (StrsSpec V) → SimState V → SimReport V → W → Arr3 V → Prop
  | nil {i : Nat} {s : SimState V} {r : SimReport V} {w : W} {pre : Arr3 V}
      (h : mechVal s prm mech = some pre) :
      SameStress ord dev env prm mech k cs lat n i s r w pre [] s r w pre
  | cons {i : Nat} {s s₁ s₂ : SimState V} {r r₁ r₂ : SimReport V} {w w₁ w₂ : W}
      {pre v₁ v₂ : Arr3 V} {st : StrsSpec V} {sts : List (StrsSpec V)}
      (step : StressedMech ord dev env st i s r w s₁ prm mech k pre cs lat n)
      (conv : Converges k pre cs lat r.info.numLots r.info.numChps n)
      (run : simStress ord dev env st i (s, r) w = (.ok (s₁, r₁), w₁))
      (val : mechVal s₁ prm mech = some v₁)
      (rest : SameStress ord dev env prm mech k cs lat n (i + 1) s₁ r₁ w₁ v₁ sts s₂ r₂ w₂ v₂) :
      SameStress ord dev env prm mech k cs lat n i s r w pre (st :: sts) s₂ r₂ w₂ v₂

/-- The durations of stress steps, in microseconds. -/
def Durations : List (StrsSpec V) → List Int → Prop
  | [], [] => True
  | st :: sts, us :: uss => st.duration = .td us ∧ 0 ≤ us ∧ Durations sts uss
  | _, _ => False

end Gerabaldi.Spec
