import Verif.Lemmas.Flat
import Verif.Props.DegradeEx

/-!
# C61: a stress without effect changes nothing

A mechanism can be inactive under some conditions, like an erosion law below its threshold: its equation then
gives the same value for all times. Nothing is assumed about the search.
-/

namespace Gerabaldi.Props

open Gerabaldi Gerabaldi.Spec

variable {W : Type} [Rng W (Ext ℝ)]

/-- **C61**: if a sample's equation under the new conditions does not depend on time, the sample keeps
exactly its degradation through the step, whatever the constant, the duration, the other samples, the other
mechanisms and the other parameters. -/
theorem C61_inactive_kept {ord : SetOrder} {dev : DeviceMdl W (Ext ℝ)} {env : PhysTestEnv (Ext ℝ)}
    {st : StrsSpec (Ext ℝ)} {i : Nat} {s s' : SimState (Ext ℝ)} {r : SimReport (Ext ℝ)} {w : W}
    {prm mech : String} {k : MechMdl W (Ext ℝ)} {pre : Arr3 (Ext ℝ)} {cs lat : Dict (Arr3 (Ext ℝ))}
    {n : Nat} (h : StressedMech ord dev env st i s r w s' prm mech k pre cs lat n)
    (hkind : k.kind = .deg) {g : Dict (PyVal (Ext ℝ)) → Ext ℝ}
    (hs : SampleWise k g cs lat r.info.numLots r.info.numChps n)
    {us : Int} (hdur : st.duration = .td us) (hus : 0 ≤ us)
    {l c d : Nat} (hl : l < r.info.numLots) (hc : c < r.info.numChps) (hd : d < n)
    {y : ℝ} (hy : pre.at' l c d = .fin y) {z : ℝ}
    (hf : ∀ t : ℝ, 0 < t → curve k g cs lat r.info.numLots r.info.numChps n l c d (.fin t) = .fin z) :
    ∃ v, mechVal s' prm mech = some v ∧ v.HasDims r.info.numLots r.info.numChps n ∧
      v.at' l c d = .fin y := by
  obtain ⟨t0, x, v, w1, w2, h1, h2, h3, h4, h5, h6⟩ := stressed_deg h hkind hs
  refine ⟨v, h4, h5, ?_⟩
  obtain ⟨us', s₁, e1, e2, e3, -, e5, e6⟩ :=
    search_sample_work hs h.dims hl hc hd hy (f := fun _ => z) hf h1
  have hx := flat_search e3 e2 e5 e6
  rw [hdur] at h3
  have hxd : (0 : ℝ) ≤ x := by exact_mod_cast duration_nonneg hus h3
  rw [h6 l hl c hc d hd, e1, hy, if_pos]
  refine ⟨?_, rfl⟩
  show decide (((9000000000 : ℚ) : ℝ) < 10 ^ s₁.x + (x : ℝ)) = true
  rw [decide_eq_true_eq]
  have := pow_past_limit hx
  push_cast
  linarith

/-- Two devices at 7; one hour under conditions that have no effect leaves both at 7, although the equation
gives zero for all times. -/
example (w : Counts) (d : Nat) (hd : d < 2) : ∃ s' r' w', simStress Ex.orderA
    (timeDev (timeMech .deg "s" fun t => t * max (-3) 0)) ⟨[], []⟩ (timeStep 3600000000) 0
    (timeState 7 2, timeReport 2) w = (.ok (s', r'), w') ∧
    ∃ v, mechVal s' "vth" "m" = some v ∧ v.at' 0 0 d = .fin 7 := by
  obtain ⟨s', h⟩ := time_stressed (kind := .deg) (by decide) (unit := "s") (by decide)
    (fun t => t * max (-3) 0) 7 2 (us := 3600000000) (by decide) w
  obtain ⟨r', w', hrun⟩ := h.run
  refine ⟨s', r', w', hrun, ?_⟩
  obtain ⟨v, h1, -, h2⟩ := C61_inactive_kept h rfl (time_sampleWise _ _ _ 1 1 2)
    rfl (by norm_num) (l := 0) (c := 0) (d := d) Nat.one_pos Nat.one_pos hd
    (Arr3.at_full _ Nat.one_pos Nat.one_pos hd) (z := 0)
    (fun t _ => (time_curve _ _ _ Nat.one_pos Nat.one_pos hd t).trans (by norm_num))
  exact ⟨v, h1, h2⟩

end Gerabaldi.Props
