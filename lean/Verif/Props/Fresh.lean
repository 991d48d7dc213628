import Mathlib.Analysis.Convex.SpecificFunctions.Pow
import Verif.Lemmas.Fresh
import Verif.Props.Nbti

/-!
# C31 and C60: fresh devices on curves that are fastest at the beginning

The searches of these theorems are proved to stop by themselves.
-/

namespace Gerabaldi.Props

open Gerabaldi Gerabaldi.Spec

variable {W : Type} [Rng W (Ext ℝ)]

attribute [local instance] fieldArith in
/-- C31 up to an offset in time, without any assumption on the search: if a sample is fresh and its curve is
fastest at the beginning (power laws up to linear, logarithmic and saturating laws), it gets its curve's value
at `x + t`, where `x` is the duration in the mechanism's unit and `0 < t < 0.0011`, whatever the other samples,
mechanisms and parameters are. Missing: `t` is not zero (`C31_fresh_violated`), and durations close to or
beyond 9e9 units. -/
theorem C31_fresh_sample_partial {ord : SetOrder} {dev : DeviceMdl W (Ext ℝ)} {env : PhysTestEnv (Ext ℝ)}
    {st : StrsSpec (Ext ℝ)} {i : Nat} {s s' : SimState (Ext ℝ)} {r : SimReport (Ext ℝ)} {w : W}
    {prm mech : String} {k : MechMdl W (Ext ℝ)} {pre : Arr3 (Ext ℝ)} {cs lat : Dict (Arr3 (Ext ℝ))}
    {n : Nat} (h : StressedMech ord dev env st i s r w s' prm mech k pre cs lat n)
    (hkind : k.kind = .deg) {g : Dict (PyVal (Ext ℝ)) → Ext ℝ}
    (hs : SampleWise k g cs lat r.info.numLots r.info.numChps n)
    {x : ℚ} (hdur : convertTime st.duration k.timeUnit = .ok (.num x)) (hx0 : 0 ≤ x)
    (hx : x + 11 / 10000 ≤ 9000000000)
    {l c d : Nat} (hl : l < r.info.numLots) (hc : c < r.info.numChps) (hd : d < n)
    {y : ℝ} (hy : pre.at' l c d = .fin y) {f : ℝ → ℝ}
    (hf : ∀ t : ℝ, 0 < t →
      curve k g cs lat r.info.numLots r.info.numChps n l c d (.fin t) = .fin (f t))
    (hfc : FreshCurve f y) :
    ∃ v, ∃ t : ℝ, mechVal s' prm mech = some v ∧ 0 < t ∧ t < 11 / 10000 ∧
      v.at' l c d = .fin (f (x + t)) := by
  refine stressed_late h hkind hs hdur hx0 hx hl hc hd hf fun t0 w1 w2 h1 => ?_
  obtain ⟨us, s₁, e1, e2, e3, -, -, e6⟩ := search_sample_work hs h.dims hl hc hd hy hf h1
  have hdone : s₁.done cfgR = true := by
    rcases Nat.lt_or_ge us.length 50 with hlt | hge
    · exact e6 hlt
    · exact hfc.gentle.search_done e3 e2 (by omega)
  exact ⟨_, e1, fresh_end hfc.strict e2 e3 hdone⟩

/-- The same for all samples: if all samples of the mechanism are
fresh and all their curves are fastest at the beginning (power laws up to linear, logarithmic and saturating
laws, each sample with its own parameters), every sample gets its curve's value at `x + t`, where `x` is the
duration in the mechanism's unit and `0 < t < 0.0011`. Missing: `t` is not zero (`C31_fresh_violated`), and
durations close to or beyond 9e9 units. -/
theorem C31_fresh_partial {ord : SetOrder} {dev : DeviceMdl W (Ext ℝ)} {env : PhysTestEnv (Ext ℝ)}
    {st : StrsSpec (Ext ℝ)} {i : Nat} {s s' : SimState (Ext ℝ)} {r : SimReport (Ext ℝ)} {w : W}
    {prm mech : String} {k : MechMdl W (Ext ℝ)} {pre : Arr3 (Ext ℝ)} {cs lat : Dict (Arr3 (Ext ℝ))}
    {n : Nat} (h : StressedMech ord dev env st i s r w s' prm mech k pre cs lat n)
    (hkind : k.kind = .deg) {g : Dict (PyVal (Ext ℝ)) → Ext ℝ}
    (hs : SampleWise k g cs lat r.info.numLots r.info.numChps n)
    (hfr : FreshArray k g pre cs lat r.info.numLots r.info.numChps n)
    {x : ℚ} (hdur : convertTime st.duration k.timeUnit = .ok (.num x)) (hx0 : 0 ≤ x)
    (hx : x + 11 / 10000 ≤ 9000000000) :
    ∃ v, mechVal s' prm mech = some v ∧ v.HasDims r.info.numLots r.info.numChps n ∧
      ∀ l < r.info.numLots, ∀ c < r.info.numChps, ∀ d < n, ∃ t : ℝ, 0 < t ∧ t < 11 / 10000 ∧
        v.at' l c d = curve k g cs lat r.info.numLots r.info.numChps n l c d (.fin (x + t)) := by
  obtain ⟨-, -, v, -, -, -, -, -, h4, h5, -⟩ := stressed_deg h hkind hs
  refine ⟨v, h4, h5, ?_⟩
  intro l hl c hc d hd
  obtain ⟨y, f, hy, hf, hfc⟩ := hfr l hl c hc d hd
  obtain ⟨v', t, k1, k2, k3, k4⟩ := C31_fresh_sample_partial h hkind hs hdur hx0 hx hl hc hd hy hf hfc
  rw [h4] at k1
  cases k1
  have hxd : (0 : ℝ) ≤ x := by exact_mod_cast hx0
  exact ⟨t, k2, k3, by rw [k4, hf _ (by linarith)]⟩

/-- C31 is violated by every fresh `DegMechMdl` whose curves are fastest at the beginning: after any positive
duration no sample is at `f(d)`. -/
theorem C31_fresh_violated {ord : SetOrder} {dev : DeviceMdl W (Ext ℝ)} {env : PhysTestEnv (Ext ℝ)}
    {st : StrsSpec (Ext ℝ)} {i : Nat} {s s' : SimState (Ext ℝ)} {r : SimReport (Ext ℝ)} {w : W}
    {prm mech : String} {k : MechMdl W (Ext ℝ)} {pre : Arr3 (Ext ℝ)} {cs lat : Dict (Arr3 (Ext ℝ))}
    {n : Nat} (h : StressedMech ord dev env st i s r w s' prm mech k pre cs lat n)
    (hkind : k.kind = .deg) {g : Dict (PyVal (Ext ℝ)) → Ext ℝ}
    (hs : SampleWise k g cs lat r.info.numLots r.info.numChps n)
    (hfr : FreshArray k g pre cs lat r.info.numLots r.info.numChps n)
    {x : ℚ} (hdur : convertTime st.duration k.timeUnit = .ok (.num x)) (hx0 : 0 < x)
    (hx : x + 11 / 10000 ≤ 9000000000) :
    ∃ v, mechVal s' prm mech = some v ∧
      ∀ l < r.info.numLots, ∀ c < r.info.numChps, ∀ d < n,
        v.at' l c d ≠ curve k g cs lat r.info.numLots r.info.numChps n l c d (.fin x) := by
  obtain ⟨v, h1, -, h2⟩ := C31_fresh_partial h hkind hs hfr hdur hx0.le hx
  refine ⟨v, h1, ?_⟩
  intro l hl c hc d hd
  obtain ⟨t, h3, -, h4⟩ := h2 l hl c hc d hd
  obtain ⟨y, f, -, hf, hfc⟩ := hfr l hl c hc d hd
  have hxd : (0 : ℝ) < x := by exact_mod_cast hx0
  have hxt : (0 : ℝ) < x + t := by linarith
  rw [h4, hf _ hxd, hf _ hxt]
  intro he
  have he : f (x + t) = f x := by injection he
  rcases hfc.strict with ⟨hm, -⟩ | ⟨hm, -⟩
  · exact (hm hxd hxt (by linarith)).ne' he
  · exact (hm hxd hxt (by linarith)).ne he

/-- Power laws with exponent up to one. -/
theorem FreshCurve.power {A n : ℝ} (hA : 0 < A) (hn : 0 < n) (hn1 : n ≤ 1) :
    FreshCurve (fun t => A * t ^ n) 0 := by
  refine .inl ⟨fun s hs t _ hst => ?_, ?_, fun t ht => ?_⟩
  · exact mul_lt_mul_of_pos_left (Real.rpow_lt_rpow (le_of_lt hs) hst hn) hA
  · have := (Real.concaveOn_rpow hn.le hn1).subset Set.Ioi_subset_Ici_self (convex_Ioi 0)
    exact this.smul hA.le
  · have := Real.rpow_pos_of_pos ht n
    positivity

/-- Logarithmic laws. -/
theorem FreshCurve.log {A B : ℝ} (hA : 0 < A) (hB : 0 < B) :
    FreshCurve (fun t => A * Real.log (1 + B * t)) 0 := by
  refine .inl ⟨fun s hs t _ hst => ?_, ?_, fun t ht => ?_⟩
  · have hs : 0 < s := hs
    refine mul_lt_mul_of_pos_left (Real.log_lt_log (by positivity) ?_) hA
    have := mul_lt_mul_of_pos_left hst hB
    linarith
  · have h1 : ConcaveOn ℝ (Set.Ioi 0) fun t : ℝ => Real.log (1 + B * t) := by
      refine ⟨convex_Ioi 0, ?_⟩
      intro s hs t ht a b ha hb hab
      have hs : 0 < s := hs
      have ht : 0 < t := ht
      have := strictConcaveOn_log_Ioi.concaveOn.2 (show 1 + B * s ∈ Set.Ioi 0 by
        show 0 < 1 + B * s; positivity) (show 1 + B * t ∈ Set.Ioi 0 by show 0 < 1 + B * t; positivity)
        ha hb hab
      simp only [smul_eq_mul] at this ⊢
      convert this using 2
      linear_combination (-1 : ℝ) * hab
    exact h1.smul hA.le
  · have : 0 ≤ Real.log (1 + B * t) := Real.log_nonneg (by nlinarith)
    positivity

/-- **C60** in a stress step: fresh NBTI samples (degradation 0) with positive conditions and prefactors and
time exponents up to one get, after `x` hours, their own JEDEC shift at `x + t`, where `0 < t < 0.0011` hours.
Missing: the offset `t` (`C31_fresh_violated`), and durations close to or beyond 9e9 units. -/
theorem C60_stress_partial {ord : SetOrder} {dev : DeviceMdl W (Ext ℝ)} {env : PhysTestEnv (Ext ℝ)}
    {st : StrsSpec (Ext ℝ)} {i : Nat} {s s' : SimState (Ext ℝ)} {r : SimReport (Ext ℝ)} {w : W}
    {prm mech : String} {k : MechMdl W (Ext ℝ)} {pre : Arr3 (Ext ℝ)} {cs lat : Dict (Arr3 (Ext ℝ))}
    {n : Nat} (h : StressedMech ord dev env st i s r w s' prm mech k pre cs lat n) (hk : IsNbti k)
    (hin : NbtiInputs cs lat r.info.numLots r.info.numChps n)
    (hfresh : ∀ l < r.info.numLots, ∀ c < r.info.numChps, ∀ d < n, pre.at' l c d = .fin 0)
    {a e T v α m : Nat → Nat → Nat → ℝ}
    (hx : ∀ l < r.info.numLots, ∀ c < r.info.numChps, ∀ d < n,
      NbtiSample cs lat l c d (a l c d) (e l c d) (T l c d) (v l c d) (α l c d) (m l c d) ∧
      0 < a l c d ∧ 0 < T l c d ∧ 0 < v l c d ∧ 0 < m l c d ∧ m l c d ≤ 1)
    {x : ℚ} (hdur : convertTime st.duration k.timeUnit = .ok (.num x)) (hx0 : 0 ≤ x)
    (hxm : x + 11 / 10000 ≤ 9000000000) :
    ∃ val, mechVal s' prm mech = some val ∧ val.HasDims r.info.numLots r.info.numChps n ∧
      ∀ l < r.info.numLots, ∀ c < r.info.numChps, ∀ d < n, ∃ t : ℝ, 0 < t ∧ t < 11 / 10000 ∧
        val.at' l c d = .fin (nbtiShift (a l c d) (e l c d) (T l c d) (v l c d) (α l c d) (m l c d)
          (x + t)) := by
  obtain ⟨val, h1, h2, h3⟩ := C31_fresh_partial h (nbti_eq hk).1 (C60_samplewise hk hin) (by
    intro l hl c hc d hd
    obtain ⟨h1, h2, h3, h4, h5, h6⟩ := hx l hl c hc d hd
    refine ⟨0, nbtiShift (a l c d) (e l c d) (T l c d) (v l c d) (α l c d) (m l c d),
      hfresh l hl c hc d hd, fun t ht => C60_curve hk hin hl hc hd h1 h3 h4 ht, ?_⟩
    have := Real.rpow_pos_of_pos h4 (α l c d)
    have := Real.exp_pos (e l c d / (8617 / 100000000 * T l c d))
    exact FreshCurve.power (by positivity) h5 h6) hdur hx0 hxm
  refine ⟨val, h1, h2, ?_⟩
  intro l hl c hc d hd
  obtain ⟨t, h4, h5, h6⟩ := h3 l hl c hc d hd
  obtain ⟨k1, k2, k3, k4, k5, k6⟩ := hx l hl c hc d hd
  have hxd : (0 : ℝ) ≤ x := by exact_mod_cast hx0
  exact ⟨t, h4, h5, by rw [h6, C60_curve hk hin hl hc hd k1 k3 k4 (by linarith)]⟩

/-! ## Examples -/

/-- Two fresh devices with the law `7 * sqrt(time)`: after an hour the value is the law's at an hour and less
than 4 seconds, but not the law's at an hour. -/
example (w : Counts) : ∃ s' r' w', simStress Ex.orderA
    (timeDev (timeMech .deg "h" fun t => 7 * t ^ (1 / 2 : ℝ))) ⟨[], []⟩ (timeStep 3600000000) 0
    (timeState 0 2, timeReport 2) w = (.ok (s', r'), w') ∧
    ∃ v, mechVal s' "vth" "m" = some v ∧ ∀ d < 2, ∃ t : ℝ, 0 < t ∧ t < 11 / 10000 ∧
      v.at' 0 0 d = .fin (7 * (1 + t) ^ (1 / 2 : ℝ)) ∧ v.at' 0 0 d ≠ .fin (7 * 1 ^ (1 / 2 : ℝ)) := by
  obtain ⟨s', h⟩ := time_stressed (kind := .deg) (by decide) (unit := "h") (by decide)
    (fun t => 7 * t ^ (1 / 2 : ℝ)) 0 2 (us := 3600000000) (by decide) w
  obtain ⟨r', w', hrun⟩ := h.run
  refine ⟨s', r', w', hrun, ?_⟩
  have hfr : FreshArray (timeMech .deg "h" fun t => 7 * t ^ (1 / 2 : ℝ))
      (timeVal fun t => 7 * t ^ (1 / 2 : ℝ)) (Arr3.full 1 1 2 (.fin 0)) [] [] 1 1 2 :=
    fun l hl c hc d hd => ⟨0, _, Arr3.at_full _ hl hc hd,
      fun t _ => time_curve _ _ _ hl hc hd t, FreshCurve.power (by norm_num) (by norm_num) (by norm_num)⟩
  have hdur : convertTime (timeStep 3600000000).duration
      (timeMech .deg "h" fun t => 7 * t ^ (1 / 2 : ℝ)).timeUnit = .ok (.num 1) := by
    show Except.ok (TimeVal.num (numOfTd .hours 3600000000)) = _
    norm_num [numOfTd, timeSecondFactor]
  obtain ⟨v, h1, -, h2⟩ := C31_fresh_partial h rfl (time_sampleWise _ _ _ 1 1 2) hfr hdur (by norm_num)
    (by norm_num)
  obtain ⟨v', h3, h4⟩ := C31_fresh_violated h rfl (time_sampleWise _ _ _ 1 1 2) hfr hdur (by norm_num)
    (by norm_num)
  rw [h1] at h3
  cases h3
  refine ⟨v, h1, fun d hd => ?_⟩
  obtain ⟨t, k1, k2, k3⟩ := h2 0 Nat.one_pos 0 Nat.one_pos d hd
  have k4 := h4 0 Nat.one_pos 0 Nat.one_pos d hd
  have hcv := time_curve .deg "h" (fun t => 7 * t ^ (1 / 2 : ℝ)) Nat.one_pos Nat.one_pos hd
  have k3 := k3.trans (hcv _)
  have k4 : v.at' 0 0 d ≠ .fin _ := fun he => k4 (he.trans (hcv _).symm)
  refine ⟨t, k1, k2, ?_, ?_⟩
  · rw [k3]; norm_num
  · simpa using k4

end Gerabaldi.Props
