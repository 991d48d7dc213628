import Verif.Spec.Split
import Verif.Props.Degrade

/-!
# C55 and C56: dividing a stress phase, and stress that undoes degradation
-/

namespace Gerabaldi.Props

open Gerabaldi Gerabaldi.Spec

section
variable {W V : Type} [PyNum V] [Rng W V]

/-- The steps are the run of the simulation loop. -/
theorem sameStress_run {ord : SetOrder} {dev : DeviceMdl W V} {env : PhysTestEnv V} {prm mech : String}
    {k : MechMdl W V} {cs lat : Dict (Arr3 V)} {n i : Nat} {s s' : SimState V} {r r' : SimReport V}
    {w w' : W} {pre v : Arr3 V} {sts : List (StrsSpec V)}
    (h : SameStress ord dev env prm mech k cs lat n i s r w pre sts s' r' w' v) :
    runSteps ord dev env i (sts.map .strs) (s, r) w = (.ok (s', r'), w') ∧
      mechVal s prm mech = some pre ∧ mechVal s' prm mech = some v := by
  induction h with
  | nil h => exact ⟨rfl, h, h⟩
  | cons step conv run val rest ih =>
    refine ⟨?_, ?_, ih.2.2⟩
    · have h1 := ih.1
      unfold runSteps at h1 ⊢
      rw [List.map_cons, enumFrom, M.forIn']
      exact (M.bind_ok (m := simStress _ _ _ _ _ _) run).trans h1
    · obtain ⟨_, _, _, hin⟩ := step.inputs
      exact hin.preIs

omit [PyNum V] [Rng W V] in
theorem durations_nonneg {sts : List (StrsSpec V)} {uss : List Int} (h : Durations sts uss) :
    0 ≤ uss.sum := by
  induction sts generalizing uss with
  | nil =>
    cases uss with
    | nil => simp
    | cons => exact h.elim
  | cons st sts ih =>
    cases uss with
    | nil => exact h.elim
    | cons us uss =>
      have h1 := ih h.2.2
      have h2 := h.2.1
      rw [List.sum_cons]
      omega

end

section
variable {W : Type}

/-- Times within `e` decades of each other, after adding the same time to both. -/
theorem decades_add {τ T d e : ℝ} (hτ : 0 < τ) (hT : 0 < T) (hd : 0 ≤ d) (he : 0 ≤ e)
    (h : |Real.logb 10 (τ / T)| ≤ e) : |Real.logb 10 ((τ + d) / (T + d))| ≤ e := by
  have hρ : (1 : ℝ) ≤ 10 ^ e := Real.one_le_rpow (by norm_num) he
  have hρ0 : (0 : ℝ) < 10 ^ e := by linarith
  rw [abs_le] at h ⊢
  have hq : 0 < τ / T := div_pos hτ hT
  have hq' : 0 < (τ + d) / (T + d) := div_pos (by linarith) (by linarith)
  obtain ⟨h1, h2⟩ := h
  rw [Real.le_logb_iff_rpow_le (by norm_num) hq, Real.rpow_neg (by norm_num), le_div_iff₀ hT] at h1
  rw [Real.logb_le_iff_le_rpow (by norm_num) hq, div_le_iff₀ hT] at h2
  rw [Real.le_logb_iff_rpow_le (by norm_num) hq', Real.logb_le_iff_le_rpow (by norm_num) hq',
    Real.rpow_neg (by norm_num), le_div_iff₀ (by linarith), div_le_iff₀ (by linarith)]
  have hi : ((10 : ℝ) ^ e)⁻¹ ≤ 1 := inv_le_one_of_one_le₀ hρ
  constructor
  · nlinarith
  · nlinarith

/-- `10 ** 1e-5 ≤ 1.0001`. -/
theorem pow_small : (10 : ℝ) ^ (1 / 100000 : ℝ) ≤ 10001 / 10000 := by
  have h10 : ((10 : ℝ) ^ (1 / 100000 : ℝ)) ^ (100000 : ℕ) = 10 := by
    rw [← Real.rpow_natCast, ← Real.rpow_mul (by norm_num)]
    norm_num
  have h11 : (10 : ℝ) ≤ (10001 / 10000) ^ (100000 : ℕ) := by
    have := one_add_mul_le_pow (a := (1 / 10000 : ℝ)) (by norm_num) 100000
    calc (10 : ℝ) ≤ 1 + ((100000 : ℕ) : ℝ) * (1 / 10000) := by norm_num
      _ ≤ (1 + 1 / 10000) ^ 100000 := this
      _ = _ := by congr 1; norm_num
  rw [← h10] at h11
  exact le_of_pow_le_pow_left₀ (by norm_num) (by norm_num) h11

variable [Rng W (Ext ℝ)]

/-- The report's quantities do not change in a stress step. -/
theorem simStress_info {ord : SetOrder} {dev : DeviceMdl W (Ext ℝ)} {env : PhysTestEnv (Ext ℝ)}
    {st : StrsSpec (Ext ℝ)} {i : Nat} {s s' : SimState (Ext ℝ)} {r r' : SimReport (Ext ℝ)} {w w' : W}
    (h : simStress ord dev env st i (s, r) w = (.ok (s', r'), w')) : r'.info = r.info := by
  obtain ⟨_, _, _, _, _, -, -, -, -, -, rfl⟩ := simStress_ok h
  rfl

/-- **C55**: the sample is on its curve at the time `T`. After any number of consecutive stress steps
under the same conditions it is on its curve at a time that differs from `T` plus all durations by at
most 1e-5 decades per step. (`f` is over the time in seconds. The times must stay within the bounds of
the search, 1e-3 to 9e9 in the mechanism's unit.) -/
theorem C55_additive {ord : SetOrder} {dev : DeviceMdl W (Ext ℝ)} {env : PhysTestEnv (Ext ℝ)}
    {prm mech : String} {k : MechMdl W (Ext ℝ)} {cs lat : Dict (Arr3 (Ext ℝ))} {n i : Nat}
    {s s' : SimState (Ext ℝ)} {r r' : SimReport (Ext ℝ)} {w w' : W} {pre v : Arr3 (Ext ℝ)}
    {sts : List (StrsSpec (Ext ℝ))}
    (h : SameStress ord dev env prm mech k cs lat n i s r w pre sts s' r' w' v)
    (hkind : k.kind = .deg) {g : Dict (PyVal (Ext ℝ)) → Ext ℝ}
    (hs : SampleWise k g cs lat r.info.numLots r.info.numChps n)
    {uss : List Int} (hdur : Durations sts uss) {u : TUnit} (hu : timeUnitMap k.timeUnit = some u)
    {l c d : Nat} (hl : l < r.info.numLots) (hc : c < r.info.numChps) (hd : d < n)
    {f : ℝ → ℝ} {T : ℝ} (hy : pre.at' l c d = .fin (f T))
    (hf : ∀ t : ℝ, 0 < t →
      curve k g cs lat r.info.numLots r.info.numChps n l c d (.fin t) =
        .fin (f (t * (timeSecondFactor u : ℝ))))
    (hm : StrictMonoOn f (Set.Ioi 0) ∨ StrictAntiOn f (Set.Ioi 0))
    (hlo : 1 / 1000 * (timeSecondFactor u : ℝ) * 10 ^ ((sts.length : ℝ) / 100000) ≤ T)
    (hhi : (T + (uss.sum : ℝ) / 1000000) * 10 ^ ((sts.length : ℝ) / 100000) * (10001 / 10000) ≤
      9000000000 * (timeSecondFactor u : ℝ)) :
    ∃ τ : ℝ, v.at' l c d = .fin (f τ) ∧ 0 < τ ∧
      |Real.logb 10 (τ / (T + (uss.sum : ℝ) / 1000000))| ≤ (sts.length : ℝ) / 100000 := by
  have hF : (0 : ℝ) < (timeSecondFactor u : ℝ) := by
    have : 0 < timeSecondFactor u := by cases u <;> simp [timeSecondFactor]
    exact_mod_cast this
  induction h generalizing T uss with
  | nil h =>
    cases uss with
    | cons => exact hdur.elim
    | nil =>
      have hT : 0 < T := by
        refine lt_of_lt_of_le ?_ hlo
        positivity
      refine ⟨T, hy, hT, ?_⟩
      simp [div_self hT.ne']
  | @cons i s s₁ s₂ r r₁ r₂ w w₁ w₂ pre v₁ v₂ st sts step conv run val rest ih =>
    cases uss with
    | nil => exact hdur.elim
    | cons us uss =>
      obtain ⟨hdur1, hus, hdur⟩ := hdur
      have hD : (0 : ℝ) ≤ (uss.sum : ℝ) := by exact_mod_cast durations_nonneg hdur
      have hus' : (0 : ℝ) ≤ (us : ℝ) := by exact_mod_cast hus
      generalize hFe : (timeSecondFactor u : ℝ) = F at *
      rw [List.length_cons, List.sum_cons] at *
      rw [Nat.cast_add, Nat.cast_one] at hlo hhi ⊢
      rw [Int.cast_add] at hhi ⊢
      set N : ℝ := (sts.length : ℝ) with hN
      have hN0 : 0 ≤ N := by positivity
      have hpow : (10 : ℝ) ^ ((N + 1) / 100000) = 10 ^ (N / 100000) * 10 ^ (1 / 100000 : ℝ) := by
        rw [← Real.rpow_add (by norm_num)]; congr 1; ring
      have hr1 : (1 : ℝ) ≤ 10 ^ (1 / 100000 : ℝ) := Real.one_le_rpow (by norm_num) (by norm_num)
      have hrN : (1 : ℝ) ≤ 10 ^ (N / 100000) := Real.one_le_rpow (by norm_num) (by positivity)
      set ρ : ℝ := 10 ^ (1 / 100000 : ℝ) with hρ
      set R : ℝ := 10 ^ (N / 100000) with hR
      rw [hpow] at hlo hhi
      have hRρ : 1 ≤ R * ρ := one_le_mul_of_one_le_of_one_le hrN hr1
      have hT : 0 < T := by
        refine lt_of_lt_of_le ?_ hlo
        positivity
      have hTlo : 1 / 1000 ≤ T / F := by
        rw [le_div_iff₀ hF]
        nlinarith [mul_pos (show (0 : ℝ) < 1 / 1000 by norm_num) hF]
      have hbig : (T * (10001 / 10000) + us / 1000000) ≤ 9000000000 * F := by
        have h1 : T + (us : ℝ) / 1000000 ≤ T + ((us : ℝ) + (uss.sum : ℝ)) / 1000000 := by
          have : (us : ℝ) / 1000000 ≤ ((us : ℝ) + (uss.sum : ℝ)) / 1000000 := by
            apply div_le_div_of_nonneg_right _ (by norm_num)
            linarith
          linarith
        have h2 : 0 ≤ T + (us : ℝ) / 1000000 := by positivity
        have h3 : (T + (us : ℝ) / 1000000) * (10001 / 10000) ≤
            (T + ((us : ℝ) + (uss.sum : ℝ)) / 1000000) * (R * ρ) * (10001 / 10000) := by
          apply mul_le_mul_of_nonneg_right _ (by norm_num)
          nlinarith
        have h4 : 0 ≤ (us : ℝ) / 1000000 := by positivity
        nlinarith
      have hThi : T / F ≤ 10 ^ 10 := by
        rw [div_le_iff₀ hF]
        have h4 : 0 ≤ (us : ℝ) / 1000000 := by positivity
        nlinarith
      obtain ⟨v, τ, h1, h2, h3, h4⟩ := C33_deg_partial step hkind hs conv hdur1 hus hu hl hc hd hy
        (by rw [hFe]; exact hf) hm (by rw [hFe]; exact hTlo) (by rw [hFe]; exact hThi)
        (by rw [hFe, div_le_iff₀ hF]; exact hbig)
      rw [val] at h1
      cases h1
      have hinfo := simStress_info run
      -- the times before and after adding the durations
      have hlog := decades_add h3 hT (show (0 : ℝ) ≤ us / 1000000 by positivity) (by norm_num) h4.le
      have hq' : 0 < (τ + us / 1000000) / (T + us / 1000000) := by positivity
      have hup : τ + us / 1000000 ≤ (T + us / 1000000) * ρ := by
        have := (abs_le.1 hlog).2
        rw [Real.logb_le_iff_le_rpow (by norm_num) hq', div_le_iff₀ (by positivity)] at this
        linarith
      have hdown : T ≤ (τ + us / 1000000) * ρ := by
        have := (abs_le.1 h4.le).1
        rw [Real.le_logb_iff_rpow_le (by norm_num) (div_pos h3 hT), Real.rpow_neg (by norm_num),
          le_div_iff₀ hT, inv_mul_le_iff₀ (by positivity)] at this
        have h5 : 0 ≤ (us : ℝ) / 1000000 := by positivity
        nlinarith
      obtain ⟨τ', e1, e2, e3⟩ := ih (T := τ + us / 1000000) (by rw [hinfo]; exact hs) hdur
        (by rw [hinfo]; exact hl) (by rw [hinfo]; exact hc) h2 (by rw [hinfo]; exact hf)
        (by
          have : 1 / 1000 * F * R * ρ ≤ (τ + us / 1000000) * ρ := by linarith
          exact le_of_mul_le_mul_right this (by linarith))
        (by
          refine le_trans ?_ hhi
          apply mul_le_mul_of_nonneg_right _ (by norm_num)
          have h5 : 0 ≤ (uss.sum : ℝ) / 1000000 := by positivity
          have h6 : τ + (us : ℝ) / 1000000 + (uss.sum : ℝ) / 1000000 ≤
              (T + ((us : ℝ) + (uss.sum : ℝ)) / 1000000) * ρ := by
            have h7 : T + ((us : ℝ) + (uss.sum : ℝ)) / 1000000 =
              T + us / 1000000 + uss.sum / 1000000 := by ring
            rw [h7]; nlinarith
          calc _ ≤ (T + ((us : ℝ) + (uss.sum : ℝ)) / 1000000) * ρ * R :=
                mul_le_mul_of_nonneg_right h6 (by linarith)
            _ = _ := by ring)
      refine ⟨τ', e1, e2, ?_⟩
      have hlog2 := decades_add (d := us / 1000000 + uss.sum / 1000000) h3 hT (by positivity)
        (by norm_num) h4.le
      have hA : 0 < τ + (us / 1000000 + uss.sum / 1000000 : ℝ) := by positivity
      have hB : 0 < T + (us / 1000000 + uss.sum / 1000000 : ℝ) := by positivity
      rw [show T + ((us : ℝ) + (uss.sum : ℝ)) / 1000000 = T + (us / 1000000 + uss.sum / 1000000) by ring]
      rw [show τ + (us : ℝ) / 1000000 + (uss.sum : ℝ) / 1000000 =
        τ + (us / 1000000 + uss.sum / 1000000) by ring] at e3
      have hsplit : Real.logb 10 (τ' / (T + (us / 1000000 + uss.sum / 1000000))) =
          Real.logb 10 (τ' / (τ + (us / 1000000 + uss.sum / 1000000))) +
          Real.logb 10 ((τ + (us / 1000000 + uss.sum / 1000000)) /
            (T + (us / 1000000 + uss.sum / 1000000))) := by
        rw [← Real.logb_mul (div_pos e2 hA).ne' (div_pos hA hB).ne']
        congr 1
        field_simp
      rw [hsplit]
      calc _ ≤ _ := abs_add_le _ _
        _ ≤ N / 100000 + 1 / 100000 := add_le_add e3 hlog2
        _ = _ := by ring

/-- **C55**: dividing the same total duration in two ways, under the same conditions and from the same
degradation, leads to curve times that agree within 1e-5 decades per step. -/
theorem C55_split {ord : SetOrder} {dev : DeviceMdl W (Ext ℝ)} {env : PhysTestEnv (Ext ℝ)}
    {prm mech : String} {k : MechMdl W (Ext ℝ)} {cs lat : Dict (Arr3 (Ext ℝ))} {n i i' : Nat}
    {s s₁ s₂ : SimState (Ext ℝ)} {r r₁ r₂ : SimReport (Ext ℝ)} {w w₁ w₂ w' : W}
    {pre v₁ v₂ : Arr3 (Ext ℝ)} {sts sts' : List (StrsSpec (Ext ℝ))}
    (h : SameStress ord dev env prm mech k cs lat n i s r w pre sts s₁ r₁ w₁ v₁)
    (h' : SameStress ord dev env prm mech k cs lat n i' s r w' pre sts' s₂ r₂ w₂ v₂)
    (hkind : k.kind = .deg) {g : Dict (PyVal (Ext ℝ)) → Ext ℝ}
    (hs : SampleWise k g cs lat r.info.numLots r.info.numChps n)
    {uss uss' : List Int} (hdur : Durations sts uss) (hdur' : Durations sts' uss')
    (htotal : uss'.sum = uss.sum) {u : TUnit} (hu : timeUnitMap k.timeUnit = some u)
    {l c d : Nat} (hl : l < r.info.numLots) (hc : c < r.info.numChps) (hd : d < n)
    {f : ℝ → ℝ} {T : ℝ} (hy : pre.at' l c d = .fin (f T))
    (hf : ∀ t : ℝ, 0 < t →
      curve k g cs lat r.info.numLots r.info.numChps n l c d (.fin t) =
        .fin (f (t * (timeSecondFactor u : ℝ))))
    (hm : StrictMonoOn f (Set.Ioi 0) ∨ StrictAntiOn f (Set.Ioi 0))
    (hlo : ∀ m ∈ [sts.length, sts'.length],
      1 / 1000 * (timeSecondFactor u : ℝ) * 10 ^ ((m : ℝ) / 100000) ≤ T)
    (hhi : ∀ m ∈ [sts.length, sts'.length],
      (T + (uss.sum : ℝ) / 1000000) * 10 ^ ((m : ℝ) / 100000) * (10001 / 10000) ≤
        9000000000 * (timeSecondFactor u : ℝ)) :
    ∃ τ τ' : ℝ, v₁.at' l c d = .fin (f τ) ∧ v₂.at' l c d = .fin (f τ') ∧ 0 < τ ∧ 0 < τ' ∧
      |Real.logb 10 (τ / τ')| ≤ ((sts.length : ℝ) + sts'.length) / 100000 := by
  obtain ⟨τ, a1, a2, a3⟩ := C55_additive h hkind hs hdur hu hl hc hd hy hf hm
    (hlo _ (by simp)) (hhi _ (by simp))
  obtain ⟨τ', b1, b2, b3⟩ := C55_additive h' hkind hs hdur' hu hl hc hd hy hf hm
    (hlo _ (by simp)) (by rw [htotal]; exact hhi _ (by simp))
  refine ⟨τ, τ', a1, b1, a2, b2, ?_⟩
  rw [htotal] at b3
  have hF : (0 : ℝ) < (timeSecondFactor u : ℝ) := by
    have : 0 < timeSecondFactor u := by cases u <;> simp [timeSecondFactor]
    exact_mod_cast this
  have hT : 0 < T := lt_of_lt_of_le (by positivity) (hlo sts.length (by simp))
  have hD : (0 : ℝ) ≤ (uss.sum : ℝ) := by exact_mod_cast durations_nonneg hdur
  have hS : T + (uss.sum : ℝ) / 1000000 ≠ 0 := by positivity
  rw [Real.logb_div a2.ne' hS] at a3
  rw [Real.logb_div b2.ne' hS] at b3
  rw [Real.logb_div a2.ne' b2.ne', add_div]
  rw [abs_le] at a3 b3 ⊢
  constructor <;> linarith [a3.1, a3.2, b3.1, b3.2]

/-- C56: a sample on its curve at time `T` (within the search bounds) is after a stress step at a time no
earlier than `T` less 1e-5 decades, and not before `T` at all if the step lasts at least `T / 10000`.
With an increasing curve its degradation then does not fall, with a decreasing one it does not rise.
Missing: shorter steps can undo degradation (`C56_violated`). -/
theorem C56_partial {ord : SetOrder} {dev : DeviceMdl W (Ext ℝ)} {env : PhysTestEnv (Ext ℝ)}
    {st : StrsSpec (Ext ℝ)} {i : Nat} {s s' : SimState (Ext ℝ)} {r : SimReport (Ext ℝ)} {w : W}
    {prm mech : String} {k : MechMdl W (Ext ℝ)} {pre : Arr3 (Ext ℝ)} {cs lat : Dict (Arr3 (Ext ℝ))}
    {n : Nat} (h : StressedMech ord dev env st i s r w s' prm mech k pre cs lat n)
    (hkind : k.kind = .deg) {g : Dict (PyVal (Ext ℝ)) → Ext ℝ}
    (hs : SampleWise k g cs lat r.info.numLots r.info.numChps n)
    (hconv : Converges k pre cs lat r.info.numLots r.info.numChps n)
    {us : Int} (hdur : st.duration = .td us) (hus : 0 ≤ us) {u : TUnit}
    (hu : timeUnitMap k.timeUnit = some u)
    {l c d : Nat} (hl : l < r.info.numLots) (hc : c < r.info.numChps) (hd : d < n)
    {f : ℝ → ℝ} {T : ℝ} (hy : pre.at' l c d = .fin (f T))
    (hf : ∀ t : ℝ, 0 < t →
      curve k g cs lat r.info.numLots r.info.numChps n l c d (.fin t) =
        .fin (f (t * (timeSecondFactor u : ℝ))))
    (hm : StrictMonoOn f (Set.Ioi 0) ∨ StrictAntiOn f (Set.Ioi 0))
    (hlo : 1 / 1000 ≤ T / (timeSecondFactor u : ℝ)) (hhi : T / (timeSecondFactor u : ℝ) ≤ 10 ^ 10)
    (hlim : (T * (10001 / 10000) + us / 1000000) / (timeSecondFactor u : ℝ) ≤ 9000000000) :
    ∃ v, ∃ z : ℝ, mechVal s' prm mech = some v ∧ v.at' l c d = .fin z ∧
      (StrictMonoOn f (Set.Ioi 0) → f (T * 10 ^ (-(1 / 100000) : ℝ)) ≤ z ∧
        (T / 10000 ≤ us / 1000000 → f T ≤ z)) ∧
      (StrictAntiOn f (Set.Ioi 0) → z ≤ f (T * 10 ^ (-(1 / 100000) : ℝ)) ∧
        (T / 10000 ≤ us / 1000000 → z ≤ f T)) := by
  obtain ⟨v, τ, h1, h2, h3, h4⟩ := C33_deg_partial h hkind hs hconv hdur hus hu hl hc hd hy hf hm hlo hhi
    hlim
  have hF : (0 : ℝ) < (timeSecondFactor u : ℝ) := by
    have : 0 < timeSecondFactor u := by cases u <;> simp [timeSecondFactor]
    exact_mod_cast this
  have hT : 0 < T := by
    have : 0 < T / (timeSecondFactor u : ℝ) := by linarith [show (0 : ℝ) < 1 / 1000 by norm_num]
    exact (div_pos_iff_of_pos_right hF).1 this
  have hus' : (0 : ℝ) ≤ (us : ℝ) := by exact_mod_cast hus
  have hd0 : (0 : ℝ) ≤ (us : ℝ) / 1000000 := by positivity
  have hp : (0 : ℝ) < 10 ^ (-(1 / 100000) : ℝ) := Real.rpow_pos_of_pos (by norm_num) _
  have hτ : T * 10 ^ (-(1 / 100000) : ℝ) ≤ τ := by
    have := (abs_lt.1 h4).1.le
    rw [Real.le_logb_iff_rpow_le (by norm_num) (div_pos h3 hT), le_div_iff₀ hT] at this
    linarith
  have hτ2 : T / 10000 ≤ us / 1000000 → T ≤ τ + us / 1000000 := by
    intro hbig
    have h9 : (10000 / 10001 : ℝ) ≤ 10 ^ (-(1 / 100000) : ℝ) := by
      rw [Real.rpow_neg (by norm_num), le_inv_comm₀ (by norm_num) (Real.rpow_pos_of_pos (by norm_num) _)]
      exact pow_small.trans (by norm_num)
    nlinarith
  have hpos1 : T * (10 : ℝ) ^ (-(1 / 100000) : ℝ) ∈ Set.Ioi (0 : ℝ) := mul_pos hT hp
  have hpos2 : τ + (us : ℝ) / 1000000 ∈ Set.Ioi (0 : ℝ) := by
    show (0 : ℝ) < _
    linarith
  refine ⟨v, _, h1, h2, fun hmono => ⟨?_, fun hb => ?_⟩, fun hanti => ⟨?_, fun hb => ?_⟩⟩
  · exact hmono.monotoneOn hpos1 hpos2 (by linarith)
  · exact hmono.monotoneOn hT hpos2 (hτ2 hb)
  · exact hanti.antitoneOn hpos1 hpos2 (by linarith)
  · exact hanti.antitoneOn hT hpos2 (hτ2 hb)

end

end Gerabaldi.Props
