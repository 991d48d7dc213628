import Verif.Spec.Exposure
import Verif.Props.History
import Verif.Props.Fresh

/-!
# Exposure that accumulates over stress phases (C75)
-/

namespace Gerabaldi.Props

open Gerabaldi Gerabaldi.Spec

variable {W : Type}

/-! ## The search of one sample -/

theorem trace_iterate {V : Type} [PyArith V] (c : MinCfg V) (G : V → V) (k : Nat) (s : BState V) :
    ∃ es, Trace c s es ((advance c G)^[k] s) ∧ es.length = k ∧ ∀ e ∈ es, e.2 = G e.1 := by
  induction k generalizing s with
  | zero => exact ⟨[], .nil _, rfl, by simp⟩
  | succ k ih =>
    obtain ⟨es, h1, h2, h3⟩ := ih (advance c G s)
    refine ⟨_ :: es, .cons (fu := G (c.xf (PyArith.add s.x (s.step c)))) h1, by simp [h2], ?_⟩
    intro e he
    rcases List.mem_cons.1 he with rfl | he
    · rfl
    · exact h3 e he

attribute [local instance] fieldArith in
/-- The search of one sample for itself, with real numbers. -/
theorem search_alone {y : ℝ} {f : ℝ → ℝ} {G : Ext ℝ → Ext ℝ}
    (hG : ∀ t : ℝ, 0 < t → G (.fin t) = .fin |y - f t|) (k : Nat) :
    ∃ us s₁, searchState (equivTimeCfg (Ext ℝ)) G k = BState.map (FinEmb.ext ℝ).emb s₁ ∧ us.length = k ∧
      (∀ e ∈ us, e.2 = |y - f (10 ^ e.1)|) ∧ Trace cfgR (cfgR.init |y - f (10 ^ cfgR.x0)|) us s₁ := by
  have hG' : ∀ u : ℝ, G ((equivTimeCfg (Ext ℝ)).xf ((FinEmb.ext ℝ).emb u)) = (FinEmb.ext ℝ).emb |y - f (10 ^ u)| :=
    fun u => hG _ (Real.rpow_pos_of_pos (by norm_num) u)
  have hx0 : (equivTimeCfg (Ext ℝ)).x0 = (FinEmb.ext ℝ).emb cfgR.x0 := by
    simp only [MinCfg.x0, cfgR_emb.lo, cfgR_emb.hi, cfgR_emb.gf2, FinEmb.add, FinEmb.sub, FinEmb.mul]
    rfl
  obtain ⟨es, h1, h2, h3⟩ := trace_iterate (equivTimeCfg (Ext ℝ)) G k
    ((equivTimeCfg (Ext ℝ)).init (G ((equivTimeCfg (Ext ℝ)).xf (equivTimeCfg (Ext ℝ)).x0)))
  have hs0 : (equivTimeCfg (Ext ℝ)).init (G ((equivTimeCfg (Ext ℝ)).xf (equivTimeCfg (Ext ℝ)).x0)) =
      (cfgR.init |y - f (10 ^ cfgR.x0)|).map (FinEmb.ext ℝ).emb := by
    rw [hx0, hG', init_map (FinEmb.ext ℝ) cfgR_emb]
  change Trace _ _ es (searchState (equivTimeCfg (Ext ℝ)) G k) at h1
  rw [hs0] at h1
  obtain ⟨us, s₁, k4, k5, k6, k7⟩ := h1.toField' (FinEmb.ext ℝ) cfgR_emb rfl hG' h3
  exact ⟨us, s₁, k4, by omega, k6, k7⟩

/-- A finished search for one sample finds the time within the tolerance. -/
theorem searchOne_decade {f : ℝ → ℝ} {T : ℝ} {G : Ext ℝ → Ext ℝ}
    (hG : ∀ t : ℝ, 0 < t → G (.fin t) = .fin |f T - f t|)
    (hm : StrictMonoOn f (Set.Ioi 0) ∨ StrictAntiOn f (Set.Ioi 0)) (hlo : 1 / 1000 ≤ T) (hhi : T ≤ 10 ^ 10)
    {k : Nat} (hd : (searchState (equivTimeCfg (Ext ℝ)) G k).done (equivTimeCfg (Ext ℝ)) = true) :
    ∃ t : ℝ, searchOne (equivTimeCfg (Ext ℝ)) G k = .fin t ∧ 0 < t ∧ |Real.logb 10 (t / T)| < 1 / 100000 := by
  obtain ⟨us, s₁, h1, -, h3, h4⟩ := search_alone hG k
  rw [h1, done_map (FinEmb.ext ℝ) cfgR_emb] at hd
  refine ⟨10 ^ s₁.x, ?_, trace_decade hm hlo hhi h3 h4 hd⟩
  unfold searchOne
  rw [h1]
  rfl

/-- The search for one sample finishes if that of all samples does. -/
theorem commonRounds_done {V : Type} [PyNum V] {c : MinCfg V} {L C n : Nat} {f : Nat → Nat → Nat → V → V}
    (h : commonRounds c L C n f < c.maxiter) {l ch d : Nat} (hl : l < L) (hc : ch < C) (hd : d < n) :
    (searchState c (f l ch d) (commonRounds c L C n f)).done c = true := by
  unfold commonRounds at h ⊢
  cases hf : (List.range c.maxiter).find? fun k =>
    allSamples L C n fun l ch d => (searchState c (f l ch d) k).done c with
  | none => rw [hf] at h; exact absurd h (lt_irrefl _)
  | some k =>
    have := List.find?_some hf
    exact allSamples_iff.1 this l hl ch hc d hd

/-- For a fresh sample the search always finishes, at a time close to the lower bound. -/
theorem searchOne_fresh {y : ℝ} {f : ℝ → ℝ} {G : Ext ℝ → Ext ℝ}
    (hG : ∀ t : ℝ, 0 < t → G (.fin t) = .fin |y - f t|) (hf : FreshCurve f y) {k : Nat}
    (hk : (searchState (equivTimeCfg (Ext ℝ)) G k).done (equivTimeCfg (Ext ℝ)) = true ∨ 49 ≤ k) :
    ∃ t : ℝ, searchOne (equivTimeCfg (Ext ℝ)) G k = .fin t ∧ 0 < t ∧ t < 11 / 10000 := by
  obtain ⟨us, s₁, h1, h2, h3, h4⟩ := search_alone hG k
  rw [h1, done_map (FinEmb.ext ℝ) cfgR_emb] at hk
  have hd := hk.elim id fun hk => hf.gentle.search_done h4 h3 (by omega)
  refine ⟨10 ^ s₁.x, ?_, fresh_end hf.strict h3 h4 hd⟩
  unfold searchOne
  rw [h1]
  rfl

/-! ## Phases -/

theorem slack_one : 1 < slack := Real.one_lt_rpow (by norm_num) (by norm_num)

theorem within_slack {t T : ℝ} (ht : 0 < t) (hT : 0 < T) (h : |Real.logb 10 (t / T)| < 1 / 100000) :
    T / slack ≤ t ∧ t ≤ T * slack := by
  have hq : 0 < t / T := div_pos ht hT
  obtain ⟨h1, h2⟩ := abs_lt.1 h
  have hs : 0 < slack := lt_trans one_pos slack_one
  rw [Real.logb_lt_iff_lt_rpow (by norm_num) hq] at h2
  rw [Real.lt_logb_iff_rpow_lt (by norm_num) hq, Real.rpow_neg (by norm_num)] at h1
  change slack⁻¹ < t / T at h1
  change t / T < slack at h2
  rw [div_lt_iff₀ hT] at h2
  rw [lt_div_iff₀ hT] at h1
  exact ⟨by rw [div_eq_inv_mul]; exact h1.le, by rw [mul_comm]; exact h2.le⟩

theorem residue_fin {g : (String → Ext ℝ) → Ext ℝ} {lat cond : String → Option (Ext ℝ)} {y : ℝ} {f : ℝ → ℝ}
    (h : ∀ t : ℝ, 0 < t → g (mechNames (.fin t) lat cond) = .fin (f t)) :
    ∀ t : ℝ, 0 < t → residueOne g lat cond (.fin y) (.fin t) = .fin |y - f t| := by
  intro t ht
  unfold residueOne
  rw [h t ht]
  show Ext.fin |y + -f t| = Ext.fin |y - f t|
  rw [sub_eq_add_neg]

/-- The value of a sample after a phase, from the time that its search finds. -/
theorem phaseValue_time {u : Ext ℝ} {g : (String → Ext ℝ) → Ext ℝ} {lat cond : String → Option (Ext ℝ)} {x : ℚ}
    (hx : 0 ≤ x) {rounds : Nat} {v : Ext ℝ} {f : ℝ → ℝ}
    (h : ∀ t : ℝ, 0 < t → g (mechNames (.fin t) lat cond) = .fin (f t)) {t : ℝ} (ht : 0 < t)
    (hs : searchOne (equivTimeCfg (Ext ℝ)) (residueOne g lat cond v) rounds = .fin t)
    (hlim : t + (x : ℝ) ≤ 9000000000) :
    phaseValue .deg u g lat cond (PyArith.ofRat x) rounds v = .fin (f (t + x)) := by
  have hxr : (0 : ℝ) ≤ x := by exact_mod_cast hx
  have hadd : PyArith.add (Ext.fin t) (PyArith.ofRat x) = Ext.fin (t + x) := rfl
  have hnl : PyArith.lt (PyArith.ofRat 9000000000) (Ext.fin (t + (x : ℝ))) = false := by
    show decide (((9000000000 : ℚ) : ℝ) < t + x) = false
    rw [decide_eq_false_iff_not, not_lt]
    push_cast
    exact hlim
  simp only [phaseValue]
  rw [hs, hadd, if_neg (by rw [hnl]; simp)]
  exact h _ (by linarith)

variable {k : MechMdl W (Ext ℝ)} {g : (String → Ext ℝ) → Ext ℝ} {unit : TUnit} {lat : Dict (Arr3 (Ext ℝ))}
  {L C n l c d : Nat} {φ : ℝ → ℝ} {rate : Phase (Ext ℝ) → ℝ}

theorem phaseTime_pos {unit : TUnit} {t : TimeVal} (h : 0 ≤ Spec.timeVal t) : 0 ≤ phaseTime unit t := by
  unfold phaseTime
  have : 0 < timeSecondFactor unit := by cases unit <;> simp [timeSecondFactor]
  positivity

theorem law_mono {r : ℝ} (hr : 0 < r) (hm : StrictMonoOn φ (Set.Ioi 0) ∨ StrictAntiOn φ (Set.Ioi 0)) :
    StrictMonoOn (fun t => φ (r * t)) (Set.Ioi 0) ∨ StrictAntiOn (fun t => φ (r * t)) (Set.Ioi 0) := by
  rcases hm with hm | hm
  · exact .inl fun a ha b hb hab => hm (mul_pos hr ha) (mul_pos hr hb) (mul_lt_mul_of_pos_left hab hr)
  · exact .inr fun a ha b hb hab => hm (mul_pos hr ha) (mul_pos hr hb) (mul_lt_mul_of_pos_left hab hr)

/-- The exposure of one sample over phases, with the bounds it starts from. -/
theorem exposure_fold (hk : k.kind = .deg) (hm : StrictMonoOn φ (Set.Ioi 0) ∨ StrictAntiOn φ (Set.Ioi 0))
    {extra : ℝ} {phases : List (Phase (Ext ℝ))} (hl : RateLaw g lat l c d φ rate phases)
    {j : Nat} {S D : ℝ} {v : Nat → Nat → Nat → Ext ℝ} (hr : InReach unit rate extra j S phases)
    (hf : Finishes k g unit lat L C n l c d v phases) (hS : 0 ≤ S) (hD : 0 < D) (hv : v l c d = .fin (φ D))
    (hlo : S / slack ^ j ≤ D) (hhi : D ≤ (S + extra) * slack ^ j) :
    ∃ D' : ℝ, 0 < D' ∧ phases.foldl (phaseValues k g unit lat L C n) v l c d = .fin (φ D') ∧
      (S + exposure unit rate phases) / slack ^ (j + phases.length) ≤ D' ∧
      D' ≤ (S + exposure unit rate phases + extra) * slack ^ (j + phases.length) := by
  induction phases generalizing j S D v with
  | nil => exact ⟨D, hD, hv, by simpa [exposure] using hlo, by simpa [exposure] using hhi⟩
  | cons ph rest ih =>
    obtain ⟨r1, r2, r3⟩ := hr
    obtain ⟨f1, f2⟩ := hf
    have hpos := hl.pos ph List.mem_cons_self
    have hlaw := hl.law ph List.mem_cons_self
    have hx := phaseTime_pos (unit := unit) (hl.long ph List.mem_cons_self)
    have hxr : 0 ≤ lengthOf unit ph := by unfold lengthOf; exact_mod_cast hx
    have hs1 := slack_one
    have hs0 : 0 < slack := by linarith
    have hT : rate ph * (D / rate ph) = D := by field_simp
    have hTD : 0 < D / rate ph := div_pos hD hpos
    have hDs : D * slack ≤ (S + extra) * slack ^ (j + 1) := by
      rw [pow_succ, ← mul_assoc]
      exact mul_le_mul_of_nonneg_right hhi hs0.le
    have hup : D / rate ph * slack + lengthOf unit ph ≤ 9000000000 := by
      have h1 : D * slack + rate ph * lengthOf unit ph ≤ 9000000000 * rate ph := by linarith
      have h2 : (D / rate ph * slack + lengthOf unit ph) * rate ph = D * slack + rate ph * lengthOf unit ph := by
        field_simp
      nlinarith
    have hD1 : D / rate ph ≤ D / rate ph * slack := le_mul_of_one_le_right hTD.le hs1.le
    obtain ⟨t, t1, t2, t3⟩ := searchOne_decade (f := fun t => φ (rate ph * t)) (T := D / rate ph)
      (G := residueOne g (condAt lat l c d) (condAt ph.conds l c d) (v l c d))
      (by rw [hv, hT]; exact residue_fin hlaw) (law_mono hpos hm)
      (by rw [le_div_iff₀ hpos]; linarith) (by linarith [show (9000000000 : ℝ) ≤ 10 ^ 10 by norm_num]) f1
    obtain ⟨w1, w2⟩ := within_slack t2 hTD t3
    have hval : phaseValues k g unit lat L C n v ph l c d = .fin (φ (rate ph * (t + lengthOf unit ph))) := by
      unfold phaseValues
      rw [hk]
      exact phaseValue_time hx hlaw t2 t1 (by unfold lengthOf at hup; linarith)
    have b1 : D / slack ≤ rate ph * t := by
      have h1 : rate ph * (D / rate ph / slack) = D / slack := by field_simp
      rw [← h1]
      exact mul_le_mul_of_nonneg_left w1 hpos.le
    have b2 : rate ph * t ≤ D * slack := by
      have h1 : rate ph * (D / rate ph * slack) = D * slack := by field_simp
      rw [← h1]
      exact mul_le_mul_of_nonneg_left w2 hpos.le
    have hrx : 0 ≤ rate ph * lengthOf unit ph := mul_nonneg hpos.le hxr
    have hpw : 1 ≤ slack ^ (j + 1) := one_le_pow₀ hs1.le
    obtain ⟨D', d1, d2, d3, d4⟩ := ih ⟨fun p hp => hl.pos p (List.mem_cons_of_mem _ hp),
        fun p hp => hl.long p (List.mem_cons_of_mem _ hp), fun p hp => hl.law p (List.mem_cons_of_mem _ hp)⟩
      r3 f2 (D := rate ph * (t + lengthOf unit ph)) (by linarith) (mul_pos hpos (by linarith)) hval
      (by
        have h1 : S / slack ^ (j + 1) ≤ D / slack := by
          rw [pow_succ, ← div_div]
          exact div_le_div_of_nonneg_right hlo hs0.le
        have h2 : rate ph * lengthOf unit ph / slack ^ (j + 1) ≤ rate ph * lengthOf unit ph :=
          div_le_self hrx hpw
        rw [add_div, mul_add]
        linarith)
      (by
        have h2 : rate ph * lengthOf unit ph ≤ rate ph * lengthOf unit ph * slack ^ (j + 1) :=
          le_mul_of_one_le_right hrx hpw
        have h3 : (S + rate ph * lengthOf unit ph + extra) * slack ^ (j + 1) =
          (S + extra) * slack ^ (j + 1) + rate ph * lengthOf unit ph * slack ^ (j + 1) := by ring
        rw [h3, mul_add]
        linarith)
    have he : S + rate ph * lengthOf unit ph + exposure unit rate rest = S + exposure unit rate (ph :: rest) := by
      simp only [exposure, List.map_cons, List.sum_cons]
      ring
    have hj : j + 1 + rest.length = j + (ph :: rest).length := by simp only [List.length_cons]; omega
    rw [he, hj] at d3 d4
    exact ⟨D', d1, d2, d3, d4⟩

theorem fresh_scale {r y : ℝ} (hr : 0 < r) (h : FreshCurve φ y) : FreshCurve (fun t => φ (r * t)) y := by
  rcases h with ⟨h1, h2, h3⟩ | ⟨h1, h2, h3⟩
  · refine .inl ⟨(fun a ha b hb hab => h1 (mul_pos hr ha) (mul_pos hr hb) (mul_lt_mul_of_pos_left hab hr)),
      ⟨convex_Ioi 0, fun a ha b hb p q hp hq hpq => ?_⟩, fun t ht => h3 _ (mul_pos hr ht)⟩
    have := h2.2 (show r * a ∈ Set.Ioi (0 : ℝ) from mul_pos hr ha) (show r * b ∈ Set.Ioi (0 : ℝ) from mul_pos hr hb)
      hp hq hpq
    simp only [smul_eq_mul] at this ⊢
    rwa [show r * (p * a + q * b) = p * (r * a) + q * (r * b) by ring]
  · refine .inr ⟨(fun a ha b hb hab => h1 (mul_pos hr ha) (mul_pos hr hb) (mul_lt_mul_of_pos_left hab hr)),
      ⟨convex_Ioi 0, fun a ha b hb p q hp hq hpq => ?_⟩, fun t ht => h3 _ (mul_pos hr ht)⟩
    have := h2.2 (show r * a ∈ Set.Ioi (0 : ℝ) from mul_pos hr ha) (show r * b ∈ Set.Ioi (0 : ℝ) from mul_pos hr hb)
      hp hq hpq
    simp only [smul_eq_mul] at this ⊢
    rwa [show r * (p * a + q * b) = p * (r * a) + q * (r * b) by ring]

theorem FreshCurve_mono {y : ℝ} (h : FreshCurve φ y) : StrictMonoOn φ (Set.Ioi 0) ∨ StrictAntiOn φ (Set.Ioi 0) :=
  h.imp (·.1) (·.1)

/-! ## C75 -/

/-- **C75**, used devices: a sample that has had the exposure `D₀` has had, after phases under any different
conditions, the sum of all exposures, up to the factor `slack` of one search for each phase. -/
theorem C75_exposure (hk : k.kind = .deg) (hm : StrictMonoOn φ (Set.Ioi 0) ∨ StrictAntiOn φ (Set.Ioi 0))
    {phases : List (Phase (Ext ℝ))} (hl : RateLaw g lat l c d φ rate phases) {D₀ : ℝ}
    {v : Nat → Nat → Nat → Ext ℝ} (hr : InReach unit rate 0 0 D₀ phases)
    (hf : Finishes k g unit lat L C n l c d v phases) (hD : 0 < D₀) (hv : v l c d = .fin (φ D₀)) :
    ∃ D : ℝ, 0 < D ∧ phases.foldl (phaseValues k g unit lat L C n) v l c d = .fin (φ D) ∧
      (D₀ + exposure unit rate phases) / slack ^ phases.length ≤ D ∧
      D ≤ (D₀ + exposure unit rate phases) * slack ^ phases.length := by
  obtain ⟨D, h1, h2, h3, h4⟩ := exposure_fold hk hm hl hr hf hD.le hD hv (by simp) (by simp)
  simp only [Nat.zero_add, add_zero] at h3 h4
  exact ⟨D, h1, h2, h3, h4⟩

/-- **C75**, the order of the phases: in any other order they lead to the same exposure up to the tolerance. -/
theorem C75_order (hk : k.kind = .deg) (hm : StrictMonoOn φ (Set.Ioi 0) ∨ StrictAntiOn φ (Set.Ioi 0))
    {phases phases' : List (Phase (Ext ℝ))} (hp : phases.Perm phases') (hl : RateLaw g lat l c d φ rate phases)
    {D₀ : ℝ} {v : Nat → Nat → Nat → Ext ℝ} (hr : InReach unit rate 0 0 D₀ phases)
    (hr' : InReach unit rate 0 0 D₀ phases') (hf : Finishes k g unit lat L C n l c d v phases)
    (hf' : Finishes k g unit lat L C n l c d v phases') (hD : 0 < D₀) (hv : v l c d = .fin (φ D₀)) :
    ∃ D D' : ℝ, 0 < D ∧ 0 < D' ∧ phases.foldl (phaseValues k g unit lat L C n) v l c d = .fin (φ D) ∧
      phases'.foldl (phaseValues k g unit lat L C n) v l c d = .fin (φ D') ∧
      D' ≤ D * slack ^ (2 * phases.length) ∧ D ≤ D' * slack ^ (2 * phases.length) := by
  obtain ⟨D, a1, a2, a3, a4⟩ := C75_exposure hk hm hl hr hf hD hv
  obtain ⟨D', b1, b2, b3, b4⟩ := C75_exposure hk hm ⟨fun p h => hl.pos p (hp.mem_iff.2 h),
    fun p h => hl.long p (hp.mem_iff.2 h), fun p h => hl.law p (hp.mem_iff.2 h)⟩ hr' hf' hD hv
  have he : exposure unit rate phases' = exposure unit rate phases := ((hp.map _).sum_eq).symm
  rw [he, ← hp.length_eq] at b3 b4
  have hs : 0 < slack ^ phases.length := pow_pos (lt_trans one_pos slack_one) _
  rw [div_le_iff₀ hs] at a3 b3
  refine ⟨D, D', a1, b1, a2, b2, ?_, ?_⟩
  · rw [two_mul, pow_add, ← mul_assoc]
    exact b4.trans (mul_le_mul_of_nonneg_right a3 hs.le)
  · rw [two_mul, pow_add, ← mul_assoc]
    exact a4.trans (mul_le_mul_of_nonneg_right b3 hs.le)

/-- **C75**, new devices: after phases under any different conditions a sample has had the sum of their
exposures, up to the tolerance of the searches and the exposure of 0.0011 time units at the rate of the first
phase. The search in the first phase always finishes. -/
theorem C75_new (hk : k.kind = .deg) {y : ℝ} (hu : k.unitary = .fin y) (hφ : FreshCurve φ y)
    {ph : Phase (Ext ℝ)} {rest : List (Phase (Ext ℝ))} (hl : RateLaw g lat l c d φ rate (ph :: rest))
    (h0 : lengthOf unit ph + 11 / 10000 ≤ 9000000000)
    (hr : InReach unit rate (rate ph * (11 / 10000)) 0 (rate ph * lengthOf unit ph) rest)
    (hf : Finishes k g unit lat L C n l c d
      (phaseValues k g unit lat L C n (fun _ _ _ => k.unitary) ph) rest)
    (hlL : l < L) (hcC : c < C) (hdn : d < n) :
    ∃ D : ℝ, 0 < D ∧ mechHistory k g unit lat L C n (ph :: rest) l c d = .fin (φ D) ∧
      exposure unit rate (ph :: rest) / slack ^ rest.length ≤ D ∧
      D ≤ (exposure unit rate (ph :: rest) + rate ph * (11 / 10000)) * slack ^ rest.length := by
  have hpos := hl.pos ph List.mem_cons_self
  have hlaw := hl.law ph List.mem_cons_self
  have hx := phaseTime_pos (unit := unit) (hl.long ph List.mem_cons_self)
  have hxr : 0 ≤ lengthOf unit ph := by unfold lengthOf; exact_mod_cast hx
  obtain ⟨t, t1, t2, t3⟩ := searchOne_fresh (residue_fin (y := y) hlaw) (fresh_scale hpos hφ)
    (k := commonRounds (equivTimeCfg (Ext ℝ)) L C n fun l c d =>
      residueOne g (condAt lat l c d) (condAt ph.conds l c d) (.fin y)) (by
    rcases Nat.lt_or_ge (commonRounds (equivTimeCfg (Ext ℝ)) L C n fun l c d =>
      residueOne g (condAt lat l c d) (condAt ph.conds l c d) (.fin y)) 50 with h | h
    · exact .inl (commonRounds_done h hlL hcC hdn)
    · exact .inr (by omega))
  have hval : phaseValues k g unit lat L C n (fun _ _ _ => k.unitary) ph l c d =
      .fin (φ (rate ph * (t + lengthOf unit ph))) := by
    unfold phaseValues
    rw [hk, hu]
    exact phaseValue_time hx hlaw t2 t1 (by unfold lengthOf at h0; linarith)
  have hrt : 0 < rate ph * t := mul_pos hpos t2
  have hrt2 : rate ph * t ≤ rate ph * (11 / 10000) := mul_le_mul_of_nonneg_left t3.le hpos.le
  have hrx : 0 ≤ rate ph * lengthOf unit ph := mul_nonneg hpos.le hxr
  obtain ⟨D, d1, d2, d3, d4⟩ := exposure_fold hk (FreshCurve_mono hφ)
    ⟨fun p hp => hl.pos p (List.mem_cons_of_mem _ hp), fun p hp => hl.long p (List.mem_cons_of_mem _ hp),
      fun p hp => hl.law p (List.mem_cons_of_mem _ hp)⟩ hr hf hrx
    (D := rate ph * (t + lengthOf unit ph)) (mul_pos hpos (by linarith)) hval
    (by rw [pow_zero, div_one, mul_add]; linarith) (by rw [pow_zero, mul_one, mul_add]; linarith)
  rw [Nat.zero_add] at d3 d4
  exact ⟨D, d1, d2, by simpa [exposure] using d3, by simpa [exposure] using d4⟩

/-- **C75**, simulations: in every simulation from new devices, each sample of each mechanism that follows a rate
law has had the sum of the exposures of the stress phases, within the same limits. -/
theorem C75_run [Rng W (Ext ℝ)] {ord : SetOrder} {dev : DeviceMdl W (Ext ℝ)} {env : PhysTestEnv (Ext ℝ)}
    (hnd : dev.prms.Nodup) (hmn : ∀ p d, dev.prms.get? p = some (.deg d) → d.mechs.Nodup) {N : Nat → Prop}
    (hs : ∀ p d, dev.prms.get? p = some (.deg d) → DegShapes d N) {test : TestSpec (Ext ℝ)}
    {s0 s : SimState (Ext ℝ)} {r0 r : SimReport (Ext ℝ)} {w w0 w' : W}
    (h1 : simStart dev test none w = (.ok (s0, r0), w0)) {steps : List (Step (Ext ℝ))}
    (h2 : runSteps ord dev env 0 steps (s0, r0) w0 = (.ok (s, r), w'))
    {prm : String} {m : DegPrmMdl W (Ext ℝ)} (hm : dev.prms.get? prm = some (.deg m)) (ho : OwnNames m)
    {gm : String → (String → Ext ℝ) → Ext ℝ} {um : String → TUnit} (he : MechEquations m gm um N)
    {n : Nat} (hq : r0.devCounts.get? prm = some n) (hN : SizesIn N r0.info := by intro _ _ _; trivial) :
    ∃ phases lat, List.Forall₂ (PhaseOf (W := W) ord dev env r0.info prm) (stressSteps steps) phases ∧
      s.latents.get? prm = some lat ∧
      ∀ mech k, m.mechs.get? mech = some k → k.kind = .deg → ∃ v, mechVal s prm mech = some v ∧
        Drawn k.mdl test.numLots test.numChps n (partLatents lat mech) ∧
        ∀ l < test.numLots, ∀ c < test.numChps, ∀ d < n, ∀ (φ : ℝ → ℝ) (rate : Phase (Ext ℝ) → ℝ) (y : ℝ) ph rest,
          phases = ph :: rest → k.unitary = .fin y → FreshCurve φ y →
          RateLaw (gm mech) (partLatents lat mech) l c d φ rate phases →
          lengthOf (um mech) ph + 11 / 10000 ≤ 9000000000 →
          InReach (um mech) rate (rate ph * (11 / 10000)) 0 (rate ph * lengthOf (um mech) ph) rest →
          Finishes k (gm mech) (um mech) (partLatents lat mech) test.numLots test.numChps n l c d
            (phaseValues k (gm mech) (um mech) (partLatents lat mech) test.numLots test.numChps n
              (fun _ _ _ => k.unitary) ph) rest →
          ∃ D : ℝ, 0 < D ∧ v.at' l c d = .fin (φ D) ∧
            exposure (um mech) rate phases / slack ^ rest.length ≤ D ∧
            D ≤ (exposure (um mech) rate phases + rate ph * (11 / 10000)) * slack ^ rest.length := by
  obtain ⟨phases, lat, f1, -, f3, -, f5⟩ := C74_mechanisms hnd hmn hs h1 h2 hm ho he hq hN
  refine ⟨phases, lat, f1, f3, fun mech k hk hkind => ?_⟩
  obtain ⟨v, b1, b2, b3⟩ := f5 mech k hk
  refine ⟨v, b1, b2, ?_⟩
  rintro l hl c hc d hd φ rate y ph rest rfl hu hφ hlaw h0 hr hf
  rw [b3 l hl c hc d hd]
  exact C75_new hkind hu hφ hlaw h0 hr hf hl hc hd

/-! ## A concrete case

A mechanism that starts linearly and goes on logarithmically, in two phases under different rates. -/

namespace Exposed

/-- Linear up to exposure 1, logarithmic above. -/
noncomputable def base (D : ℝ) : ℝ := if D ≤ 1 then D else 1 + Real.log D

/-- The same, one unit per decade. -/
noncomputable def curveOf (D : ℝ) : ℝ := base D / Real.log 10

theorem log10 : 0 < Real.log 10 := Real.log_pos (by norm_num)

theorem base_mono : StrictMonoOn base (Set.Ioi 0) := by
  intro a ha b hb hab
  unfold base
  have ha' : (0 : ℝ) < a := ha
  by_cases h1 : a ≤ 1 <;> by_cases h2 : b ≤ 1
  · rw [if_pos h1, if_pos h2]; exact hab
  · rw [if_pos h1, if_neg h2]
    have := Real.log_pos (not_le.1 h2)
    linarith
  · exact absurd (hab.le.trans h2) h1
  · rw [if_neg h1, if_neg h2]
    have := Real.log_lt_log ha' hab
    linarith

theorem base_tangent {D P : ℝ} (hD : 0 < D) (hP : 1 ≤ P) : base D ≤ D / P + Real.log P := by
  have hP0 : 0 < P := by linarith
  unfold base
  split
  · rename_i h
    have h1 := Real.one_sub_inv_le_log_of_pos hP0
    have h2 : 0 ≤ 1 - P⁻¹ := by
      have : P⁻¹ ≤ 1 := inv_le_one_of_one_le₀ hP
      linarith
    have h3 : D * (1 - P⁻¹) ≤ 1 * (1 - P⁻¹) := mul_le_mul_of_nonneg_right h h2
    rw [div_eq_mul_inv]
    linarith
  · have h1 := Real.log_le_sub_one_of_pos (div_pos hD hP0)
    rw [Real.log_div hD.ne' hP0.ne'] at h1
    linarith

theorem base_touch {D : ℝ} : base D = D / max D 1 + Real.log (max D 1) := by
  unfold base
  split
  · rename_i h
    rw [max_eq_right h]
    simp
  · rename_i h
    rw [max_eq_left (not_le.1 h).le, div_self (by linarith [not_le.1 h] : D ≠ 0)]

theorem base_fresh : FreshCurve curveOf 0 := by
  refine .inl ⟨fun a ha b hb hab => div_lt_div_of_pos_right (base_mono ha hb hab) log10, ⟨convex_Ioi 0, ?_⟩, ?_⟩
  · intro a ha b hb p q hp hq hpq
    simp only [smul_eq_mul, curveOf]
    have hP : (1 : ℝ) ≤ max (p * a + q * b) 1 := le_max_right _ _
    have h1 := base_tangent ha hP
    have h2 := base_tangent hb hP
    rw [mul_div_assoc', mul_div_assoc', ← add_div]
    refine div_le_div_of_nonneg_right ?_ log10.le
    rw [base_touch (D := p * a + q * b)]
    generalize max (p * a + q * b) 1 = P at *
    have h3 := mul_le_mul_of_nonneg_left h1 hp
    have h4 := mul_le_mul_of_nonneg_left h2 hq
    have h5 : (p * a + q * b) / P + Real.log P =
        p * (a / P + Real.log P) + q * (b / P + Real.log P) := by
      have : p * (a / P + Real.log P) + q * (b / P + Real.log P) =
        (p * a + q * b) / P + (p + q) * Real.log P := by ring
      rw [this, hpq, one_mul]
    rw [h5]
    linarith
  · intro t ht
    refine div_nonneg ?_ log10.le
    unfold base
    split
    · exact ht.le
    · rename_i h
      have := Real.log_pos (not_le.1 h)
      linarith

/-- The equation: `curveOf (rate * time)`. -/
noncomputable def eqn (env : String → Ext ℝ) : Ext ℝ :=
  match env "rate", env "time" with
  | .fin r, .fin t => .fin (curveOf (r * t))
  | _, _ => .nan

/-- A phase of some hours at a rate. -/
noncomputable def phase (hours : Int) (r : ℝ) : Phase (Ext ℝ) where
  duration := .td (hours * 3600000000)
  conds := [("rate", Arr3.full 1 1 1 (.fin r))]

/-- The rate of a phase. -/
noncomputable def rateOf (ph : Phase (Ext ℝ)) : ℝ :=
  match condAt ph.conds 0 0 0 "rate" with
  | some (.fin r) => r
  | _ => 0

theorem phase_cond (hours : Int) (r : ℝ) : condAt (phase hours r).conds 0 0 0 = fun k =>
    if k = "rate" then some (.fin r) else none := by
  funext k
  unfold condAt phase Dict.get?
  by_cases h : k = "rate"
  · subst h
    simp [Arr3.full, Arr3.ofFn, Arr3.at']
  · simp [h, Ne.symm h]

theorem phase_rate (hours : Int) (r : ℝ) : rateOf (phase hours r) = r := by
  unfold rateOf
  rw [phase_cond]
  simp

theorem phase_length (hours : Int) (r : ℝ) : lengthOf .hours (phase hours r) = hours := by
  unfold lengthOf phaseTime phase Spec.timeVal timeSecondFactor
  push_cast
  ring

theorem phase_law {hours : List (Int × ℝ)} (hh : ∀ p ∈ hours, 0 ≤ p.1 ∧ 0 < p.2) :
    RateLaw eqn [] 0 0 0 curveOf rateOf (hours.map fun p => phase p.1 p.2) where
  pos := by
    intro ph hp
    obtain ⟨p, h1, rfl⟩ := List.mem_map.1 hp
    rw [phase_rate]
    exact (hh p h1).2
  long := by
    intro ph hp
    obtain ⟨p, h1, rfl⟩ := List.mem_map.1 hp
    have := (hh p h1).1
    show (0 : ℚ) ≤ ((p.1 * 3600000000 : Int) : ℚ)
    exact_mod_cast (by positivity)
  law := by
    intro ph hp t ht
    obtain ⟨p, h1, rfl⟩ := List.mem_map.1 hp
    rw [phase_rate, phase_cond]
    simp [eqn, mechNames, condAt, Dict.get?]

/-- The mechanism. -/
def mech : MechMdl Unit (Ext ℝ) where
  kind := .deg
  mdl := { compute := constEqn (.fin 0) }
  unitary := .fin 0
  timeUnit := some "h"

/-! The search for the exposure under a rate that makes it last for 100 hours, computed with rational numbers. -/

attribute [local instance] fieldArith in
/-- The search for `log10 t = 2` in rational numbers, after `j` rounds. -/
def stateQ (j : Nat) : BState ℚ := (advance cfgQ fun u => |2 - u|)^[j] (cfgQ.init |2 - cfgQ.x0|)

attribute [local instance] fieldArith in
theorem searchQ : (stateQ 21).done cfgQ = true ∧
    ∀ j < 21, decide (-3 ≤ (stateQ j).x + (stateQ j).step cfgQ) = true := by
  constructor
  · decide +kernel
  · decide +kernel

attribute [local instance] fieldArith in
/-- A search whose residue is `|2 - log10 t|` above `t = 1e-3` finishes. -/
theorem search_finishes {G : Ext ℝ → Ext ℝ}
    (hG : ∀ u : ℝ, -3 ≤ u → G (.fin (10 ^ u)) = .fin |2 - u|) :
    (searchState (equivTimeCfg (Ext ℝ)) G 21).done (equivTimeCfg (Ext ℝ)) = true := by
  have hQ : ∀ q : ℚ, -3 ≤ q → G ((equivTimeCfg (Ext ℝ)).xf ((FinEmb.extRat ℝ).emb q)) =
      (FinEmb.extRat ℝ).emb |2 - q| := by
    intro q hq
    show G (.fin (10 ^ (q : ℝ))) = .fin _
    rw [hG _ (by exact_mod_cast hq)]
    push_cast
    rfl
  have hx0 : (equivTimeCfg (Ext ℝ)).x0 = (FinEmb.extRat ℝ).emb cfgQ.x0 := by
    simp only [MinCfg.x0, cfgQ_emb.lo, cfgQ_emb.hi, cfgQ_emb.gf2, FinEmb.add, FinEmb.sub, FinEmb.mul]
    rfl
  have hst : ∀ j, j ≤ 21 → searchState (equivTimeCfg (Ext ℝ)) G j = (stateQ j).map (FinEmb.extRat ℝ).emb := by
    intro j
    induction j with
    | zero =>
      intro _
      show (equivTimeCfg (Ext ℝ)).init (G ((equivTimeCfg (Ext ℝ)).xf (equivTimeCfg (Ext ℝ)).x0)) = _
      rw [hx0, hQ _ (by decide +kernel), init_map (FinEmb.extRat ℝ) cfgQ_emb]
      rfl
    | succ j ih =>
      intro hj
      have hb := of_decide_eq_true (searchQ.2 j (by omega))
      unfold searchState at ih ⊢
      rw [Function.iterate_succ_apply', ih (by omega)]
      show BState.update _ _ _ = _
      have e1 := step_map (FinEmb.extRat ℝ) cfgQ_emb (stateQ j)
      have e2 : PyArith.add (BState.map (FinEmb.extRat ℝ).emb (stateQ j)).x
          ((FinEmb.extRat ℝ).emb ((stateQ j).step cfgQ)) =
          (FinEmb.extRat ℝ).emb ((stateQ j).x + (stateQ j).step cfgQ) := (FinEmb.extRat ℝ).add _ _
      rw [e1, e2, hQ _ hb, update_map]
      unfold stateQ
      rw [Function.iterate_succ_apply']
      rfl
  rw [hst 21 le_rfl, done_map (FinEmb.extRat ℝ) cfgQ_emb]
  exact searchQ.1

/-- The exposure after the first phase, of 100000 hours at the rate 1. -/
theorem first : ∃ D : ℝ, 100000 ≤ D ∧ D ≤ 100001 ∧
    phaseValues mech eqn .hours [] 1 1 1 (fun _ _ _ => mech.unitary) (phase 100000 1) 0 0 0 = .fin (curveOf D) := by
  obtain ⟨D, h1, h2, h3, h4⟩ := C75_new (k := mech) (g := eqn) (unit := .hours) (lat := []) (L := 1) (C := 1)
    (n := 1) (l := 0) (c := 0) (d := 0) (rate := rateOf) rfl rfl base_fresh (ph := phase 100000 1) (rest := [])
    (phase_law (hours := [(100000, 1)]) (by simp)) (by rw [phase_length]; norm_num) trivial trivial
    one_pos one_pos one_pos
  simp only [exposure, List.map_cons, List.map_nil, List.sum_cons, List.sum_nil, phase_rate, phase_length,
    List.length_nil, pow_zero] at h3 h4
  refine ⟨D, ?_, ?_, h2⟩
  · norm_num at h3
    exact h3
  · norm_num at h4
    linarith

/-- The residue of a sample with exposure `D1` under the rate `D1 / 100`. -/
theorem residue_two {D1 : ℝ} (h1 : 100000 ≤ D1) : ∀ u : ℝ, -3 ≤ u → residueOne eqn (condAt [] 0 0 0) (condAt (phase 50 (D1 / 100)).conds 0 0 0)
      (.fin (curveOf D1)) (.fin (10 ^ u)) = .fin |2 - u| := by
  intro u hu
  have hp : (0 : ℝ) < 10 ^ u := Real.rpow_pos_of_pos (by norm_num) u
  have h10 : (1 / 1000 : ℝ) ≤ 10 ^ u := by
    calc (1 / 1000 : ℝ) = 10 ^ (-3 : ℝ) := by rw [Real.rpow_neg (by norm_num)]; norm_num
      _ ≤ 10 ^ u := Real.rpow_le_rpow_of_exponent_le (by norm_num) hu
  rw [residue_fin ((phase_law (hours := [(50, D1 / 100)]) (by
    intro p hp
    simp only [List.mem_singleton] at hp
    subst hp
    exact ⟨by norm_num, by simp only; linarith⟩)).law _ List.mem_cons_self) _ hp]
  have hge : 1 ≤ rateOf (phase 50 (D1 / 100)) * 10 ^ u := by
    rw [phase_rate]
    nlinarith
  congr 1
  have hb : ∀ D : ℝ, 1 ≤ D → base D = 1 + Real.log D := by
    intro D hD
    unfold base
    split
    · rw [le_antisymm (by assumption) hD]; simp
    · rfl
  unfold curveOf
  have hl := log10.ne'
  have hr : Real.log (rateOf (phase 50 (D1 / 100)) * 10 ^ u) = Real.log D1 - 2 * Real.log 10 + u * Real.log 10 := by
    rw [phase_rate, Real.log_mul (by linarith) hp.ne', Real.log_rpow (by norm_num),
      Real.log_div (by linarith) (by norm_num), show (100 : ℝ) = 10 ^ 2 by norm_num, Real.log_pow]
    push_cast
    ring
  rw [hb D1 (by linarith), hb _ hge, hr]
  congr 1
  field_simp
  ring

/-- Its search finishes. -/
theorem finish_two {D1 : ℝ} (h1 : 100000 ≤ D1) {v : Nat → Nat → Nat → Ext ℝ} (h3 : v 0 0 0 = .fin (curveOf D1)) :
    (searchState (equivTimeCfg (Ext ℝ)) (residueOne eqn (condAt [] 0 0 0)
      (condAt (phase 50 (D1 / 100)).conds 0 0 0) (v 0 0 0))
      (commonRounds (equivTimeCfg (Ext ℝ)) 1 1 1 fun l c d => residueOne eqn (condAt [] l c d)
        (condAt (phase 50 (D1 / 100)).conds l c d) (v l c d))).done (equivTimeCfg (Ext ℝ)) = true := by
  have hlt : commonRounds (equivTimeCfg (Ext ℝ)) 1 1 1 (fun l c d => residueOne eqn (condAt [] l c d)
      (condAt (phase 50 (D1 / 100)).conds l c d) (v l c d)) < 50 := by
    unfold commonRounds
    cases hf : (List.range (equivTimeCfg (Ext ℝ)).maxiter).find? fun k => allSamples 1 1 1 fun l c d =>
      (searchState (equivTimeCfg (Ext ℝ)) (residueOne eqn (condAt [] l c d)
        (condAt (phase 50 (D1 / 100)).conds l c d) (v l c d)) k).done (equivTimeCfg (Ext ℝ)) with
    | some k => exact List.mem_range.1 (List.mem_of_find?_eq_some hf)
    | none =>
      have := List.find?_eq_none.1 hf 21 (List.mem_range.2 (by show 21 < 50; norm_num))
      refine absurd (allSamples_iff.2 ?_) this
      intro l hl c hc d hd
      obtain rfl : l = 0 := by omega
      obtain rfl : c = 0 := by omega
      obtain rfl : d = 0 := by omega
      rw [h3]
      exact search_finishes (residue_two h1)
  exact commonRounds_done (f := fun l c d => residueOne eqn (condAt [] l c d)
    (condAt (phase 50 (D1 / 100)).conds l c d) (v l c d)) hlt one_pos one_pos one_pos

/-- Two phases, the second at the rate under which the first exposure would have taken 100 hours: the searches
finish, and the exposures add up. -/
theorem two_phases : ∃ r : ℝ, 1000 ≤ r ∧ r ≤ 1001 ∧ ∃ D : ℝ,
    mechHistory mech eqn .hours [] 1 1 1 [phase 100000 1, phase 50 r] 0 0 0 = .fin (curveOf D) ∧
      (100000 + r * 50) / slack ≤ D ∧ D ≤ (100000 + r * 50 + 11 / 10000) * slack := by
  obtain ⟨D1, h1, h2, h3⟩ := first
  have hs1 := slack_one
  have hs2 : slack ≤ 10 := by
    unfold slack
    calc (10 : ℝ) ^ (1 / 100000 : ℝ) ≤ 10 ^ (1 : ℝ) := Real.rpow_le_rpow_of_exponent_le (by norm_num) (by norm_num)
      _ = 10 := by norm_num
  refine ⟨D1 / 100, by linarith, by linarith, ?_⟩
  obtain ⟨D, d1, d2, d3, d4⟩ := C75_new (k := mech) (g := eqn) (unit := .hours) (lat := []) (L := 1) (C := 1)
    (n := 1) (l := 0) (c := 0) (d := 0) (rate := rateOf) rfl rfl base_fresh (ph := phase 100000 1)
    (rest := [phase 50 (D1 / 100)])
    (phase_law (hours := [(100000, 1), (50, D1 / 100)]) (by
      intro p hp
      simp only [List.mem_cons, List.not_mem_nil, or_false] at hp
      rcases hp with rfl | rfl
      · norm_num
      · exact ⟨by norm_num, by simp only; linarith⟩)) (by rw [phase_length]; norm_num)
    (by
      simp only [InReach, phase_rate, phase_length, pow_zero]
      push_cast
      refine ⟨by linarith, ?_, trivial⟩
      nlinarith)
    (by
      refine ⟨finish_two h1 h3, trivial⟩)
    one_pos one_pos one_pos
  refine ⟨D, d2, ?_, ?_⟩
  · simpa [exposure, phase_rate, phase_length] using d3
  · simpa [exposure, phase_rate, phase_length] using d4

/-- A device that has had the exposure 200000, in 50 hours at the rate 2000. -/
example : ∃ D : ℝ, 0 < D ∧
    [phase 50 (200000 / 100)].foldl (phaseValues mech eqn .hours [] 1 1 1) (fun _ _ _ => .fin (curveOf 200000)) 0 0 0 =
      .fin (curveOf D) ∧ 300000 / slack ≤ D ∧ D ≤ 300000 * slack := by
  have hs1 := slack_one
  obtain ⟨D, d1, d2, d3, d4⟩ := C75_exposure (k := mech) (g := eqn) (unit := .hours) (lat := []) (L := 1) (C := 1)
    (n := 1) (l := 0) (c := 0) (d := 0) (rate := rateOf) (φ := curveOf) (D₀ := 200000) rfl (FreshCurve_mono base_fresh)
    (phases := [phase 50 (200000 / 100)])
    (phase_law (hours := [(50, 200000 / 100)]) (by simp)) (v := fun _ _ _ => .fin (curveOf 200000))
    (by
      simp only [InReach, phase_rate, phase_length, pow_zero]
      refine ⟨by norm_num, ?_, trivial⟩
      have : slack ≤ 10 := by
        unfold slack
        calc (10 : ℝ) ^ (1 / 100000 : ℝ) ≤ 10 ^ (1 : ℝ) :=
              Real.rpow_le_rpow_of_exponent_le (by norm_num) (by norm_num)
          _ = 10 := by norm_num
      norm_num
      linarith)
    ⟨finish_two (D1 := 200000) (v := fun _ _ _ => .fin (curveOf 200000)) (by norm_num) rfl, trivial⟩ (by norm_num) rfl
  simp only [exposure, List.map_cons, List.map_nil, List.sum_cons, List.sum_nil, phase_rate, phase_length,
    List.length_singleton, pow_one] at d3 d4
  norm_num at d3 d4
  exact ⟨D, d1, d2, d3, d4⟩

end Exposed

end Gerabaldi.Props
