import Verif.Spec.Accelerate
import Verif.Props.Exposure

/-!
# Accelerated tests (C83)
-/

namespace Gerabaldi.Props

open Gerabaldi Gerabaldi.Spec

variable {W : Type} {k : MechMdl W (Ext ℝ)} {g : (String → Ext ℝ) → Ext ℝ} {unit : TUnit}
  {lat : Dict (Arr3 (Ext ℝ))} {L C n l c d : Nat} {φ : ℝ → ℝ} {y : ℝ} {rate : Phase (Ext ℝ) → ℝ}

theorem length_nonneg {phases : List (Phase (Ext ℝ))} (h : RateLaw g lat l c d φ rate phases) {ph}
    (hp : ph ∈ phases) : 0 ≤ lengthOf unit ph := by
  have := phaseTime_pos (unit := unit) (h.long ph hp)
  unfold lengthOf
  exact_mod_cast this

/-- A harsher test means at least as much exposure. -/
theorem harsher_exposure {phases phases' : List (Phase (Ext ℝ))} (h : Harsher unit rate phases phases')
    (hp : ∀ ph ∈ phases, 0 < rate ph ∧ 0 ≤ lengthOf unit ph) :
    exposure unit rate phases ≤ exposure unit rate phases' := by
  induction h with
  | nil => exact le_rfl
  | cons hab _ ih =>
    have h1 := hp _ List.mem_cons_self
    have h2 := ih fun ph h => hp ph (List.mem_cons_of_mem _ h)
    unfold exposure at h2 ⊢
    simp only [List.map_cons, List.sum_cons]
    exact add_le_add (mul_le_mul hab.2 hab.1 h1.2 (h1.1.le.trans hab.2)) h2

/-- A test that is accelerated means the same exposure. -/
theorem accelerated_exposure {A : ℝ} {phases phases' : List (Phase (Ext ℝ))}
    (h : AcceleratedBy unit rate A phases phases') : exposure unit rate phases' = exposure unit rate phases := by
  induction h with
  | nil => rfl
  | cons hab _ ih =>
    unfold exposure at ih ⊢
    simp only [List.map_cons, List.sum_cons]
    rw [ih, hab.1, ← hab.2]
    ring

/-- More exposure, further from the unfailed value. -/
theorem further (h : FreshCurve φ y) {D D' : ℝ} (hD : 0 < D) (hlt : D < D') : |φ D - y| < |φ D' - y| := by
  have hD' : 0 < D' := hD.trans hlt
  rcases h with ⟨hm, -, hy⟩ | ⟨hm, -, hy⟩
  · have h1 := hm hD hD' hlt
    have h2 := hy D hD
    rw [abs_of_nonneg (by linarith), abs_of_nonneg (by linarith)]
    linarith
  · have h1 := hm hD hD' hlt
    have h2 := hy D hD
    rw [abs_of_nonpos (by linarith), abs_of_nonpos (by linarith)]
    linarith

/-- **C83**, one sample: what two histories of different stress mean for each other. -/
theorem C83_compare (hk : k.kind = .deg) {ph ph' : Phase (Ext ℝ)} {rest rest' : List (Phase (Ext ℝ))}
    (h : Followed k g unit lat L C n l c d φ y rate ph rest)
    (h' : Followed k g unit lat L C n l c d φ y rate ph' rest') (hl : l < L) (hc : c < C) (hd : d < n) :
    ∃ D D' : ℝ, 0 < D ∧ 0 < D' ∧ mechHistory k g unit lat L C n (ph :: rest) l c d = .fin (φ D) ∧
      mechHistory k g unit lat L C n (ph' :: rest') l c d = .fin (φ D') ∧
      (exposure unit rate (ph :: rest) ≤ exposure unit rate (ph' :: rest') →
        D ≤ (D' * slack ^ rest'.length + startUp rate ph) * slack ^ rest.length) ∧
      ((exposure unit rate (ph :: rest) + startUp rate ph) * slack ^ (rest.length + rest'.length) <
          exposure unit rate (ph' :: rest') → |φ D - y| < |φ D' - y|) := by
  obtain ⟨D, a1, a2, a3, a4⟩ := C75_new hk h.start h.fresh h.law h.first h.reach h.finish hl hc hd
  obtain ⟨D', b1, b2, b3, b4⟩ := C75_new hk h'.start h'.fresh h'.law h'.first h'.reach h'.finish hl hc hd
  have hs : 0 < slack ^ rest.length := pow_pos (lt_trans one_pos slack_one) _
  have hs' : 0 < slack ^ rest'.length := pow_pos (lt_trans one_pos slack_one) _
  rw [div_le_iff₀ hs'] at b3
  refine ⟨D, D', a1, b1, a2, b2, fun he => ?_, fun he => further h.fresh a1 ?_⟩
  · refine a4.trans (mul_le_mul_of_nonneg_right ?_ hs.le)
    unfold startUp
    linarith
  · have h1 : D * slack ^ rest'.length ≤ (exposure unit rate (ph :: rest) + startUp rate ph) *
        slack ^ (rest.length + rest'.length) := by
      rw [pow_add, ← mul_assoc]
      exact mul_le_mul_of_nonneg_right a4 hs'.le
    exact lt_of_mul_lt_mul_right ((h1.trans_lt he).trans_le b3) hs'.le

/-- **C83**, harsher stress: longer phases at higher rates leave at least as much degradation, up to the tolerance
of the searches and the start-up of the new devices; and strictly more degradation once the difference is more
than that. -/
theorem C83_harsher (hk : k.kind = .deg) {ph ph' : Phase (Ext ℝ)} {rest rest' : List (Phase (Ext ℝ))}
    (hh : Harsher unit rate (ph :: rest) (ph' :: rest'))
    (h : Followed k g unit lat L C n l c d φ y rate ph rest)
    (h' : Followed k g unit lat L C n l c d φ y rate ph' rest') (hl : l < L) (hc : c < C) (hd : d < n) :
    ∃ D D' : ℝ, 0 < D ∧ 0 < D' ∧ mechHistory k g unit lat L C n (ph :: rest) l c d = .fin (φ D) ∧
      mechHistory k g unit lat L C n (ph' :: rest') l c d = .fin (φ D') ∧
      D ≤ (D' * slack ^ rest'.length + startUp rate ph) * slack ^ rest.length ∧
      ((exposure unit rate (ph :: rest) + startUp rate ph) * slack ^ (rest.length + rest'.length) <
          exposure unit rate (ph' :: rest') → |φ D - y| < |φ D' - y|) := by
  obtain ⟨D, D', a, b, e, f, i, j⟩ := C83_compare hk h h' hl hc hd
  exact ⟨D, D', a, b, e, f, i (harsher_exposure hh fun p hp => ⟨h.law.pos p hp, length_nonneg h.law hp⟩), j⟩

/-- **C83**, the acceleration factor: phases that are `A` times as fast and `A` times shorter leave the same
degradation, up to the tolerance of the searches and the start-up of the new devices. -/
theorem C83_accelerated (hk : k.kind = .deg) {ph ph' : Phase (Ext ℝ)} {rest rest' : List (Phase (Ext ℝ))} {A : ℝ}
    (hh : AcceleratedBy unit rate A (ph :: rest) (ph' :: rest'))
    (h : Followed k g unit lat L C n l c d φ y rate ph rest)
    (h' : Followed k g unit lat L C n l c d φ y rate ph' rest') (hl : l < L) (hc : c < C) (hd : d < n) :
    ∃ D D' : ℝ, 0 < D ∧ 0 < D' ∧ mechHistory k g unit lat L C n (ph :: rest) l c d = .fin (φ D) ∧
      mechHistory k g unit lat L C n (ph' :: rest') l c d = .fin (φ D') ∧
      D ≤ (D' * slack ^ rest.length + startUp rate ph) * slack ^ rest.length ∧
      D' ≤ (D * slack ^ rest.length + A * startUp rate ph) * slack ^ rest.length := by
  have he := accelerated_exposure hh
  have hlen : rest'.length = rest.length := by simpa using hh.length_eq.symm
  have hA : rate ph' = A * rate ph := by
    cases hh with
    | cons hab _ => exact hab.1
  obtain ⟨D, D', a, b, e, f, i, -⟩ := C83_compare hk h h' hl hc hd
  obtain ⟨E, E', a', b', e', f', i', -⟩ := C83_compare hk h' h hl hc hd
  have hE : φ E = φ D' := by
    rw [f] at e'
    exact Ext.fin.inj e'.symm
  have hE' : φ E' = φ D := by
    rw [e] at f'
    exact Ext.fin.inj f'.symm
  have hinj : Set.InjOn φ (Set.Ioi 0) := by
    rcases h.fresh with ⟨hm, -⟩ | ⟨hm, -⟩
    · exact hm.injOn
    · exact hm.injOn
  have h1 : E' = D := hinj b' a hE'
  have h2 : E = D' := hinj a' b hE
  rw [hlen] at i i'
  refine ⟨D, D', a, b, e, f, i he.ge, ?_⟩
  have := i' he.le
  rw [h1, h2] at this
  unfold startUp at this ⊢
  rw [hA] at this
  rw [← mul_assoc A]
  exact this

/-- **C83**, whole tests: two tests of the same new devices from the same random state, possibly in different
environments. -/
theorem C83_run [Rng W (Ext ℝ)] {ord : SetOrder} {dev : DeviceMdl W (Ext ℝ)} {env env' : PhysTestEnv (Ext ℝ)}
    (hnd : dev.prms.Nodup) (hmn : ∀ p d, dev.prms.get? p = some (.deg d) → d.mechs.Nodup) {N : Nat → Prop}
    (hs : ∀ p d, dev.prms.get? p = some (.deg d) → DegShapes d N) {test : TestSpec (Ext ℝ)}
    {s0 s s' : SimState (Ext ℝ)} {r0 r r' : SimReport (Ext ℝ)} {w w0 w1 w1' : W}
    (h0 : simStart dev test none w = (.ok (s0, r0), w0)) {steps steps' : List (Step (Ext ℝ))}
    (h1 : runSteps ord dev env 0 steps (s0, r0) w0 = (.ok (s, r), w1))
    (h1' : runSteps ord dev env' 0 steps' (s0, r0) w0 = (.ok (s', r'), w1'))
    {prm : String} {m : DegPrmMdl W (Ext ℝ)} (hm : dev.prms.get? prm = some (.deg m)) (ho : OwnNames m)
    {gm : String → (String → Ext ℝ) → Ext ℝ} {um : String → TUnit} (he : MechEquations m gm um N)
    {n : Nat} (hq : r0.devCounts.get? prm = some n) (hN : SizesIn N r0.info := by intro _ _ _; trivial) :
    ∃ phases phases' lat, List.Forall₂ (PhaseOf (W := W) ord dev env r0.info prm) (stressSteps steps) phases ∧
      List.Forall₂ (PhaseOf (W := W) ord dev env' r0.info prm) (stressSteps steps') phases' ∧
      s0.latents.get? prm = some lat ∧
      ∀ mech k, m.mechs.get? mech = some k → k.kind = .deg →
        ∃ v v', mechVal s prm mech = some v ∧ mechVal s' prm mech = some v' ∧
        Drawn k.mdl test.numLots test.numChps n (partLatents lat mech) ∧
        ∀ l < test.numLots, ∀ c < test.numChps, ∀ d < n, ∀ (φ : ℝ → ℝ) (rate : Phase (Ext ℝ) → ℝ) (y : ℝ)
          ph rest ph' rest', phases = ph :: rest → phases' = ph' :: rest' →
          Followed k (gm mech) (um mech) (partLatents lat mech) test.numLots test.numChps n l c d φ y rate ph rest →
          Followed k (gm mech) (um mech) (partLatents lat mech) test.numLots test.numChps n l c d φ y rate ph' rest' →
          ∃ D D' : ℝ, 0 < D ∧ 0 < D' ∧ v.at' l c d = .fin (φ D) ∧ v'.at' l c d = .fin (φ D') ∧
            (Harsher (um mech) rate phases phases' →
              D ≤ (D' * slack ^ rest'.length + startUp rate ph) * slack ^ rest.length) ∧
            ((exposure (um mech) rate phases + startUp rate ph) * slack ^ (rest.length + rest'.length) <
              exposure (um mech) rate phases' → |φ D - y| < |φ D' - y|) ∧
            ∀ A, AcceleratedBy (um mech) rate A phases phases' →
              D ≤ (D' * slack ^ rest.length + startUp rate ph) * slack ^ rest.length ∧
              D' ≤ (D * slack ^ rest.length + A * startUp rate ph) * slack ^ rest.length := by
  obtain ⟨phases, lat, f1, f2, -, -, f5⟩ := C74_mechanisms hnd hmn hs h0 h1 hm ho he hq hN
  obtain ⟨phases', lat', f1', f2', -, -, f5'⟩ := C74_mechanisms hnd hmn hs h0 h1' hm ho he hq hN
  cases f2.symm.trans f2'
  refine ⟨phases, phases', lat, f1, f1', f2, fun mech k hk hkind => ?_⟩
  obtain ⟨v, b1, b2, b3⟩ := f5 mech k hk
  obtain ⟨v', b1', -, b3'⟩ := f5' mech k hk
  refine ⟨v, v', b1, b1', b2, ?_⟩
  rintro l hl c hc d hd φ rate y ph rest ph' rest' rfl rfl h h'
  rw [b3 l hl c hc d hd, b3' l hl c hc d hd]
  obtain ⟨D, D', x1, x2, x3, x4, x5, x6⟩ := C83_compare hkind h h' hl hc hd
  refine ⟨D, D', x1, x2, x3, x4, fun hh => x5 (harsher_exposure hh fun p hp => ⟨h.law.pos p hp,
    length_nonneg h.law hp⟩), x6, fun A hA => ?_⟩
  obtain ⟨E, E', y1, y2, y3, y4, y5, y6⟩ := C83_accelerated hkind hA h h' hl hc hd
  have hinj : Set.InjOn φ (Set.Ioi 0) := by
    rcases h.fresh with ⟨hm, -⟩ | ⟨hm, -⟩
    · exact hm.injOn
    · exact hm.injOn
  cases hinj y1 x1 (Ext.fin.inj (y3.symm.trans x3))
  cases hinj y2 x2 (Ext.fin.inj (y4.symm.trans x4))
  exact ⟨y5, y6⟩

/-! ## Concrete cases, for the mechanism of C75 -/

namespace Accelerated

open Exposed

/-- One phase of new devices can always be followed. -/
theorem one_followed {hours : Int} {r : ℝ} (hh : 0 ≤ hours ∧ hours ≤ 1000000) (hr : 0 < r) :
    Followed mech eqn .hours [] 1 1 1 0 0 0 curveOf 0 rateOf (phase hours r) [] where
  start := rfl
  fresh := base_fresh
  law := phase_law (hours := [(hours, r)]) (by simp [hh.1, hr])
  first := by
    rw [phase_length]
    have : (hours : ℝ) ≤ 1000000 := by exact_mod_cast hh.2
    linarith
  reach := trivial
  finish := trivial

/-- 100000 hours at the rate 1, or 100 hours at the rate 1000. -/
example : ∃ D D' : ℝ, 0 < D ∧ 0 < D' ∧
    mechHistory mech eqn .hours [] 1 1 1 [phase 100000 1] 0 0 0 = .fin (curveOf D) ∧
    mechHistory mech eqn .hours [] 1 1 1 [phase 100 1000] 0 0 0 = .fin (curveOf D') ∧
    D ≤ D' + 11 / 10000 ∧ D' ≤ D + 11 / 10 := by
  obtain ⟨D, D', a, b, e, f, i, j⟩ := C83_accelerated (A := 1000) (k := mech) rfl
    (.cons ⟨by rw [phase_rate, phase_rate]; norm_num, by rw [phase_length, phase_length]; norm_num⟩ .nil)
    (one_followed (hours := 100000) (r := 1) (by norm_num) (by norm_num))
    (one_followed (hours := 100) (r := 1000) (by norm_num) (by norm_num)) one_pos one_pos one_pos
  simp only [List.length_nil, pow_zero, mul_one, startUp, phase_rate] at i j
  exact ⟨D, D', a, b, e, f, by linarith, by linarith⟩

/-- 200 hours at the rate 3 are harsher than 100 hours at the rate 1, and leave more degradation. -/
example : ∃ x x' : ℝ, mechHistory mech eqn .hours [] 1 1 1 [phase 100 1] 0 0 0 = .fin x ∧
    mechHistory mech eqn .hours [] 1 1 1 [phase 200 3] 0 0 0 = .fin x' ∧ |x - 0| < |x' - 0| := by
  obtain ⟨D, D', a, b, e, f, i, j⟩ := C83_harsher (k := mech) rfl
    (.cons ⟨by rw [phase_length, phase_length]; norm_num, by rw [phase_rate, phase_rate]; norm_num⟩ .nil)
    (one_followed (hours := 100) (r := 1) (by norm_num) (by norm_num))
    (one_followed (hours := 200) (r := 3) (by norm_num) (by norm_num)) one_pos one_pos one_pos
  refine ⟨_, _, e, f, j ?_⟩
  simp only [exposure, startUp, List.map_cons, List.map_nil, List.sum_cons, List.sum_nil, phase_rate, phase_length,
    List.length_nil]
  norm_num

/-- A second phase of 50 hours leaves more degradation than the first phase alone. -/
example : ∃ r x x' : ℝ, 1000 ≤ r ∧ mechHistory mech eqn .hours [] 1 1 1 [phase 100000 1] 0 0 0 = .fin x ∧
    mechHistory mech eqn .hours [] 1 1 1 [phase 100000 1, phase 50 r] 0 0 0 = .fin x' ∧ |x - 0| < |x' - 0| := by
  obtain ⟨D1, h1, h2, h3⟩ := first
  have hs1 := slack_one
  have hs2 : slack ≤ 11 / 10 := by
    unfold slack
    calc (10 : ℝ) ^ (1 / 100000 : ℝ) ≤ 10 ^ (1 / 25 : ℝ) :=
          Real.rpow_le_rpow_of_exponent_le (by norm_num) (by norm_num)
      _ ≤ 11 / 10 := by
        have h := Real.rpow_le_rpow (z := (1 / 25 : ℝ)) (by norm_num) (show (10 : ℝ) ≤ (11 / 10) ^ 25 by norm_num)
          (by norm_num)
        refine h.trans_eq ?_
        rw [← Real.rpow_natCast, ← Real.rpow_mul (by norm_num)]
        norm_num
  obtain ⟨D, D', a, b, e, f, -, j⟩ := C83_compare (k := mech) rfl
    (one_followed (hours := 100000) (r := 1) (by norm_num) (by norm_num))
    (ph' := phase 100000 1) (rest' := [phase 50 (D1 / 100)])
    { start := rfl
      fresh := base_fresh
      law := phase_law (hours := [(100000, 1), (50, D1 / 100)]) (by
        intro p hp
        simp only [List.mem_cons, List.not_mem_nil, or_false] at hp
        rcases hp with rfl | rfl
        · norm_num
        · exact ⟨by norm_num, by simp only; linarith⟩)
      first := by rw [phase_length]; norm_num
      reach := by
        simp only [InReach, phase_rate, phase_length, pow_zero]
        push_cast
        refine ⟨by linarith, ?_, trivial⟩
        nlinarith
      finish := ⟨finish_two h1 h3, trivial⟩ } one_pos one_pos one_pos
  refine ⟨D1 / 100, _, _, by linarith, e, f, j ?_⟩
  simp only [exposure, startUp, List.map_cons, List.map_nil, List.sum_cons, List.sum_nil, phase_rate, phase_length,
    List.length_nil, List.length_singleton, pow_one, Nat.zero_add]
  push_cast
  nlinarith

end Accelerated

end Gerabaldi.Props
