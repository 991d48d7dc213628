import Verif.Props.CasesRun
import Verif.Props.Accelerate

/-!
# Two whole runs to which the comparison of C83 applies
-/

namespace Gerabaldi.Props

open Gerabaldi Gerabaldi.Spec

/-- The test of `halfWhole` for twice as long. -/
noncomputable def halfLonger : TestSpec (Ext ℝ) :=
  htolTest 1 1 [roomMeas [("vth", 10)] (.fin 1), htolStress (.fin 1) (.fin (6 / 5)) (.fin 125) 2000,
    roomMeas [("vth", 10)] (.fin 1)]

theorem half_longerOk : TestOk (W := Halves) halfDev ⟨[], []⟩ halfLonger := by
  refine half_suits (fun st hst => ?_) (fun m hm => ?_) List.mem_cons_self ⟨by decide, _, rfl, ?_⟩
  · simp [halfLonger, htolTest, roomMeas, htolStress] at hst
    rw [hst]
  · simp [halfLonger, htolTest, roomMeas, htolStress] at hm
    rw [hm]
  · show tdValid (0 + 2000 * 3600000000)
    decide

/-- The damage rate at 398 K and 1.2 V, the same in every phase. -/
noncomputable abbrev halfRate : Phase (Ext ℝ) → ℝ :=
  damageRate (1 / 2) (1 / 2) (1 / 2) (1 / 2) (fun _ => 125 + 27315 / 100) fun _ => 1 * (6 / 5)

theorem half_followed {q : Quantities} {lat : Dict (LatNode (Ext ℝ))}
    (pd : Drawn halfMech.mdl 1 1 10 (partLatents lat "m")) (hL : q.numLots = 1) (hC : q.numChps = 1)
    (hq : q.devCounts.get? "vth" = some 10) {st : StrsSpec (Ext ℝ)} {us : Int} {x : ℝ}
    (hst : st.conditions = htolConds (.fin 1) (.fin (6 / 5)) (.fin 125)) (hus : st.duration = .td us) (h0 : 0 ≤ us)
    (hx : ((phaseTime .hours (.td us) : ℚ) : ℝ) = x) (hx1 : x ≤ 10000) {ph : Phase (Ext ℝ)}
    (hof : PhaseOf (W := Halves) Ex.orderA halfDev ⟨[], []⟩ q "vth" st ph) {d : Nat} (hd : d < 10) :
    lengthOf .hours ph = x ∧ Followed halfMech nbtiLaw .hours (partLatents lat "m") 1 1 10 0 0 d
      (fun x => x ^ (1 / 2 : ℝ)) 0 halfRate ph [] := by
  obtain ⟨d1, d2, d3⟩ := htol_phase (mech := "m") (k := halfMech) rfl rfl rfl rfl halfMech_is hq hst hof
  rw [hL, hC] at d2 d3
  have hdv := half_device pd hd
  have hlen : lengthOf .hours ph = x := by
    unfold lengthOf
    rw [hof.1, hus]
    exact hx
  have hkeys := (nbti_eq halfMech_is).2.2.2
  have hno : ∀ x, x ∉ ["a_0", "e_aa", "alpha", "n"] → (partLatents lat "m").get? x = none := by
    intro x hx
    refine pd.2 x ?_
    rw [← hkeys] at hx
    exact (Dict.get?_eq_none_iff _ _).2 hx
  refine ⟨hlen, (nbti_eq halfMech_is).2.1, power_fresh (by norm_num) (by norm_num), nbti_rate ⟨fun p hp => ?_, fun p hp => ?_, fun p hp => ?_,
    hno _ (by simp), hno _ (by simp), hno _ (by simp), fun p hp => ?_⟩ (by norm_num) (by norm_num), ?_, trivial, trivial⟩
  · rw [List.mem_singleton.1 hp]
    exact ⟨⟨_, d2, Arr3.at_full _ Nat.one_pos Nat.one_pos hd⟩, ⟨_, d3, Arr3.at_full _ Nat.one_pos Nat.one_pos hd⟩,
      hdv.a_0, hdv.e_aa, hdv.alpha, hdv.n⟩
  · exact ⟨by norm_num, by norm_num⟩
  · rw [List.mem_singleton.1 hp, hof.1, hus]
    show (0 : ℚ) ≤ ((us : Int) : ℚ)
    exact_mod_cast h0
  · rw [List.mem_singleton.1 hp]
    exact d1
  · rw [hlen]
    linarith

/-- The same new devices, stressed for 1000 or for 2000 hours: every sample degrades more in the longer test. -/
example : ∃ (s0 s s' : SimState (Ext ℝ)) (V V' : Arr3 (Ext ℝ)) (r0 r r' : SimReport (Ext ℝ)),
    simStart halfDev halfWhole none ⟨⟩ = (.ok (s0, r0), ⟨⟩) ∧
    runSteps Ex.orderA halfDev ⟨[], []⟩ 0 halfWhole.steps (s0, r0) ⟨⟩ = (.ok (s, r), ⟨⟩) ∧
    runSteps Ex.orderA halfDev ⟨[], []⟩ 0 halfLonger.steps (s0, r0) ⟨⟩ = (.ok (s', r'), ⟨⟩) ∧
    mechVal s "vth" "m" = some V ∧ mechVal s' "vth" "m" = some V' ∧
    ∀ d < 10, ∃ x x' : ℝ, V.at' 0 0 d = .fin x ∧ V'.at' 0 0 d = .fin x' ∧ |x - 0| < |x' - 0| := by
  obtain ⟨s0, r0, w0, h1, h2, h3, h4, h5⟩ := simStart_works halfDev_works half_wholeOk ⟨⟩
  have hq : r0.devCounts.get? "vth" = some 10 := by
    rw [h2]
    rfl
  obtain ⟨n1, n2⟩ := genSizes (N := fun _ => True) (q := r0.info) (fun _ _ _ => trivial) h4 h5 h2
  have hsh := fun p d (hp : halfDev.prms.get? p = some (.deg d)) => (halfDev_works.deg p d hp).shapes
  obtain ⟨a1, g2, g3, -, -⟩ := simStart_shape halfDev_works.unique hsh h1 n1
  obtain ⟨⟨s, r⟩, w', h⟩ := runSteps_works halfDev_works (envDraws_empty (W := Halves) []) (ord := Ex.orderA)
    (genCounts_ok half_wholeOk h2) a1 (simStart_latents halfDev_works h1) h3 half_wholeOk.times 0 w0 n1 n2
  have h2' : r0.info.devCounts = augment halfDev (calcSamplesNeeded halfLonger.steps) := h2.trans rfl
  obtain ⟨-, n2'⟩ := genSizes (N := fun _ => True) (q := r0.info) (test := halfLonger) (fun _ _ _ => trivial) h4 h5 h2'
  obtain ⟨⟨s', r'⟩, w'', h'⟩ := runSteps_works halfDev_works (envDraws_empty (W := Halves) []) (ord := Ex.orderA)
    (genCounts_ok half_longerOk h2') a1 (simStart_latents halfDev_works h1) h3 half_longerOk.times 0 w0 n1 n2'
  obtain ⟨phases, phases', lat, p1, p1', p2, p3⟩ := C83_run halfDev_works.unique half_mechsUnique hsh h1 h h' rfl
    half_own half_mechs hq n1
  obtain ⟨V, V', v1, v1', pd, v2⟩ := p3 "m" halfMech rfl rfl
  refine ⟨s0, s, s', V, V', r0, r, r', h1, h, h', v1, v1', fun d hd => ?_⟩
  have hs : stressSteps halfWhole.steps =
      [⟨htolConds (.fin 1) (.fin (6 / 5)) (.fin 125), .td (1000 * 3600000000), "HTOL Stress"⟩] := rfl
  have hs' : stressSteps halfLonger.steps =
      [⟨htolConds (.fin 1) (.fin (6 / 5)) (.fin 125), .td (2000 * 3600000000), "HTOL Stress"⟩] := rfl
  rw [hs] at p1
  rw [hs'] at p1'
  obtain ⟨ph, rest, hof, hr, rfl⟩ := List.forall₂_cons_left_iff.1 p1
  cases hr
  obtain ⟨ph', rest', hof', hr', rfl⟩ := List.forall₂_cons_left_iff.1 p1'
  cases hr'
  have e1 : phaseTime .hours (.td (1000 * 3600000000)) = 1000 := by decide +kernel
  have e2 : phaseTime .hours (.td (2000 * 3600000000)) = 2000 := by decide +kernel
  obtain ⟨l1, f1⟩ := half_followed (x := 1000) pd g2 g3 hq rfl rfl (by norm_num) (by rw [e1]; norm_num) (by norm_num) hof hd
  obtain ⟨l2, f2⟩ := half_followed (x := 2000) pd g2 g3 hq rfl rfl (by norm_num) (by rw [e2]; norm_num) (by norm_num) hof' hd
  obtain ⟨D, D', -, -, x3, x4, -, x6, -⟩ := v2 0 Nat.one_pos 0 Nat.one_pos d hd _ halfRate 0 ph [] ph' [] rfl rfl f1 f2
  refine ⟨_, _, x3, x4, x6 ?_⟩
  have hR := f1.law.pos ph List.mem_cons_self
  have hRR : halfRate ph' = halfRate ph := rfl
  simp only [exposure, startUp, List.map_cons, List.map_nil, List.sum_cons, List.sum_nil, List.length_nil,
    pow_zero, mul_one, add_zero]
  rw [l1, l2, hRR]
  nlinarith

end Gerabaldi.Props
