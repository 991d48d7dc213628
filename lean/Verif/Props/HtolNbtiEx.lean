import Verif.Props.HtolNbti
import Verif.Props.FreshEx

/-!
# An HTOL test on devices with the prebuilt NBTI mechanism
-/

namespace Gerabaldi.Props

open Gerabaldi Gerabaldi.Spec

/-- Generators that always give one half. -/
structure Halves where

noncomputable instance : Rng Halves (Ext ℝ) where
  draw := fun _ _ _ n w => (.ok (List.replicate n (.fin (1 / 2))), w)

instance : LawfulRng Halves (Ext ℝ) where
  length := by
    intro id m ps n w w' xs h
    cases h
    simp
  commute := by
    intro i j m m' ps ps' n n' w w1 w2 xs ys _ h1 h2
    cases h1
    cases h2
    exact ⟨w, rfl, rfl⟩

/-- The prebuilt mechanism. -/
noncomputable def halfMech : MechMdl Halves (Ext ℝ) :=
  (jedecNbti : Except Err (MechMdl Halves (Ext ℝ))).toOption.get rfl

theorem halfMech_is : IsNbti halfMech := ⟨halfMech, rfl, rfl, rfl, rfl, rfl⟩

/-- A threshold voltage that starts at 3. -/
noncomputable def halfPrm : DegPrmMdl Halves (Ext ℝ) where
  initMdl := initValMk none none [("init_val", constLatent (.fin 3))]
  condMdl := (condShiftMk none none (.fin 0) []).1
  condUnitary := .fin 0
  mechs := [("m", halfMech)]
  mdl := { compute := basicSum }

/-- The device. -/
noncomputable def halfDev : DeviceMdl Halves (Ext ℝ) where
  prms := [("vth", .deg halfPrm)]

theorem halfDev_get {p : String} {m : PrmMdl Halves (Ext ℝ)}
    (h : halfDev.prms.get? p = some m) : p = "vth" ∧ m = .deg halfPrm := by
  cases List.mem_singleton.1 (Dict.mem_of_get? h)
  exact ⟨rfl, rfl⟩

theorem half_latents {k : String} {lv : LatentVar (Ext ℝ)} (h : (k, lv) ∈ halfMech.mdl.latentVars) :
    ∃ i mu sigma lv', devNormal i mu sigma = .ok lv' ∧ lv = lv'.setName (some k) := by
  rcases List.mem_cons.1 h with h | h
  · cases h; exact ⟨1, _, _, _, rfl, rfl⟩
  rcases List.mem_cons.1 h with h | h
  · cases h; exact ⟨2, _, _, _, rfl, rfl⟩
  rcases List.mem_cons.1 h with h | h
  · cases h; exact ⟨3, _, _, _, rfl, rfl⟩
  rcases List.mem_cons.1 h with h | h
  · cases h; exact ⟨4, _, _, _, rfl, rfl⟩
  cases h

theorem half_run {k : String} {lv : LatentVar (Ext ℝ)} (h : (k, lv) ∈ halfMech.mdl.latentVars)
    (n C L : Nat) (w : Halves) : ∃ a, lv.genLatentVals n C L w = (.ok a, w) ∧
      ∀ l < L, ∀ c < C, ∀ d < n, a.at' l c d = .fin (1 / 2) := by
  obtain ⟨i, mu, sigma, lv', h1, rfl⟩ := half_latents h
  cases h1
  refine ⟨_, genLatentVals_run _ (lotS := List.replicate L (PyArith.ofRat 1))
    (chpS := List.replicate (L * C) (PyArith.ofRat 1)) (devS := List.replicate (L * C * n) (.fin (1 / 2)))
    rfl rfl rfl (by simp) (by simp) (by simp), ?_⟩
  intro l hl c hc d hd
  rw [Arr3.at_ofFn _ hl hc hd]
  have b1 : l * C + c < L * C := by
    have := Nat.mul_le_mul_right C hl
    rw [Nat.succ_mul] at this
    omega
  have b2 : (l * C + c) * n + d < L * C * n := by
    have := Nat.mul_le_mul_right n b1
    rw [Nat.succ_mul] at this
    omega
  have r : ∀ (x : Ext ℝ) {i k : Nat}, i < k → (List.replicate k x).getD i default = x := by
    intro x i k h
    simp [List.getD, h]
  show PyArith.mul (PyArith.mul ((List.replicate (L * C * n) (Ext.fin (1 / 2 : ℝ))).getD ((l * C + c) * n + d) default)
    ((List.replicate (L * C) (PyArith.ofRat 1)).getD (l * C + c) default))
    ((List.replicate L (PyArith.ofRat 1)).getD l default) = _
  rw [r _ b1, r _ b2, r _ hl]
  show Ext.fin ((1 / 2 : ℝ) * ((1 : ℚ) : ℝ) * ((1 : ℚ) : ℝ)) = _
  norm_num

theorem half_draws : LatentsDraw (W := Halves) halfMech.mdl := by
  intro k lv h n C L w
  obtain ⟨a, h1, -⟩ := half_run h n C L w
  exact ⟨_, _, h1⟩

theorem halfDev_works : DeviceWorks halfDev where
  unique := List.nodup_singleton _
  deg := by
    intro p d hp
    obtain ⟨rfl, h⟩ := halfDev_get hp
    cases h
    refine
      { shapes := ⟨argEqn_shapes _, ?_, by simp [halfPrm, initValMk, nameLatents],
          constEqn_shapes _, ?_, basicSum_shapes⟩
        unique := List.nodup_singleton _
        mechs := ?_
        condName := by simp [halfPrm, Dict.keys]
        ownNames := fun k hk => (by cases hk)
        initDraws := initVal_draws _
        initEqn := argEqn_direct _
        initArgs := ?_
        initTakes := ?_
        condDraws := fun k lv h => (by cases h)
        condEqn := direct_works (constEqn_direct _)
        condPlain := ?_
        draws := fun k lv h => (by cases h)
        eqn := direct_works basicSum_direct
        args := ?_
        takes := fun k _ => .inl rfl }
    · simp [halfPrm, Dict.keys]
    · intro k m hk
      cases List.mem_singleton.1 hk
      exact NumExpr.shapes nbti_uses
    · intro k m hm
      cases List.mem_singleton.1 hm
      exact ⟨by decide, by decide, half_draws, direct_works (NumExpr.direct nbti_uses),
        .inr ⟨false, by decide⟩⟩
    · intro p hp
      cases List.mem_singleton.1 hp
      exact List.mem_singleton.2 rfl
    · intro k hk
      cases List.mem_singleton.1 hk
      exact .inr ⟨false, List.mem_singleton.2 rfl⟩
    · intro args w w' v h
      have := (invoke_ok h).2
      cases this
    · intro p hp
      have : p = "init" ∨ p = "cond" := by simpa [halfPrm, basicSum] using hp
      rcases this with rfl | rfl <;> simp
  circ := by
    intro p c hp
    obtain ⟨rfl, h⟩ := halfDev_get hp
    cases h

/-- Ten samples stressed for 20 hours at 125 degrees and 1.2 times the nominal 1 V, with a measurement every 10 hours. -/
noncomputable def halfTest : TestSpec (Ext ℝ) :=
  htolTest 1 1 ([roomMeas [("vth", 10)] (.fin 1), stressMeas [("vth", 10)] (.fin 1) (.fin (6 / 5)) (.fin 125)] ++
    copies 2 [htolStress (.fin 1) (.fin (6 / 5)) (.fin 125) 10,
      stressMeas [("vth", 10)] (.fin 1) (.fin (6 / 5)) (.fin 125)] ++ [roomMeas [("vth", 10)] (.fin 1)])

theorem halfTest_is : htol 3 [("vth", 10)] (.fin 1) (.fin (6 / 5)) 10 20 1 1 (.fin (125 : ℝ)) = some (.ok halfTest) :=
  C09_htol_interval _ _ _ _ (by norm_num) (by norm_num) (by norm_num) (by norm_num) 1 1 3 (by norm_num)

theorem half_mechs : MechEquations halfPrm (fun _ => nbtiLaw) fun _ => .hours := by
  constructor
  · intro mech k h
    cases List.mem_singleton.1 (Dict.mem_of_get? h)
    exact expr_sample nbti_uses
  · intro mech k h
    cases List.mem_singleton.1 (Dict.mem_of_get? h)
    decide
  · intro mech k h
    cases List.mem_singleton.1 (Dict.mem_of_get? h)
    decide

theorem half_meas {m : MeasSpec (Ext ℝ)} (h : m.measurements = [("vth", 10)]) :
    MeasureReads (W := Halves) halfDev ⟨[], []⟩ m := by
  refine ⟨by rw [h]; exact List.nodup_singleton _, fun p hp => .inl (by rw [h] at hp; exact hp), fun p hp => ?_, ?_, ?_, ?_⟩
  · rw [h] at hp
    cases List.mem_singleton.1 hp
    exact ⟨{ precision := none, range := none, error := none }, rfl, fun xs w _ => ⟨xs, w, rfl⟩⟩
  · intro p d hp hd
    obtain ⟨rfl, h⟩ := halfDev_get hd
    cases h
    exact fun q hq => (by cases hq)
  · intro p c hp hc
    obtain ⟨rfl, h⟩ := halfDev_get hc
    cases h
  · intro p c hp hc
    obtain ⟨rfl, h⟩ := halfDev_get hc
    cases h

theorem half_suits {test : TestSpec (Ext ℝ)} (h1 : ∀ st, .strs st ∈ test.steps →
      st.conditions = htolConds (.fin 1) (.fin (6 / 5)) (.fin 125))
    (h2 : ∀ m, .meas m ∈ test.steps → m.measurements = [("vth", 10)])
    (h3 : .meas ⟨[("vth", 10)], [("temp", PyArith.add (PyArith.ofRat 25) (PyArith.ofRat (27315 / 100))), ("vdd", .fin 1)],
      "Room Temp Measurement"⟩ ∈ test.steps) (h4 : TimesFit 0 test.steps) :
    TestOk (W := Halves) halfDev ⟨[], []⟩ test where
  stress := by
    intro st hst p d k m hp hm
    rw [h1 st hst]
    obtain ⟨rfl, h⟩ := halfDev_get hp
    cases h
    cases List.mem_singleton.1 hm
    intro q hq
    have hq : (q, false) ∈ nbtiParams.map fun p => (p, false) := hq
    show q ∈ "time" :: ["a_0", "e_aa", "alpha", "n"] ++ ["temp", "vdd"]
    simp only [List.mem_map, Prod.mk.injEq, and_true, exists_eq_right, nbtiParams, List.mem_cons,
      List.not_mem_nil, or_false] at hq
    simp only [List.cons_append, List.nil_append, List.mem_cons, List.not_mem_nil, or_false]
    tauto
  measure := fun m hm => half_meas (h2 m hm)
  all := by
    intro p hp
    cases List.mem_singleton.1 hp
    exact ⟨"vth", 10, ⟨_, h3, List.mem_singleton.2 rfl⟩, .inl rfl⟩
  tied := by
    intro c m n hc
    obtain ⟨rfl, h⟩ := halfDev_get hc
    cases h
  times := h4

theorem half_testOk : TestOk (W := Halves) halfDev ⟨[], []⟩ halfTest := by
  refine half_suits (fun st hst => ?_) (fun m hm => ?_) List.mem_cons_self ⟨by decide, _, rfl, by decide, _, rfl, ?_⟩
  · simp [halfTest, htolTest, copies, roomMeas, stressMeas, htolStress] at hst
    rw [hst]
  · simp [halfTest, htolTest, copies, roomMeas, stressMeas, htolStress] at hm
    rcases hm with rfl | rfl | rfl <;> rfl
  · show tdValid (0 + 10 * 3600000000 + 10 * 3600000000)
    decide

theorem half_mechsUnique : ∀ p d, halfDev.prms.get? p = some (.deg d) → d.mechs.Nodup := by
  intro p d hp
  obtain ⟨rfl, h⟩ := halfDev_get hp
  cases h
  exact List.nodup_singleton _

theorem half_own : OwnNames halfPrm :=
  ⟨List.nodup_singleton _, by simp [halfPrm, Dict.keys], List.nodup_nil, fun k hk => (by cases hk)⟩

theorem half_device {lat : Dict (LatNode (Ext ℝ))} (pd : Drawn halfMech.mdl 1 1 10 (partLatents lat "m")) {d : Nat}
    (hd : d < 10) : NbtiDevice (partLatents lat "m") 0 0 d (1 / 2) (1 / 2) (1 / 2) (1 / 2) := by
  have hl : ∀ k, k ∈ halfMech.mdl.latentVars.keys →
      ∃ x, (partLatents lat "m").get? k = some x ∧ x.at' 0 0 d = .fin (1 / 2) := by
    intro k hk
    obtain ⟨lv, hlv⟩ : ∃ lv, halfMech.mdl.latentVars.get? k = some lv := by
      cases hg : halfMech.mdl.latentVars.get? k with
      | none => exact absurd hk ((Dict.get?_eq_none_iff _ _).1 hg)
      | some lv => exact ⟨lv, rfl⟩
    obtain ⟨a, u, u', d1, -, d2⟩ := pd.1 k lv hlv
    obtain ⟨a', e1, e2⟩ := half_run (Dict.mem_of_get? hlv) 10 1 1 u
    rw [e1] at d2
    cases d2
    exact ⟨_, d1, e2 0 Nat.one_pos 0 Nat.one_pos d hd⟩
  exact ⟨hl _ (by decide), hl _ (by decide), hl _ (by decide), hl _ (by decide)⟩

/-- After the first interval every sample has the shift of the JEDEC equation for ten hours. -/
example : ∃ (s : SimState (Ext ℝ)) (V : Arr3 (Ext ℝ)) (s0 : SimState (Ext ℝ)) (r0 r : SimReport (Ext ℝ)),
    simStart halfDev halfTest none ⟨⟩ = (.ok (s0, r0), ⟨⟩) ∧
    runSteps Ex.orderA halfDev ⟨[], []⟩ 0 (halfTest.steps.take 3) (s0, r0) ⟨⟩ = (.ok (s, r), ⟨⟩) ∧
    mechVal s "vth" "m" = some V ∧ ∀ d < 10, ∃ y : ℝ, V.at' 0 0 d = .fin y ∧
      nbtiShift (1 / 2) (1 / 2) (125 + 27315 / 100) (6 / 5) (1 / 2) (1 / 2) 10 ≤ y ∧
      y ≤ nbtiShift (1 / 2) (1 / 2) (125 + 27315 / 100) (6 / 5) (1 / 2) (1 / 2) (10 + 11 / 10000) := by
  obtain ⟨s0, r0, w0, h1, h2, h3, h4, h5⟩ := simStart_works halfDev_works half_testOk ⟨⟩
  have hq : r0.devCounts.get? "vth" = some 10 := by
    rw [h2]
    rfl
  have hall := genCounts_ok half_testOk h2
  obtain ⟨n1, n2⟩ := genSizes (N := fun _ => True) (q := r0.info) (fun _ _ _ => trivial) h4 h5 h2
  obtain ⟨a1, _⟩ := simStart_shape halfDev_works.unique (fun p d hp => (halfDev_works.deg p d hp).shapes) h1 n1
  have hok : StepsOk halfDev ⟨[], []⟩ r0.devCounts (halfTest.steps.take 3) :=
    ⟨fun st hst => hall.stress st (List.mem_of_mem_take hst), fun m hm => hall.measure m (List.mem_of_mem_take hm)⟩
  have htm : TimesFit 0 (halfTest.steps.take 3) := by
    refine ⟨by decide, _, rfl, ?_⟩
    show tdValid (0 + 10 * 3600000000)
    decide
  obtain ⟨⟨s, r⟩, w', h⟩ := runSteps_works halfDev_works (envDraws_empty (W := Halves) []) (ord := Ex.orderA)
    hok a1 (simStart_latents halfDev_works h1) h3 htm 0 w0 n1 fun m hm => n2 m (List.mem_of_mem_take hm)
  obtain ⟨phases, lat, V, p1, p2, p3, pd, p4⟩ := C103_run (count := 2) (mech := "m") halfDev_works.unique half_mechsUnique
    (fun p d hp => (halfDev_works.deg p d hp).shapes) rfl rfl
    (by norm_num) (by norm_num) (by norm_num) (by norm_num) (by norm_num) halfTest_is (by norm_num) (by norm_num)
    h1 (List.take_prefix 3 _) h rfl half_own half_mechs hq rfl halfMech_is rfl n1
  refine ⟨s, V, s0, r0, r, h1, h, p3, fun d hd => ?_⟩
  have hs : stressSteps (halfTest.steps.take 3) =
      [⟨htolConds (.fin 1) (.fin (6 / 5)) (.fin 125), .td (10 * 3600000000), "HTOL Stress"⟩] := rfl
  rw [hs] at p1
  obtain ⟨ph, rest, -, hr, rfl⟩ := List.forall₂_cons_left_iff.1 p1
  cases hr
  have hx : (10 : ℝ) = ((phaseTime .hours (.td (10 * 3600000000)) : ℚ) : ℝ) := by
    have : phaseTime .hours (.td (10 * 3600000000)) = 10 := by decide +kernel
    rw [this]; norm_num
  obtain ⟨y, y1, y2, y3⟩ := p4 0 Nat.one_pos 0 Nat.one_pos d hd (1 / 2) (1 / 2) (1 / 2) (1 / 2) 10 ph [] rfl
    (half_device pd hd) (by norm_num) (by norm_num) (by norm_num)
    hx (by norm_num) (by norm_num) trivial
  refine ⟨y, y1, ?_, ?_⟩
  · norm_num at y2 ⊢
    exact y2
  · norm_num at y3 ⊢
    exact y3
/-- The test without intermediate measurements. -/
noncomputable def halfWhole : TestSpec (Ext ℝ) :=
  htolTest 1 1 [roomMeas [("vth", 10)] (.fin 1), htolStress (.fin 1) (.fin (6 / 5)) (.fin 125) 1000,
    roomMeas [("vth", 10)] (.fin 1)]

theorem half_wholeOk : TestOk (W := Halves) halfDev ⟨[], []⟩ halfWhole := by
  refine half_suits (fun st hst => ?_) (fun m hm => ?_) List.mem_cons_self ⟨by decide, _, rfl, ?_⟩
  · simp [halfWhole, htolTest, roomMeas, htolStress] at hst
    rw [hst]
  · simp [halfWhole, htolTest, roomMeas, htolStress] at hm
    rw [hm]
  · show tdValid (0 + 1000 * 3600000000)
    decide

/-- After 1000 hours without intermediate measurements every sample has the shift for 1000 hours. -/
example : ∃ (s s0 : SimState (Ext ℝ)) (V : Arr3 (Ext ℝ)) (r0 r : SimReport (Ext ℝ)),
    htol 0 [("vth", 10)] (.fin 1) (.fin (6 / 5)) 1000 1000 1 1 (.fin (125 : ℝ)) = some (.ok halfWhole) ∧
    simStart halfDev halfWhole none ⟨⟩ = (.ok (s0, r0), ⟨⟩) ∧
    runSteps Ex.orderA halfDev ⟨[], []⟩ 0 halfWhole.steps (s0, r0) ⟨⟩ = (.ok (s, r), ⟨⟩) ∧
    mechVal s "vth" "m" = some V ∧ ∀ d < 10, ∃ y : ℝ, V.at' 0 0 d = .fin y ∧
      nbtiShift (1 / 2) (1 / 2) (125 + 27315 / 100) (1 * (6 / 5)) (1 / 2) (1 / 2) 1000 ≤ y ∧
      y ≤ nbtiShift (1 / 2) (1 / 2) (125 + 27315 / 100) (1 * (6 / 5)) (1 / 2) (1 / 2) (1000 + 11 / 10000) := by
  obtain ⟨s0, r0, w0, h1, h2, h3, h4, h5⟩ := simStart_works halfDev_works half_wholeOk ⟨⟩
  have hq : r0.devCounts.get? "vth" = some 10 := by
    rw [h2]
    rfl
  obtain ⟨n1, n2⟩ := genSizes (N := fun _ => True) (q := r0.info) (fun _ _ _ => trivial) h4 h5 h2
  obtain ⟨a1, _⟩ := simStart_shape halfDev_works.unique (fun p d hp => (halfDev_works.deg p d hp).shapes) h1 n1
  obtain ⟨⟨s, r⟩, w', h⟩ := runSteps_works halfDev_works (envDraws_empty (W := Halves) []) (ord := Ex.orderA)
    (genCounts_ok half_wholeOk h2) a1 (simStart_latents halfDev_works h1) h3 half_wholeOk.times 0 w0 n1 n2
  have ht : htol 0 [("vth", 10)] (.fin 1) (.fin (6 / 5)) 1000 1000 1 1 (.fin (125 : ℝ)) = some (.ok halfWhole) :=
    C09_htol_no_interval 0 _ _ _ _ (by norm_num) (by norm_num) le_rfl 1 1
  obtain ⟨lat, V, p2, p3, pd, p4⟩ := C103_whole (mech := "m") halfDev_works.unique half_mechsUnique
    (fun p d hp => (halfDev_works.deg p d hp).shapes) rfl rfl (by norm_num) (by norm_num) le_rfl ht (by norm_num)
    (by norm_num) h1 (List.prefix_refl _) h rfl half_own half_mechs hq rfl halfMech_is rfl n1
  have hx : (1000 : ℝ) = ((phaseTime .hours (.td (1000 * 3600000000)) : ℚ) : ℝ) := by
    have : phaseTime .hours (.td (1000 * 3600000000)) = 1000 := by decide +kernel
    rw [this]; norm_num
  exact ⟨s, s0, V, r0, r, ht, h1, h, p3, fun d hd => p4 0 Nat.one_pos 0 Nat.one_pos d hd (1 / 2) (1 / 2) (1 / 2) (1 / 2)
    1000 (by show [_] ≠ []; simp) (half_device pd hd) (by norm_num) (by norm_num) (by norm_num) hx (by norm_num)
    (by norm_num)⟩

end Gerabaldi.Props
