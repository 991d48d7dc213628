import Verif.Lemmas.ExprMech
import Verif.Model.Demos
import Verif.Props.Equation
import Verif.Props.Finite
import Verif.Props.Flat
import Verif.Props.Fresh
import Verif.Props.Htol
import Verif.Spec.CountRng

/-!
# C64: the simulation of `demos/riverbed_erosion.py`
-/

namespace Gerabaldi.Props

open Gerabaldi Gerabaldi.Spec

section run
variable {K : Type} [Field K] [LinearOrder K] [IsStrictOrderedRing K] [FloorRing K] [Pow10 K]
variable {W : Type} [Rng W (Ext K)]
open PyArith

/-- Drawing from a normal distribution gives finite numbers. -/
def FiniteNormals (W K : Type) [Field K] [LinearOrder K] [Rng W (Ext K)] : Prop :=
  ∀ i (mu sigma : ℚ) n (w : W), 0 ≤ sigma → ∃ (xs : List K) (w' : W),
    Rng.draw i "normal" [("loc", Ext.fin (mu : K)), ("scale", Ext.fin (sigma : K))] n w =
      (.ok (xs.map Ext.fin), w')

/-- A latent variable of the demonstration. -/
def riverLatent (i j : Nat) (a b c d : ℚ) : LatentVar (Ext K) :=
  (LatentVar.mk' (some (normalVar i a b)) (some (normalVar j c d)) none none none "scaling").toOption.get rfl

/-- The mechanism, as the device has it. -/
def riverErosion : MechMdl W (Ext K) where
  kind := .deg
  obj := 0
  unitary := ofRat 0
  timeUnit := some "hours"
  mdl :=
    { compute := riverExpr.fn riverParams
      latentVars := nameLatents [("k_d", constLatent (ofRat (1 / 100000))),
        ("tau_c", riverLatent 1 2 (24 / 10) (2 / 100) 1 (2 / 10)),
        ("alpha", riverLatent 3 4 (9 / 10) (1 / 100) 1 (4 / 100))]
      name := some "erosion" }

/-- The parameter, as the device has it. -/
def riverPrm : DegPrmMdl W (Ext K) where
  initMdl := initValMk none none [("init_val", riverLatent 5 6 (-2) (1 / 100) 1 (2 / 100))]
  condMdl := (condShiftMk none none (ofRat 0) []).1
  condUnitary := ofRat 0
  mechs := [("erosion", riverErosion)]
  mdl := { compute := riverLevel.fn riverLevelParams, name := some "riverbed_level" }
  timeUnit := some "hours"

/-- The device. -/
def riverDev : DeviceMdl W (Ext K) where
  prms := [("riverbed_level", .deg riverPrm)]

/-- The environment. -/
def riverWorld : PhysTestEnv (Ext K) := (riverEnv (V := Ext K)).toOption.get rfl

omit [FloorRing K] [Pow10 K] [IsStrictOrderedRing K] [Rng W (Ext K)] in
theorem riverLatent_eq (i j : Nat) (a b c d : ℚ) :
    (LatentVar.mk' (some (normalVar i a b)) (some (normalVar j c d)) none none none "scaling" :
      Except Err (LatentVar (Ext K))) = .ok (riverLatent i j a b c d) := rfl

omit [IsStrictOrderedRing K] [Rng W (Ext K)] in
theorem riverConst_eq (v : Ext K) :
    (LatentVar.mk' none none none (some v) none "scaling" : Except Err (LatentVar (Ext K))) =
      .ok (constLatent v) := rfl

omit [IsStrictOrderedRing K] [Rng W (Ext K)] in
theorem riverMech_eq : (riverMech : Except Err (MechMdl W (Ext K))) =
    .ok (MechMdl.mk' .deg 0 (some (riverExpr.fn riverParams)) none (ofRat 0) none
      [("k_d", constLatent (ofRat (1 / 100000))), ("tau_c", riverLatent 1 2 (24 / 10) (2 / 100) 1 (2 / 10)),
        ("alpha", riverLatent 3 4 (9 / 10) (1 / 100) 1 (4 / 100))]) := by
  unfold riverMech
  rw [riverConst_eq, riverLatent_eq, riverLatent_eq]
  rfl

omit [IsStrictOrderedRing K] [Rng W (Ext K)] in
theorem riverDevice_eq : (riverDevice : Except Err (DeviceMdl W (Ext K))) = .ok riverDev := by
  unfold riverDevice
  rw [riverMech_eq, riverLatent_eq]
  rfl

omit [IsStrictOrderedRing K] [Rng W (Ext K)] in
theorem riverEnv_eq : (riverEnv : Except Err (PhysTestEnv (Ext K))) = .ok riverWorld := rfl

omit [IsStrictOrderedRing K] [Rng W (Ext K)] in
theorem riverDev_get {p : String} {m : PrmMdl W (Ext K)}
    (h : (riverDev : DeviceMdl W (Ext K)).prms.get? p = some m) :
    p = "riverbed_level" ∧ m = .deg riverPrm := by
  cases List.mem_singleton.1 (Dict.mem_of_get? h)
  exact ⟨rfl, rfl⟩

omit [FloorRing K] [Pow10 K] [IsStrictOrderedRing K] in
theorem normal_draws (h : FiniteNormals W K) (i : Nat) (mu : ℚ) {sigma : ℚ} (hs : 0 ≤ sigma) :
    DrawsWork W (normalVar i mu sigma : RVar (Ext K)) := fun n w =>
  let ⟨_, w', h⟩ := h i mu sigma n w hs
  ⟨_, w', h⟩

omit [FloorRing K] [Pow10 K] [IsStrictOrderedRing K] in
theorem normal_fin (h : FiniteNormals W K) (i : Nat) (mu : ℚ) {sigma : ℚ} (hs : 0 ≤ sigma) :
    SamplesIn W IsFin (normalVar i mu sigma : RVar (Ext K)) := by
  intro n w xs w' h1 x hx
  obtain ⟨ys, w2, h2⟩ := h i mu sigma n w hs
  cases h2.symm.trans h1
  obtain ⟨a, -, rfl⟩ := List.mem_map.1 hx
  exact ⟨a, rfl⟩

omit [FloorRing K] [Pow10 K] [IsStrictOrderedRing K] in
theorem riverLatent_draws [LawfulRng W (Ext K)] (h : FiniteNormals W K) (i j : Nat) (a c : ℚ) {b d : ℚ}
    (hb : 0 ≤ b) (hd : 0 ≤ d) (k : String) (n C L : Nat) (w : W) :
    ∃ x w', ((riverLatent i j a b c d : LatentVar (Ext K)).setName (some k)).genLatentVals n C L w =
      (.ok x, w') := by
  obtain ⟨xs, w1, h1⟩ := normal_draws h j c hd (L * C) w
  obtain ⟨ys, w2, h2⟩ := normal_draws h i a hb (L * C * n) w1
  exact ⟨_, _, genLatentVals_run ((riverLatent i j a b c d : LatentVar (Ext K)).setName (some k))
    (lotS := List.replicate L (ofRat 1)) rfl h1 h2 (by simp) (LawfulRng.length h1) (LawfulRng.length h2)⟩

omit [IsStrictOrderedRing K] in
theorem riverExpr_uses : (riverExpr : NumExpr (Ext K)).Uses riverParams := by
  intro k
  simp only [riverExpr, NumExpr.uses, riverParams, List.mem_append, List.mem_cons, List.not_mem_nil,
    or_false, or_assoc]
  tauto

omit [IsStrictOrderedRing K] in
theorem riverLevel_uses : (riverLevel : NumExpr (Ext K)).Uses riverLevelParams := by
  intro k
  simp only [riverLevel, NumExpr.uses, riverLevelParams, List.mem_append, List.mem_cons, List.not_mem_nil,
    or_false, or_assoc]

omit [IsStrictOrderedRing K] [Rng W (Ext K)] in
theorem river_latents {k : String} {lv : LatentVar (Ext K)}
    (h : (k, lv) ∈ (riverErosion : MechMdl W (Ext K)).mdl.latentVars) :
    (k, lv) = ("k_d", (constLatent (ofRat (1 / 100000)) : LatentVar (Ext K)).setName (some "k_d")) ∨
    (k, lv) = ("tau_c", (riverLatent 1 2 (24 / 10) (2 / 100) 1 (2 / 10)).setName (some "tau_c")) ∨
    (k, lv) = ("alpha", (riverLatent 3 4 (9 / 10) (1 / 100) 1 (4 / 100)).setName (some "alpha")) := by
  have h : (k, lv) ∈ [("k_d", (constLatent (ofRat (1 / 100000)) : LatentVar (Ext K)).setName (some "k_d")),
    ("tau_c", (riverLatent 1 2 (24 / 10) (2 / 100) 1 (2 / 10)).setName (some "tau_c")),
    ("alpha", (riverLatent 3 4 (9 / 10) (1 / 100) 1 (4 / 100)).setName (some "alpha"))] := h
  simpa only [List.mem_cons, List.not_mem_nil, or_false] using h

omit [IsStrictOrderedRing K] in
theorem riverDev_works [LawfulRng W (Ext K)] (h : FiniteNormals W K) :
    DeviceWorks (riverDev : DeviceMdl W (Ext K)) where
  unique := List.nodup_singleton _
  deg := by
    intro p d hp
    obtain ⟨rfl, hd⟩ := riverDev_get hp
    cases hd
    refine
      { shapes := ⟨argEqn_shapes _, ?_, by simp [riverPrm, initValMk, nameLatents],
          constEqn_shapes _, ?_, NumExpr.shapes riverLevel_uses⟩
        unique := List.nodup_singleton _
        mechs := ?_
        condName := by simp [riverPrm, Dict.keys]
        ownNames := fun k hk => (by cases hk)
        initDraws := ?_
        initEqn := argEqn_direct _
        initArgs := ?_
        initTakes := ?_
        condDraws := fun k lv h => (by cases h)
        condEqn := direct_works (constEqn_direct _)
        condPlain := ?_
        draws := fun k lv h => (by cases h)
        eqn := direct_works (NumExpr.direct riverLevel_uses)
        args := ?_
        takes := ?_ }
    · simp [riverPrm, Dict.keys]
    · intro k m hk
      cases List.mem_singleton.1 hk
      exact NumExpr.shapes riverExpr_uses
    · intro k m hm
      cases List.mem_singleton.1 hm
      refine ⟨by simp [riverErosion], by simp [riverErosion, timeUnitMap], ?_,
        direct_works (NumExpr.direct riverExpr_uses), .inr ⟨false, List.mem_cons_self⟩⟩
      intro k lv hk n C L w
      rcases river_latents hk with hk | hk | hk <;> cases hk
      · exact ⟨_, w, genLatentVals_run ((constLatent _ : LatentVar (Ext K)).setName (some "k_d"))
          (lotS := List.replicate L (PyArith.ofRat 1)) rfl rfl rfl (by simp) (by simp) (by simp)⟩
      · exact riverLatent_draws h 1 2 _ _ (by norm_num) (by norm_num) _ n C L w
      · exact riverLatent_draws h 3 4 _ _ (by norm_num) (by norm_num) _ n C L w
    · intro k lv hk n C L w
      cases List.mem_singleton.1 hk
      exact riverLatent_draws h 5 6 _ _ (by norm_num) (by norm_num) _ n C L w
    · intro p hp
      cases List.mem_singleton.1 hp
      exact List.mem_singleton.2 rfl
    · intro k hk
      cases List.mem_singleton.1 hk
      exact .inr ⟨false, List.mem_singleton.2 rfl⟩
    · intro args w w' v h
      have := (invoke_ok h).2
      cases this
    · intro p hp
      have : p = "init" ∨ p = "erosion" ∨ p = "cond" := by
        simpa [riverPrm, NumExpr.fn, riverLevelParams] using hp
      rcases this with rfl | rfl | rfl <;> simp [riverPrm, Dict.keys]
    · intro k hk
      have : k = "init" ∨ k = "cond" ∨ k = "erosion" := by
        simpa [riverPrm, Dict.keys] using hk
      rcases this with rfl | rfl | rfl <;> exact .inr ⟨false, by simp [riverPrm, NumExpr.fn, riverLevelParams]⟩
  circ := by
    intro p c hp
    obtain ⟨rfl, h⟩ := riverDev_get hp
    cases h

omit [FloorRing K] [Pow10 K] [IsStrictOrderedRing K] in
theorem riverLatent_fin (h : FiniteNormals W K) (i j : Nat) (a c : ℚ) {b d : ℚ} (hb : 0 ≤ b) (hd : 0 ≤ d)
    (k : String) : (∀ v, ((riverLatent i j a b c d : LatentVar (Ext K)).setName (some k)).deterVal = some v →
      IsFin v) ∧
    SamplesIn W IsFin ((riverLatent i j a b c d : LatentVar (Ext K)).setName (some k)).lot ∧
    SamplesIn W IsFin ((riverLatent i j a b c d : LatentVar (Ext K)).setName (some k)).chp ∧
    SamplesIn W IsFin ((riverLatent i j a b c d : LatentVar (Ext K)).setName (some k)).dev :=
  ⟨fun _ hv => (nomatch hv), samplesIn_fixed rfl ⟨_, rfl⟩, normal_fin h j c hd, normal_fin h i a hb⟩

omit [FloorRing K] [Pow10 K] [IsStrictOrderedRing K] in
theorem npMaximum_fin [FloorRing K] [Pow10 K] {x y : Ext K} (hx : IsFin x) (hy : IsFin y) : IsFin (npMaximum x y) := by
  unfold npMaximum
  exact ite_in hx (ite_in hy (ite_in hy hx))

omit [IsStrictOrderedRing K] in
theorem riverDev_finite (h : FiniteNormals W K) : FiniteDevice (riverDev : DeviceMdl W (Ext K)) where
  unique := by
    intro p d hp
    cases List.mem_singleton.1 hp
    exact List.nodup_singleton _
  mech := by
    intro p d hp k m hm
    cases List.mem_singleton.1 hp
    cases List.mem_singleton.1 hm
    refine ⟨?_, maps_expr _ _ ?_, ⟨_, rfl⟩⟩
    · intro k lv hk
      rcases river_latents hk with hk | hk | hk <;> cases hk
      · exact ⟨fun v hv => by cases hv; exact ⟨_, rfl⟩, samplesIn_fixed rfl ⟨_, rfl⟩,
          samplesIn_fixed rfl ⟨_, rfl⟩, samplesIn_fixed rfl ⟨_, rfl⟩⟩
      · exact riverLatent_fin h 1 2 _ _ (by norm_num) (by norm_num) _
      · exact riverLatent_fin h 3 4 _ _ (by norm_num) (by norm_num) _
    · rintro x ⟨t, r, ht, ⟨u, v, ⟨k, b, hk, ⟨m, c, ⟨a, tau, ha, htau, rfl⟩, hc, rfl⟩, rfl⟩, rfl, rfl⟩, rfl⟩
      exact fin_mul ht (npMaximum_fin (fin_mul hk (fin_sub (fin_mul ha htau) hc)) ⟨_, rfl⟩)
  deg := by
    intro p d hp
    cases List.mem_singleton.1 hp
    refine ⟨?_, ?_, fun k lv h => (by cases h), ?_, ⟨_, rfl⟩, fun k lv h => (by cases h),
      maps_expr _ _ ?_⟩
    · intro k lv hk
      cases List.mem_singleton.1 hk
      exact riverLatent_fin h 5 6 _ _ (by norm_num) (by norm_num) _
    · intro args w r w' ha hr
      exact ha.get (Dict.getE_eq_ok.1 (M.ofExcept_eq_ok.1 hr).1)
    · intro args w r w' ha hr
      cases hr
      exact ⟨_, rfl⟩
    · rintro x ⟨y, c, ⟨i, e, hi, he, rfl⟩, hc, rfl⟩
      exact fin_add (fin_sub hi he) hc
  circ := by
    intro p c hp
    cases List.mem_singleton.1 hp

omit [IsStrictOrderedRing K] in
theorem riverWorld_vars (k : String) : (riverWorld : PhysTestEnv (Ext K)).vrtnMdl k =
    if k = "tau" then
      { unitary := ofRat 0, batch := normalVar 9 0 (12 / 10), chp := normalVar 8 0 (8 / 10),
        dev := normalVar 7 0 (2 / 10), batchDef := true, chpDef := true, devDef := true,
        name := some "tau", vrtnType := some .offset }
    else EnvVrtnMdl.ideal := by
  unfold PhysTestEnv.vrtnMdl
  by_cases h : k = "tau"
  · subst h
    rw [if_pos rfl]
    rfl
  · rw [if_neg h]
    have : (riverWorld : PhysTestEnv (Ext K)).vars.get? k = none := by
      exact (Dict.get?_eq_none_iff _ _).2 fun hk => h (List.mem_singleton.1 hk)
    rw [this]
    rfl

omit [IsStrictOrderedRing K] in
theorem riverWorld_draws (h : FiniteNormals W K) : EnvDraws W (riverWorld : PhysTestEnv (Ext K)) := by
  intro k
  rw [riverWorld_vars]
  split
  · exact ⟨normal_draws h _ _ (by norm_num), normal_draws h _ _ (by norm_num),
      normal_draws h _ _ (by norm_num)⟩
  · exact ⟨fun n w => ⟨_, w, rfl⟩, fun n w => ⟨_, w, rfl⟩, fun n w => ⟨_, w, rfl⟩⟩

omit [IsStrictOrderedRing K] in
theorem riverWorld_finite (h : FiniteNormals W K) : FiniteEnv W (riverWorld : PhysTestEnv (Ext K)) where
  vars := by
    intro k m hk
    cases List.mem_singleton.1 hk
    exact ⟨normal_fin h 9 0 (by norm_num), normal_fin h 8 0 (by norm_num), normal_fin h 7 0 (by norm_num)⟩
  instms := by
    intro k ins hk
    cases List.mem_singleton.1 hk
    refine ⟨fun r hr => ?_, fun lo hi hr => (nomatch hr)⟩
    cases hr
    exact normal_fin h 10 0 (by norm_num)

/-- A quarter of a year in microseconds. -/
def quarter : Int := 7884000000000

/-- A season. -/
def riverFlow (tau : ℚ) (name : String) : StrsSpec (Ext K) :=
  ⟨[("tau", ofRat tau)], .td quarter, name ++ " Season Flow"⟩

/-- The steps of one year. -/
def riverYear (samples : Nat) : List (Step (Ext K)) :=
  [.strs (riverFlow 7 "Spring"), .strs (riverFlow 4 "Summer"), .strs (riverFlow 2 "Autumn"),
    .strs (riverFlow 2 "Winter"), .meas (riverMeas samples)]

/-- The test. -/
def riverSteps (samples rivers years : Nat) : TestSpec (Ext K) where
  steps := .meas (riverMeas samples) :: copies years (riverYear samples)
  numChps := rivers
  numLots := 1
  name := "Riverbed Erosion Process"

omit [IsStrictOrderedRing K] [FloorRing K] [Pow10 K] in
theorem riverSeason_eq [FloorRing K] [Pow10 K] (tau : ℚ) (name : String) :
    riverSeason tau name = .ok (riverFlow tau name : StrsSpec (Ext K)) := by
  have h : tdOfNum .hours (8760 / 4) = .ok quarter := by decide +kernel
  unfold riverSeason StrsSpec.mk' convertTime
  simp only [timeUnitMap]
  simp [h, riverFlow, quarter]

omit [IsStrictOrderedRing K] in
theorem riverTest_eq (samples rivers : Nat) {years fuel : Nat} (hy : 0 < years) (hmax : years ≤ 1000000)
    (hf : years < fuel) :
    riverTest fuel samples rivers years = some (.ok (riverSteps samples rivers years : TestSpec (Ext K))) := by
  have hD : denotes (.num (years * 8760)) (some "h") (years * (4 * quarter)) := by
    refine .inr ⟨_, rfl, ?_⟩
    have := tdOfNum_hours (years * 8760) (by positivity) (by omega)
    unfold convertTime
    simp only [timeUnitMap]
    have e : ((years * 8760 : Int) : ℚ) = (years * 8760 : ℚ) := by push_cast; ring
    have e2 : (years * 8760 : Int) * 3600000000 = years * (4 * quarter) := by
      unfold quarter
      ring
    rw [e, e2] at this
    simp only [String.reduceEq, if_false, if_true, this]
  have hst : stressTime (riverYear samples : List (Step (Ext K))) = 4 * quarter := rfl
  have hab : absStressTime (riverYear samples : List (Step (Ext K))) = 4 * quarter := rfl
  have hq : 4 * quarter = 31536000000000 := rfl
  obtain ⟨n, h1, h2, h3⟩ := looped_append_outcome hD (by rw [hq]; positivity) (l := riverYear samples)
    (by
      intro st h
      have : st = riverFlow 7 "Spring" ∨ st = riverFlow 4 "Summer" ∨ st = riverFlow 2 "Autumn" ∨
          st = riverFlow 2 "Winter" := by simpa [riverYear] using h
      rcases this with rfl | rfl | rfl | rfl <;> exact ⟨_, rfl⟩)
    (by rw [hst, hq]; norm_num) (by rw [hab, hq]; omega) [.meas (riverMeas (V := Ext K) samples)]
  have hn : n = years := by
    rw [hst, hq] at h1 h2
    omega
  subst hn
  have h3 := h3 fuel hf
  rw [hst, Int.emod_self, if_pos rfl] at h3
  unfold riverTest
  rw [riverSeason_eq, riverSeason_eq, riverSeason_eq, riverSeason_eq]
  simp only
  unfold riverYear at h3
  rw [h3]
  rfl

omit [IsStrictOrderedRing K] in
theorem riverTimes (samples : Nat) (years : Nat) {t : Int} (h0 : 0 ≤ t)
    (hmax : t + years * (4 * quarter) ≤ 86399999913600000000) :
    TimesFit t (copies years (riverYear samples : List (Step (Ext K)))) := by
  induction years generalizing t with
  | zero =>
    show tdValid t
    unfold tdValid tdMin tdMax
    constructor <;> omega
  | succ years ih =>
    have e : copies (years + 1) (riverYear samples : List (Step (Ext K))) =
        riverYear samples ++ copies years (riverYear samples) := by
      simp [copies, List.replicate_succ]
    rw [e]
    have hq : quarter = 7884000000000 := rfl
    rw [hq] at hmax
    have hv : ∀ u : Int, 0 ≤ u → u ≤ t + 4 * quarter → tdValid u := by
      intro u hu hu'
      rw [hq] at hu'
      unfold tdValid tdMin tdMax
      constructor <;> push_cast at * <;> omega
    refine ⟨hv _ h0 (by omega), _, rfl, hv _ (by omega) (by omega), _, rfl, hv _ (by omega) (by omega), _, rfl,
      hv _ (by omega) (by omega), _, rfl, ?_⟩
    refine ih (by omega) ?_
    rw [hq]
    push_cast at *
    omega

omit [IsStrictOrderedRing K] in
theorem river_mem {samples rivers years : Nat} {x : Step (Ext K)}
    (h : x ∈ (riverSteps samples rivers years : TestSpec (Ext K)).steps) :
    x = .meas (riverMeas samples) ∨ ∃ tau name, x = .strs (riverFlow tau name) := by
  rcases List.mem_cons.1 h with h | h
  · exact .inl h
  · obtain ⟨l, h1, h2⟩ := List.mem_flatten.1 h
    rw [(List.mem_replicate.1 h1).2] at h2
    have : x = .strs (riverFlow 7 "Spring") ∨ x = .strs (riverFlow 4 "Summer") ∨
        x = .strs (riverFlow 2 "Autumn") ∨ x = .strs (riverFlow 2 "Winter") ∨ x = .meas (riverMeas samples) := by
      simpa [riverYear] using h2
    rcases this with rfl | rfl | rfl | rfl | rfl
    · exact .inr ⟨_, _, rfl⟩
    · exact .inr ⟨_, _, rfl⟩
    · exact .inr ⟨_, _, rfl⟩
    · exact .inr ⟨_, _, rfl⟩
    · exact .inl rfl

theorem riverTest_ok (h : FiniteNormals W K) (samples rivers : Nat) {years : Nat} (hmax : years ≤ 1000000) :
    TestOk (riverDev : DeviceMdl W (Ext K)) riverWorld (riverSteps samples rivers years) (fun _ => IsFin) where
  stress := by
    intro st hst p d k m hp hm
    rcases river_mem hst with hst | ⟨tau, name, hst⟩
    · cases hst
    cases hst
    obtain ⟨rfl, hd⟩ := riverDev_get hp
    cases hd
    cases List.mem_singleton.1 hm
    intro q hq
    have hq : (q, false) ∈ riverParams.map fun p => (p, false) := hq
    show q ∈ "time" :: ["k_d", "tau_c", "alpha"] ++ ["tau"]
    simp only [List.mem_map, Prod.mk.injEq, and_true, exists_eq_right] at hq
    exact hq
  measure := by
    intro m hm
    rcases river_mem hm with hm | ⟨tau, name, hm⟩
    swap
    · cases hm
    cases hm
    refine ⟨List.nodup_singleton _, fun p hp => .inl hp, fun p hp => ?_, ?_, ?_, ?_⟩
    · cases List.mem_singleton.1 hp
      refine instrument_fin (riverWorld_finite h) rfl ?_
      intro r hr
      cases hr
      exact normal_draws h 10 0 (by norm_num)
    · intro p d hp hd
      obtain ⟨rfl, h⟩ := riverDev_get hd
      cases h
      exact fun q hq => (by cases hq)
    · intro p c hp hc
      obtain ⟨rfl, h⟩ := riverDev_get hc
      cases h
    · intro p c hp hc
      obtain ⟨rfl, h⟩ := riverDev_get hc
      cases h
  all := by
    intro p hp
    cases List.mem_singleton.1 hp
    exact ⟨"riverbed_level", samples, ⟨riverMeas samples, List.mem_cons_self, List.mem_singleton.2 rfl⟩,
      .inl rfl⟩
  tied := by
    intro c m n hc
    obtain ⟨rfl, h⟩ := riverDev_get hc
    cases h
  times := riverTimes samples years le_rfl (by
    have : quarter = 7884000000000 := rfl
    rw [this]
    omega)

omit [IsStrictOrderedRing K] in
theorem river_conditions (samples rivers years : Nat) :
    FiniteConditions (riverSteps samples rivers years : TestSpec (Ext K)).steps := by
  constructor
  · intro st hst k v hk
    rcases river_mem hst with hst | ⟨tau, name, hst⟩
    · cases hst
    cases hst
    cases List.mem_singleton.1 hk
    exact ⟨_, rfl⟩
  · intro m hm k v hk
    rcases river_mem hm with hm | ⟨tau, name, hm⟩
    swap
    · cases hm
    cases hm
    cases List.mem_singleton.1 hk
    exact ⟨_, rfl⟩

omit [IsStrictOrderedRing K] in
/-- Step `5 * y` is the measurement after year `y`. -/
theorem river_split (samples rivers : Nat) {y years : Nat} (hyy : y ≤ years) :
    ∃ pre post, (riverSteps samples rivers years : TestSpec (Ext K)).steps =
      pre ++ .meas (riverMeas samples) :: post ∧ pre.length = 5 * y := by
  cases y with
  | zero => exact ⟨[], _, rfl, rfl⟩
  | succ y =>
    obtain ⟨z, rfl⟩ := Nat.exists_eq_add_of_le hyy
    refine ⟨.meas (riverMeas samples) :: (copies y (riverYear samples) ++ (riverYear samples).take 4),
      copies z (riverYear samples), ?_, ?_⟩
    · have e : copies (y + 1 + z) (riverYear samples : List (Step (Ext K))) =
          copies y (riverYear samples) ++ (riverYear samples ++ copies z (riverYear samples)) := by
        simp [copies, List.replicate_add, List.replicate_succ']
      show _ :: copies (y + 1 + z) (riverYear samples) = _
      rw [e]
      simp [riverYear]
    · simp [copies, riverYear]
      omega

/-- **C64**: `demos/riverbed_erosion.py` runs, for any numbers of sampled locations, rivers and years and any
generator whose normal distributions give finite numbers. The report has a set of readings before the first
and after each year, with one reading for each river and location, and all readings are finite numbers,
although the instrument rounds to significant digits. -/
theorem C64_run [LawfulRng W (Ext K)] (h : FiniteNormals W K) (ord : SetOrder) (samples rivers : Nat)
    {years fuel : Nat} (hy : 0 < years) (hmax : years ≤ 1000000) (hf : years < fuel) (w : W) :
    ∃ test dev env, riverTest fuel samples rivers years = some (.ok test) ∧
      riverDevice (W := W) = .ok dev ∧ riverEnv (V := Ext K) = .ok env ∧
      ∃ r w', simulate ord test dev env none w = (.ok r, w') ∧
        (∀ x ∈ r.measurements, ∃ a, x.measured = .fin a) ∧
        ∀ y ≤ years, (rowsAt r.measurements (5 * y) "riverbed_level").map place =
          places 1 rivers samples := by
  obtain ⟨r, w', h1, h2⟩ := C53_finite ord (riverDev_works h) (riverDev_finite h) (riverWorld_draws h)
    (riverWorld_finite h) (riverTest_ok h samples rivers hmax) (river_conditions samples rivers years) w
  refine ⟨_, _, _, riverTest_eq samples rivers hy hmax hf, riverDevice_eq, riverEnv_eq, r, w', h1, h2,
    fun y hyy => ?_⟩
  have hw := riverDev_works (W := W) h
  obtain ⟨pre, post, h3, h4⟩ := river_split (K := K) samples rivers hyy
  rw [← h4]
  exact C44_parameter hw.unique (fun p d hp => (hw.deg p d hp).unique) (fun p d hp => (hw.deg p d hp).shapes) h1
    h3 (List.nodup_singleton _) (List.mem_singleton.2 rfl) rfl

end run

/-- The counting generators draw finite numbers: the ten years of the demonstration. -/
example (ord : SetOrder) : ∃ test dev env, riverTest 11 10 5 10 = some (.ok test) ∧
    riverDevice (W := Counts) = .ok dev ∧ riverEnv (V := Ext ℚ) = .ok env ∧
    ∃ r w', simulate ord test dev env none Counts.start = (.ok r, w') ∧
      (∀ x ∈ r.measurements, ∃ a, x.measured = .fin a) ∧
      ∀ y ≤ 10, (rowsAt r.measurements (5 * y) "riverbed_level").map place = places 1 5 10 :=
  C64_run (fun i mu sigma n w _ => ⟨(List.range n).map fun j => ((100 * i + w.next i + j : Nat) : ℚ), _, by
    show (_, _) = (_, _)
    rw [List.map_map]
    rfl⟩) ord 10 5 (by norm_num) (by norm_num) (by norm_num) Counts.start

section erosion
variable {W : Type} [Rng W (Ext ℝ)]
open PyArith

/-- A finite number that is not negative. -/
def NonNeg (x : Ext ℝ) : Prop := ∃ a : ℝ, 0 ≤ a ∧ x = .fin a

/-- Times and erosions are not negative, all other values are finite. -/
def riverRanges : Ranges (Ext ℝ) :=
  ⟨fun _ k x => if k = "time" ∨ k = "erosion" then NonNeg x else IsFin x, fun _ => IsFin, fun _ => IsFin, IsFin⟩

theorem river_fin {p k : String} {x : Ext ℝ} (h : riverRanges.arg p k x) : IsFin x := by
  unfold riverRanges at h
  simp only at h
  split at h
  · obtain ⟨a, -, rfl⟩ := h
    exact ⟨a, rfl⟩
  · exact h

theorem river_arg {p k : String} (h1 : k ≠ "time") (h2 : k ≠ "erosion") {x : Ext ℝ} (h : IsFin x) :
    riverRanges.arg p k x := by
  show if k = "time" ∨ k = "erosion" then _ else _
  rw [if_neg (by tauto)]
  exact h

theorem river_time {p : String} {x : Ext ℝ} (h : NonNeg x) : riverRanges.arg p "time" x := by
  show if ("time" : String) = "time" ∨ ("time" : String) = "erosion" then NonNeg x else IsFin x
  rwa [if_pos (.inl rfl)]

theorem river_erosion {p : String} {x : Ext ℝ} (h : NonNeg x) : riverRanges.arg p "erosion" x := by
  show if ("erosion" : String) = "time" ∨ ("erosion" : String) = "erosion" then NonNeg x else IsFin x
  rwa [if_pos (.inr rfl)]

theorem npMaximum_nonneg {x : Ext ℝ} (hx : IsFin x) : NonNeg (npMaximum x (ofRat 0)) := by
  obtain ⟨a, rfl⟩ := hx
  have h0 : (ofRat 0 : Ext ℝ) = .fin 0 := by
    show Ext.fin ((0 : ℚ) : ℝ) = _
    norm_num
  rw [h0]
  have e1 : ∀ a : ℝ, eq (Ext.fin a) (Ext.fin a) = true := fun a => decide_eq_true rfl
  unfold npMaximum
  rw [e1, e1]
  simp only [Bool.not_true, Bool.false_eq_true, if_false]
  split
  · exact ⟨0, le_rfl, rfl⟩
  · rename_i h
    have : ¬ a < 0 := fun ha => h (decide_eq_true ha)
    exact ⟨a, not_lt.1 this, rfl⟩

theorem pow10_nonneg {x : Ext ℝ} (hx : IsFin x) : ∃ a : ℝ, 0 < a ∧ PyNum.pow10 x = .fin a := by
  obtain ⟨a, rfl⟩ := hx
  exact ⟨(10 : ℝ) ^ a, Real.rpow_pos_of_pos (by norm_num) a, rfl⟩

theorem riverDev_in (h : FiniteNormals W ℝ) : DeviceIn riverRanges (riverDev : DeviceMdl W (Ext ℝ)) where
  deg := by
    intro p d hp
    have hfin := riverDev_finite (W := W) h
    obtain ⟨f1, f2, f3, f4, f5, f6, f7⟩ := hfin.deg p d hp
    have hf := (hfin.deviceIn).deg p d hp
    cases List.mem_singleton.1 hp
    refine ⟨hf.unique, fun k m hm => ?_, ?_, ?_, fun x hx => river_arg (by decide) (by decide) hx,
      fun k lv h => (by cases h), ?_, river_arg (by decide) (by decide) ⟨_, rfl⟩,
      fun k lv h => (by cases h), ?_⟩
    · have hm' := hf.mechs k m hm
      cases List.mem_singleton.1 hm
      refine ⟨?_, maps_expr _ _ ?_, river_erosion ⟨0, le_rfl, ?_⟩, fun _ x hx => river_fin hx, ?_⟩
      · intro k lv hk n C L w a w' ha
        have := hm'.draws k lv hk n C L w a w' ha
        rcases river_latents hk with hk | hk | hk <;> cases hk <;>
          exact fun x hx => river_arg (by decide) (by decide) (this x hx)
      · rintro x ⟨t, r, ht, ⟨u, v, ⟨k, b, hk, ⟨m, c, ⟨a, tau, ha, htau, rfl⟩, hc, rfl⟩, rfl⟩, rfl, rfl⟩, rfl⟩
        refine river_erosion ?_
        have ht' : NonNeg t := ht
        obtain ⟨t, ht', rfl⟩ := ht'
        obtain ⟨r, hr, e⟩ := npMaximum_nonneg (fin_mul (river_fin hk) (fin_sub (fin_mul (river_fin ha)
          (river_fin htau)) (river_fin hc)))
        rw [e]
        exact ⟨t * r, mul_nonneg ht' hr, rfl⟩
      · show Ext.fin ((0 : ℚ) : ℝ) = _
        norm_num
      · intro _ x hx
        obtain ⟨a, ha, e⟩ := pow10_nonneg hx
        exact river_time ⟨a, ha.le, e⟩
    · intro k lv hk n C L w a w' ha
      have := hf.initDraws k lv hk n C L w a w' ha
      cases List.mem_singleton.1 hk
      exact fun x hx => river_arg (by decide) (by decide) (this x hx)
    · intro args w r w' ha hr
      exact (ha.get (Dict.getE_eq_ok.1 (M.ofExcept_eq_ok.1 hr).1)).mono fun x hx => river_fin hx
    · intro args w r w' ha hr
      cases hr
      exact river_arg (by decide) (by decide) ⟨_, rfl⟩
    · refine maps_expr _ _ ?_
      rintro x ⟨y, c, ⟨i, e, hi, he, rfl⟩, hc, rfl⟩
      exact fin_add (fin_sub (river_fin hi) (river_fin he)) (river_fin hc)
  circ := by
    intro p c hp
    cases List.mem_singleton.1 hp

theorem river_vrtn (h : FiniteNormals W ℝ) (p k : String) :
    VrtnIn W (riverRanges.arg p k) (riverWorld.vrtnMdl k) := by
  have hf := riverWorld_finite (W := W) h
  rw [riverWorld_vars]
  split
  · rename_i hk
    subst hk
    have e : riverRanges.arg p "tau" = IsFin := by
      funext x
      exact propext ⟨river_fin, river_arg (by decide) (by decide)⟩
    rw [e]
    exact ⟨fun x y => fin_add, normal_fin h 9 0 (by norm_num), normal_fin h 8 0 (by norm_num),
      normal_fin h 7 0 (by norm_num)⟩
  · have hz : riverRanges.arg p k (ofRat 0) := by
      show if _ then NonNeg _ else IsFin _
      split
      · exact ⟨0, le_rfl, by show Ext.fin ((0 : ℚ) : ℝ) = _; norm_num⟩
      · exact ⟨_, rfl⟩
    have hs : SamplesIn W (riverRanges.arg p k) (detUnit (ofRat 0)) := samplesIn_fixed rfl hz
    refine ⟨fun x y hx hy => ?_, hs, hs, hs⟩
    have hx : if k = "time" ∨ k = "erosion" then NonNeg x else IsFin x := hx
    have hy : if k = "time" ∨ k = "erosion" then NonNeg y else IsFin y := hy
    show if k = "time" ∨ k = "erosion" then NonNeg _ else IsFin _
    split
    · rename_i hk
      rw [if_pos hk] at hx hy
      obtain ⟨a, ha, rfl⟩ := hx
      obtain ⟨b, hb, rfl⟩ := hy
      exact ⟨a + b, add_nonneg ha hb, rfl⟩
    · rename_i hk
      rw [if_neg hk] at hx hy
      exact fin_add hx hy

theorem riverSteps_in (h : FiniteNormals W ℝ) (ord : SetOrder) (samples rivers years : Nat) :
    StepsIn riverRanges ord (riverDev : DeviceMdl W (Ext ℝ)) riverWorld
      (riverSteps samples rivers years : TestSpec (Ext ℝ)).steps where
  stress := by
    intro st hst
    rcases river_mem hst with hst | ⟨tau, name, hst⟩
    · cases hst
    cases hst
    refine ⟨fun q w conds w' hc => conds_in (F := riverRanges.arg "riverbed_level") (river_vrtn h _) ?_ hc, ?_⟩
    · intro k v hk
      cases List.mem_singleton.1 hk
      exact river_arg (by decide) (by decide) ⟨_, rfl⟩
    · intro p d hp k m hm q hq
      cases List.mem_singleton.1 hp
      cases List.mem_singleton.1 hm
      have hq' : q = numOfTd .hours quarter := by
        have e : (Except.ok (.num (numOfTd .hours quarter)) : Except Err TimeVal) = .ok (.num q) := hq
        cases e
        rfl
      subst hq'
      have hpos : 0 ≤ ((numOfTd .hours quarter : ℚ) : ℝ) := by
        have : 0 ≤ numOfTd .hours quarter := by
          unfold numOfTd timeSecondFactor quarter
          positivity
        exact_mod_cast this
      refine ⟨fun _ x hx => ?_, fun hk => (nomatch hk)⟩
      obtain ⟨a, ha, e⟩ := pow10_nonneg hx
      rw [e]
      exact river_time ⟨_, add_nonneg ha.le hpos, rfl⟩
  measure := by
    intro m hm
    rcases river_mem hm with hm | ⟨tau, name, hm⟩
    swap
    · cases hm
    cases hm
    refine ⟨fun q w conds w' hc => conds_in (F := riverRanges.arg "riverbed_level") (river_vrtn h _) ?_ hc,
      fun _ _ _ _ h => river_fin h, fun p hp ins hi xs w ys w' hx hy =>
        measure_fin (riverWorld_finite h) hi hx hy⟩
    intro k v hk
    cases List.mem_singleton.1 hk
    exact river_arg (by decide) (by decide) ⟨_, rfl⟩

/-- **C64**: the erosion at each location of the rivers is never negative, whatever the flows drawn for the
seasons: also where the flow varies so much that it would be. -/
theorem C64_erosion (h : FiniteNormals W ℝ) {ord : SetOrder} {samples rivers years : Nat} {w w' : W}
    {s : SimState (Ext ℝ)} {r : SimReport (Ext ℝ)}
    (hr : simulateFull ord (riverSteps samples rivers years) (riverDev : DeviceMdl W (Ext ℝ)) riverWorld none w =
      (.ok (s, r), w')) {ms : Dict (Arr3 (Ext ℝ))} (hms : s.currMech.get? "riverbed_level" = some ms)
    {a : Arr3 (Ext ℝ)} (ha : ms.get? "erosion" = some a) : ∀ x ∈ a.data, ∃ e : ℝ, 0 ≤ e ∧ x = .fin e :=
  ((C63_ranges fin_closed (riverDev_in h) (riverSteps_in h ord samples rivers years) hr).1.mech.get hms).get ha

theorem river_neutral : Neutral (riverPrm : DegPrmMdl W (Ext ℝ)) fun env => exprOn env riverLevel := by
  intro x lat
  show add (sub x (ofRat 0)) (ofRat 0) = x
  have h0 : (ofRat 0 : Ext ℝ) = .fin 0 := by
    show Ext.fin ((0 : ℚ) : ℝ) = _
    norm_num
  rw [UnitLaws.add_zero, h0]
  cases x with
  | fin a => exact congrArg Ext.fin (sub_zero a)
  | pinf => rfl
  | ninf => rfl
  | nan => rfl

/-- **C64**, the levels: after each year the readings are what the instrument makes of levels that are, at
each location, the initial level minus an erosion that is not negative. The initial levels are the same for
all years. -/
theorem C64_level [LawfulRng W (Ext ℝ)] (h : FiniteNormals W ℝ) {ord : SetOrder}
    {samples rivers years : Nat} {w w' : W} {r : SimReport (Ext ℝ)}
    (hr : simulate ord (riverSteps samples rivers years) (riverDev : DeviceMdl W (Ext ℝ)) riverWorld none w =
      (.ok r, w')) :
    ∃ init : Nat → Nat → ℝ, ∀ y ≤ years,
    ∃ (erosion : Nat → Nat → ℝ) (level : Nat → Nat → Nat → Ext ℝ) (time : TimeVal)
      (ys : List (Ext ℝ)) (u u' : W),
      (∀ c < rivers, ∀ d < samples, 0 ≤ erosion c d ∧ level 0 c d = .fin (init c d - erosion c d)) ∧
      (instrumentOf riverWorld "riverbed_level").measureVals
        ((expectedRows 1 rivers samples level "riverbed_level" time (5 * y)).map (·.measured)) u =
          (.ok ys, u') ∧
      rowsAt r.measurements (5 * y) "riverbed_level" = List.zipWith (fun x y => { x with measured := y })
        (expectedRows 1 rivers samples level "riverbed_level" time (5 * y)) ys := by
  have hw := riverDev_works (W := W) h
  obtain ⟨⟨sf, rf⟩, wf, hf1, -⟩ := M.bind_eq_ok.1 hr
  obtain ⟨⟨si, ri⟩, wi, hf2, -⟩ := M.bind_eq_ok.1 hf1
  refine ⟨fun c d => match si.initPrm.get? "riverbed_level" with
    | some (.arr ia) => (match ia.at' 0 c d with | .fin x => x | _ => 0)
    | _ => 0, fun y hy => ?_⟩
  obtain ⟨pre, post, h3, h4⟩ := river_split (K := ℝ) samples rivers hy
  obtain ⟨s0, r0, s, r1, cur, k, ys, w0, w1, u2, u3, g1, g2, g3, g4, g5, g6, g7⟩ :=
    C65_reading hw.unique (fun p d hp => (hw.deg p d hp).unique) (fun p d hp => (hw.deg p d hp).shapes) hr
      h3 (List.nodup_singleton _) (List.mem_singleton.2 rfl) (m := riverPrm) rfl
      (expr_equation rfl riverLevel_uses) river_neutral rfl
  cases hf2.symm.trans g1
  have hinit : s.initPrm = si.initPrm := by
    obtain ⟨rows, lines, a1, -⟩ := runSteps_ok.1 g2
    refine runDelta_inv (P := fun s => s.initPrm = si.initPrm) a1 rfl ?_
    rintro st - i s1 s2 rows lines v1 v2 hP hst
    obtain ⟨_, _, _, _, _, _, a2, _, _, rfl, _⟩ := strsDelta_ok hst
    exact (stress_frame a2).2.1.trans hP
  rw [h4] at g6 g7
  obtain ⟨ia, a, mv, lat, k1, k2, k3, k4, k5, k6, k7, k8⟩ := g5
  have hst := riverSteps_in h ord samples rivers years
  obtain ⟨q1, q2⟩ := simStart_in (riverDev_in h) g1
  have hin := (runSteps_in fin_closed (riverDev_in h) (steps := pre)
    ⟨fun st hm => hst.stress st (by rw [h3]; simp [hm]), fun m hm => hst.measure m (by rw [h3]; simp [hm])⟩
    q1 (by rw [q2]; exact fun _ h => (nomatch h)) g2).1
  rw [k3] at g3
  cases g3
  obtain ⟨ea, hea⟩ : ∃ ea, mv.get? "erosion" = some ea :=
    Dict.get?_isSome_of_mem_keys (by rw [k6]; exact List.mem_singleton.2 rfl)
  have hfe : ArrIn (riverRanges.arg "riverbed_level" "erosion") ea := (hin.mech.get k5).get hea
  have hfi : ArrIn IsFin ia := hin.initPrm.get k1
  have hed : ea.HasDims 1 rivers k := by
    obtain ⟨f1, f2, f3, -⟩ := simStart_shape hw.unique (fun p d hp => (hw.deg p d hp).shapes) g1
    obtain ⟨f4, f5⟩ := runSteps_shape hw.unique (fun p d hp => (hw.deg p d hp).unique)
      (fun p d hp => (hw.deg p d hp).shapes) (sr := (si, ri)) (sr' := (s, r1)) f1 g2
    simp only at f4 f5
    obtain ⟨k', _, b1, -⟩ := f4.count "riverbed_level" (.deg riverPrm) rfl
    have hold := f4.deg _ _ k' (show riverDev.prms.get? "riverbed_level" = some (.deg riverPrm) from rfl) b1
    obtain ⟨mv', j1, -, j3⟩ := hold.mech
    rw [k5] at j1
    cases j1
    have hj := j3 _ _ (Dict.mem_of_get? hea)
    obtain ⟨a', j4, j5⟩ := hold.prm
    rw [k3] at j4
    cases j4
    have : k' = k := j5.2.2.symm.trans k4.2.2
    subst this
    rw [f5] at hj
    have e1 : ri.info.numLots = 1 := f2
    have e2 : ri.info.numChps = rivers := f3
    rw [e1, e2] at hj
    exact hj
  rw [← hinit, k1]
  refine ⟨fun c d => match ea.at' 0 c d with | .fin x => x | _ => 0, cur.at', s.elapsed, ys, u2, u3, ?_,
    g6, g7⟩
  intro c hc d hd
  have hd' : d < k := lt_of_lt_of_le hd g4
  obtain ⟨x, hx⟩ : IsFin (ia.at' 0 c d) := by
    obtain ⟨i1, i2, i3⟩ := k2
    exact hfi _ (Arr3.at_mem ia (by rw [i1]; exact Nat.one_pos) (by rw [i2]; exact hc) (by rw [i3]; exact hd'))
  obtain ⟨z, hz0, hz⟩ : NonNeg (ea.at' 0 c d) := by
    obtain ⟨i1, i2, i3⟩ := hed
    have := hfe _ (Arr3.at_mem ea (by rw [i1]; exact Nat.one_pos) (by rw [i2]; exact hc) (by rw [i3]; exact hd'))
    have hh : if ("erosion" : String) = "time" ∨ ("erosion" : String) = "erosion" then
      NonNeg (ea.at' 0 c d) else IsFin (ea.at' 0 c d) := this
    rwa [if_pos (.inr rfl)] at hh
  have hmi : mv.get? "init" = none := (Dict.get?_eq_none_iff _ _).2 (by rw [k6]; simp [riverPrm, Dict.keys])
  have hmc : mv.get? "cond" = none := (Dict.get?_eq_none_iff _ _).2 (by rw [k6]; simp [riverPrm, Dict.keys])
  rw [k8 0 Nat.one_pos c hc d hd']
  show 0 ≤ _ ∧ add (sub (prmNames _ _ _ _ "init") (prmNames _ _ _ _ "erosion")) (prmNames _ _ _ _ "cond") = _
  simp only [prmNames, hmi, hmc, hea, Option.map_some, Option.map_none, if_true, String.reduceEq, if_false]
  rw [hx, hz]
  exact ⟨hz0, UnitLaws.add_zero _⟩

end erosion

theorem counts_normals : FiniteNormals Counts ℝ := fun i mu sigma n w _ =>
  ⟨(List.range n).map fun j => (((100 * i + w.next i + j : Nat) : ℚ) : ℝ), _, by
    show (_, _) = (_, _)
    rw [List.map_map]
    rfl⟩

/-- The ten years of the demonstration, with the counting generators. -/
example (ord : SetOrder) : ∃ r w',
    simulate ord (riverSteps 10 5 10) (riverDev : DeviceMdl Counts (Ext ℝ)) riverWorld none Counts.start =
      (.ok r, w') ∧ ∃ init : Nat → Nat → ℝ, ∀ y ≤ 10, ∃ (erosion : Nat → Nat → ℝ)
      (level : Nat → Nat → Nat → Ext ℝ), ∀ c < 5, ∀ d < 10,
        0 ≤ erosion c d ∧ level 0 c d = .fin (init c d - erosion c d) := by
  obtain ⟨test, dev, env, h1, h2, h3, r, w', h4, -⟩ :=
    C64_run counts_normals ord 10 5 (years := 10) (fuel := 11) (by norm_num) (by norm_num) (by norm_num)
      Counts.start
  rw [riverTest_eq 10 5 (by norm_num) (by norm_num) (by norm_num)] at h1
  rw [riverDevice_eq] at h2
  rw [riverEnv_eq] at h3
  cases h1
  cases h2
  cases h3
  obtain ⟨init, h5⟩ := C64_level counts_normals h4
  refine ⟨r, w', h4, init, fun y hy => ?_⟩
  obtain ⟨erosion, level, _, _, _, _, h6, -⟩ := h5 y hy
  exact ⟨erosion, level, h6⟩

end Gerabaldi.Props
