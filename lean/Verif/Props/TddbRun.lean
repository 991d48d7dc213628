import Verif.Props.Tddb

/-!
# C66: the simulation of `demos/vts_paper_tddb_model_sensitivity.py` runs
-/

namespace Gerabaldi.Props

open Gerabaldi Gerabaldi.Spec

section run
variable {K : Type} [Field K] [LinearOrder K] [IsStrictOrderedRing K] [FloorRing K] [Pow10 K]
variable [PyTrans (Ext K)]
variable {W : Type} [Rng W (Ext K)]
open PyArith

/-- The random variables of the demonstration can be sampled. -/
structure TddbDraws (W K : Type) [Field K] [LinearOrder K] [Rng W (Ext K)] : Prop where
  normal : ∀ i (mu : ℚ) {sigma : ℚ}, 0 ≤ sigma → DrawsWork W (normalVar i mu sigma : RVar (Ext K))
  gamma : DrawsWork W (⟨11, .gamma (ofRat 2) (ofRat 1), none⟩ : RVar (Ext K))
  uniform : DrawsWork W (⟨20, .uniform (ofRat 0) (ofRat 1), none⟩ : RVar (Ext K))

/-- The mechanism, as the device has it. -/
def tddbMech (c thermal : ℚ) (name : String) : MechMdl W (Ext K) where
  kind := .fail
  obj := 0
  unitary := ofRat 0
  timeUnit := some "hours"
  mdl :=
    { compute := defectFn
      latentVars := nameLatents [("c", constLatent (ofRat c)), ("t_diel", constLatent (ofRat 3)),
        ("bond_strength", constLatent (ofRat 200)), ("thermal_dist", constLatent (ofRat thermal))]
      name := some name }

/-- The parameter, as the device has it. -/
def tddbPrm (c thermal : ℚ) : DegPrmMdl W (Ext K) where
  initMdl := initValMk none none [("init_val", constLatent (ofRat 1))]
  condMdl := (condShiftMk none none (ofRat 0) []).1
  condUnitary := ofRat 0
  mechs := defectNames.map fun n => (n, tddbMech c thermal n)
  mdl := { compute := oxideFn, name := some "tddb"
           latentVars := nameLatents [("threshold", constLatent (ofRat (1 / 2)))] }
  timeUnit := some "hours"

/-- The device. -/
def tddbDev (c thermal : ℚ) : DeviceMdl W (Ext K) where
  prms := [("tddb", .deg (tddbPrm c thermal))]

/-- The environment. -/
def tddbWorld : PhysTestEnv (Ext K) := (tddbEnv (V := Ext K)).toOption.get rfl

omit [IsStrictOrderedRing K] in
theorem tddbMech_eq (c thermal : ℚ) : (defectMech c thermal : Except Err (MechMdl W (Ext K))) =
    .ok (MechMdl.mk' .fail 0 (some defectFn) none (ofRat 0) none
      [("c", constLatent (ofRat c)), ("t_diel", constLatent (ofRat 3)),
        ("bond_strength", constLatent (ofRat 200)), ("thermal_dist", constLatent (ofRat thermal))]) := by
  unfold defectMech fixedLatent
  simp only [riverConst_eq]
  rfl

omit [IsStrictOrderedRing K] in
theorem tddbDevice_eq (c thermal : ℚ) : (tddbDevice c thermal : Except Err (DeviceMdl W (Ext K))) =
    .ok (tddbDev c thermal) := by
  unfold tddbDevice
  rw [tddbMech_eq]
  unfold fixedLatent
  simp only [riverConst_eq]
  rfl

omit [IsStrictOrderedRing K] [PyTrans (Ext K)] [Rng W (Ext K)] in
theorem tddbEnv_eq : (tddbEnv : Except Err (PhysTestEnv (Ext K))) = .ok tddbWorld := rfl

omit [IsStrictOrderedRing K] in
theorem tddbDev_get {c thermal : ℚ} {p : String} {m : PrmMdl W (Ext K)}
    (h : (tddbDev c thermal : DeviceMdl W (Ext K)).prms.get? p = some m) :
    p = "tddb" ∧ m = .deg (tddbPrm c thermal) := by
  cases List.mem_singleton.1 (Dict.mem_of_get? h)
  exact ⟨rfl, rfl⟩

omit [IsStrictOrderedRing K] in
theorem tddb_mech_mem {c thermal : ℚ} {k : String} {m : MechMdl W (Ext K)}
    (h : (k, m) ∈ (tddbPrm c thermal : DegPrmMdl W (Ext K)).mechs) : k ∈ defectNames ∧ m = tddbMech c thermal k := by
  obtain ⟨n, hn, e⟩ := List.mem_map.1 h
  cases e
  exact ⟨hn, rfl⟩

omit [IsStrictOrderedRing K] in
theorem tddb_keys (c thermal : ℚ) : (tddbPrm c thermal : DegPrmMdl W (Ext K)).mechs.keys = defectNames := by
  simp [tddbPrm, Dict.keys, Function.comp_def]

omit [FloorRing K] [Pow10 K] [IsStrictOrderedRing K] [PyTrans (Ext K)] in
theorem constLatent_draws [FloorRing K] [Pow10 K] (v : Ext K) (k : String) (n C L : Nat) (w : W) :
    ∃ x w', ((constLatent v : LatentVar (Ext K)).setName (some k)).genLatentVals n C L w = (.ok x, w') :=
  ⟨_, w, genLatentVals_run ((constLatent v : LatentVar (Ext K)).setName (some k))
    (lotS := List.replicate L (PyArith.ofRat 1)) rfl rfl rfl (by simp) (by simp) (by simp)⟩

omit [IsStrictOrderedRing K] in
theorem tddbMech_latents {c thermal : ℚ} {n k : String} {lv : LatentVar (Ext K)}
    (h : (k, lv) ∈ (tddbMech c thermal n : MechMdl W (Ext K)).mdl.latentVars) :
    ∃ q : ℚ, k ∈ ["c", "t_diel", "bond_strength", "thermal_dist"] ∧
      lv = (constLatent (ofRat q) : LatentVar (Ext K)).setName (some k) := by
  have h : (k, lv) ∈ [("c", (constLatent (ofRat c) : LatentVar (Ext K)).setName (some "c")),
    ("t_diel", (constLatent (ofRat 3)).setName (some "t_diel")),
    ("bond_strength", (constLatent (ofRat 200)).setName (some "bond_strength")),
    ("thermal_dist", (constLatent (ofRat thermal)).setName (some "thermal_dist"))] := h
  simp only [List.mem_cons, List.not_mem_nil, or_false] at h
  rcases h with h | h | h | h <;> cases h <;> exact ⟨_, by simp, rfl⟩

omit [IsStrictOrderedRing K] in
theorem tddbDev_works [LawfulRng W (Ext K)] (h : TddbDraws W K) (c thermal : ℚ) :
    DeviceWorks (tddbDev c thermal : DeviceMdl W (Ext K)) (· ≠ 1) where
  unique := List.nodup_singleton _
  deg := by
    intro p d hp
    obtain ⟨rfl, hd⟩ := tddbDev_get hp
    cases hd
    have hkeys := tddb_keys (W := W) (K := K) c thermal
    refine
      { shapes := ⟨argEqn_shapes _, ?_, by simp [tddbPrm, initValMk, nameLatents],
          constEqn_shapes _, ?_, oxide_shapes (by rw [hkeys]; decide)⟩
        unique := ?_
        mechs := ?_
        condName := by rw [hkeys]; decide
        ownNames := ?_
        initDraws := ?_
        initEqn := argEqn_direct _
        initArgs := ?_
        initTakes := ?_
        condDraws := fun k lv h => (by cases h)
        condEqn := direct_works (constEqn_direct _)
        condPlain := ?_
        draws := ?_
        eqn := oxide_works
        args := ?_
        takes := ?_ }
    · rw [hkeys]; decide
    · intro k m hk
      rw [(tddb_mech_mem hk).2]
      exact defect_shapes
    · show (Dict.keys _).Nodup
      rw [hkeys]
      decide
    · intro k m hm
      rw [(tddb_mech_mem hm).2]
      refine ⟨by simp [tddbMech], by simp [tddbMech, timeUnitMap], ?_, defect_works h.uniform,
        .inr ⟨false, List.mem_cons_self⟩⟩
      intro k lv hk n C L w
      obtain ⟨q, -, rfl⟩ := tddbMech_latents hk
      exact constLatent_draws _ _ n C L w
    · intro k hk
      cases List.mem_singleton.1 hk
      rw [hkeys]
      show "threshold" ≠ "cond" ∧ "threshold" ∉ defectNames
      decide
    · intro k lv hk n C L w
      cases List.mem_singleton.1 hk
      exact constLatent_draws _ _ n C L w
    · intro p hp
      cases List.mem_singleton.1 hp
      exact List.mem_singleton.2 rfl
    · intro k hk
      cases List.mem_singleton.1 hk
      exact .inr ⟨false, List.mem_singleton.2 rfl⟩
    · intro args w w' v h
      have := (invoke_ok h).2
      cases this
    · intro k lv hk n C L w
      cases List.mem_singleton.1 hk
      exact constLatent_draws _ _ n C L w
    · intro p hp
      rw [hkeys]
      have hp : (p, false) ∈ oxideParams.map fun p => (p, false) := hp
      simp only [List.mem_map, Prod.mk.injEq, and_true, exists_eq_right] at hp
      simp only [oxideParams, List.mem_cons] at hp
      show p ∈ "init" :: "cond" :: (defectNames ++ ["threshold"])
      simp only [List.mem_cons, List.mem_append, List.not_mem_nil, or_false]
      tauto
    · intro k hk
      rw [hkeys] at hk
      refine .inr ⟨false, List.mem_map.2 ⟨k, ?_, rfl⟩⟩
      simp only [oxideParams, List.mem_cons] at hk ⊢
      tauto
  circ := by
    intro p c hp
    obtain ⟨rfl, h⟩ := tddbDev_get hp
    cases h

omit [IsStrictOrderedRing K] [PyTrans (Ext K)] in
theorem tddbWorld_vars (k : String) : (tddbWorld : PhysTestEnv (Ext K)).vrtnMdl k =
    if k = "temp" ∨ k = "v_g" then (tddbWorld : PhysTestEnv (Ext K)).vrtnMdl k else EnvVrtnMdl.ideal := by
  by_cases h : k = "temp" ∨ k = "v_g"
  · rw [if_pos h]
  · rw [if_neg h]
    have : (tddbWorld : PhysTestEnv (Ext K)).vars.get? k = none := by
      refine (Dict.get?_eq_none_iff _ _).2 fun hk => h ?_
      have hk : k ∈ ["temp", "v_g"] := hk
      simpa using hk
    unfold PhysTestEnv.vrtnMdl
    rw [this]
    rfl

omit [FloorRing K] [Pow10 K] [IsStrictOrderedRing K] [PyTrans (Ext K)] in
theorem fixed_draws (v : Ext K) : DrawsWork W (detUnit v : RVar (Ext K)) := fun _ w => ⟨_, w, rfl⟩

omit [IsStrictOrderedRing K] [PyTrans (Ext K)] in
theorem tddbWorld_draws (h : TddbDraws W K) : EnvDraws W (tddbWorld : PhysTestEnv (Ext K)) := by
  intro k
  rw [tddbWorld_vars]
  split
  · rename_i hk
    rcases hk with rfl | rfl
    · exact ⟨fixed_draws _, h.normal 12 0 (by norm_num), h.gamma⟩
    · exact ⟨fixed_draws _, h.normal 14 0 (by norm_num), h.normal 13 0 (by norm_num)⟩
  · exact ⟨fun n w => ⟨_, w, rfl⟩, fun n w => ⟨_, w, rfl⟩, fun n w => ⟨_, w, rfl⟩⟩

/-- One hour in microseconds. -/
def hourUs : Int := 3600000000

/-- One of the loads. -/
def tddbLoad (temp vg : ℚ) (hours : Int) (name : String) : StrsSpec (Ext K) :=
  ⟨[("temp", ofRat temp), ("v_g", ofRat vg)], .td (hours * hourUs), name⟩

/-- The steps of one week. -/
def tddbWeek (samples : Nat) : List (Step (Ext K)) :=
  [.strs (tddbLoad (33815 / 100) (9 / 10) 30 "Moderate Loading"),
    .strs (tddbLoad (36115 / 100) (92 / 100) 16 "Heavy Loading"),
    .strs (tddbLoad (30315 / 100) (87 / 100) 122 "Idle State"), .meas (tddbMeas samples)]

/-- The test. -/
def tddbSteps (samples weeks : Nat) : TestSpec (Ext K) where
  steps := .meas (tddbMeas samples) :: copies weeks (tddbWeek samples)
  name := "Field Use Sim"

omit [IsStrictOrderedRing K] [PyTrans (Ext K)] in
theorem tddbUse_eq (temp vg : ℚ) {hours : Int} (h0 : 0 < hours) (h : hours ≤ 1000) (name : String) :
    tddbUse temp vg hours name = .ok (tddbLoad temp vg hours name : StrsSpec (Ext K)) := by
  have h : tdOfNum .hours hours = .ok (hours * hourUs) := tdOfNum_hours hours h0.le (by omega)
  unfold tddbUse StrsSpec.mk' convertTime
  simp only [timeUnitMap]
  simp [h, tddbLoad]
  exact ⟨h0.ne', by decide⟩

omit [IsStrictOrderedRing K] [PyTrans (Ext K)] in
theorem tddbTest_eq (samples : Nat) {weeks fuel : Nat} (hy : 0 < weeks) (hmax : weeks ≤ 1000000)
    (hf : weeks < fuel) :
    tddbTest fuel samples weeks = some (.ok (tddbSteps samples weeks : TestSpec (Ext K))) := by
  have hh : hourUs = 3600000000 := rfl
  have hD : denotes (.num (168 * weeks)) (some "h") (weeks * (168 * hourUs)) := by
    refine .inr ⟨_, rfl, ?_⟩
    have := tdOfNum_hours (168 * weeks) (by positivity) (by omega)
    unfold convertTime
    simp only [timeUnitMap]
    have e : ((168 * weeks : Int) : ℚ) = (168 * weeks : ℚ) := by push_cast; ring
    have e2 : (168 * weeks : Int) * 3600000000 = weeks * (168 * hourUs) := by
      rw [hh]
      ring
    rw [e, e2] at this
    simp only [String.reduceEq, if_false, if_true, this]
  have hst : stressTime (tddbWeek samples : List (Step (Ext K))) = 168 * hourUs := rfl
  have hab : absStressTime (tddbWeek samples : List (Step (Ext K))) = 168 * hourUs := rfl
  obtain ⟨n, h1, h2, h3⟩ := looped_append_outcome hD (by rw [hh]; positivity) (l := tddbWeek samples)
    (by
      intro st h
      have : st = tddbLoad (33815 / 100) (9 / 10) 30 "Moderate Loading" ∨
          st = tddbLoad (36115 / 100) (92 / 100) 16 "Heavy Loading" ∨
          st = tddbLoad (30315 / 100) (87 / 100) 122 "Idle State" := by simpa [tddbWeek] using h
      rcases this with rfl | rfl | rfl <;> exact ⟨_, rfl⟩)
    (by rw [hst, hh]; norm_num) (by rw [hab, hh]; omega) [.meas (tddbMeas (V := Ext K) samples)]
  have hn : n = weeks := by
    rw [hst, hh] at h1 h2
    omega
  subst hn
  have h3 := h3 fuel hf
  rw [hst, Int.emod_self, if_pos rfl] at h3
  unfold tddbTest
  have e1 := tddbUse_eq (K := K) (33815 / 100) (9 / 10) (hours := 30) (by norm_num) (by norm_num) "Moderate Loading"
  have e2 := tddbUse_eq (K := K) (36115 / 100) (92 / 100) (hours := 16) (by norm_num) (by norm_num) "Heavy Loading"
  have e3 := tddbUse_eq (K := K) (30315 / 100) (87 / 100) (hours := 122) (by norm_num) (by norm_num) "Idle State"
  push_cast at e1 e2 e3
  rw [e1, e2, e3]
  simp only
  unfold tddbWeek at h3
  rw [h3]
  rfl

omit [IsStrictOrderedRing K] [PyTrans (Ext K)] in
theorem tddbTimes (samples : Nat) (weeks : Nat) {t : Int} (h0 : 0 ≤ t)
    (hmax : t + weeks * (168 * hourUs) ≤ 86399999913600000000) :
    TimesFit t (copies weeks (tddbWeek samples : List (Step (Ext K)))) := by
  have hq : hourUs = 3600000000 := rfl
  induction weeks generalizing t with
  | zero =>
    show tdValid t
    unfold tdValid tdMin tdMax
    constructor <;> omega
  | succ weeks ih =>
    have e : copies (weeks + 1) (tddbWeek samples : List (Step (Ext K))) =
        tddbWeek samples ++ copies weeks (tddbWeek samples) := by
      simp [copies, List.replicate_succ]
    rw [e]
    rw [hq] at hmax
    have hv : ∀ u : Int, 0 ≤ u → u ≤ t + 168 * hourUs → tdValid u := by
      intro u hu hu'
      rw [hq] at hu'
      unfold tdValid tdMin tdMax
      constructor <;> push_cast at * <;> omega
    refine ⟨hv _ h0 (by omega), _, rfl, hv _ (by omega) (by omega), _, rfl, hv _ (by omega) (by omega), _, rfl, ?_⟩
    refine ih (by omega) ?_
    rw [hq]
    push_cast at *
    omega

omit [IsStrictOrderedRing K] [PyTrans (Ext K)] in
theorem tddb_mem {samples weeks : Nat} {x : Step (Ext K)}
    (h : x ∈ (tddbSteps samples weeks : TestSpec (Ext K)).steps) :
    x = .meas (tddbMeas samples) ∨ ∃ temp vg hours name, x = .strs (tddbLoad temp vg hours name) := by
  rcases List.mem_cons.1 h with h | h
  · exact .inl h
  · obtain ⟨l, h1, h2⟩ := List.mem_flatten.1 h
    rw [(List.mem_replicate.1 h1).2] at h2
    have : x = .strs (tddbLoad (33815 / 100) (9 / 10) 30 "Moderate Loading") ∨
        x = .strs (tddbLoad (36115 / 100) (92 / 100) 16 "Heavy Loading") ∨
        x = .strs (tddbLoad (30315 / 100) (87 / 100) 122 "Idle State") ∨ x = .meas (tddbMeas samples) := by
      simpa [tddbWeek] using h2
    rcases this with rfl | rfl | rfl | rfl
    · exact .inr ⟨_, _, _, _, rfl⟩
    · exact .inr ⟨_, _, _, _, rfl⟩
    · exact .inr ⟨_, _, _, _, rfl⟩
    · exact .inl rfl

omit [IsStrictOrderedRing K] in
theorem tddbTest_ok (c thermal : ℚ) (samples : Nat) {weeks : Nat} (hmax : weeks ≤ 1000000) :
    TestOk (tddbDev c thermal : DeviceMdl W (Ext K)) tddbWorld (tddbSteps samples weeks) where
  stress := by
    intro st hst p d k m hp hm
    rcases tddb_mem hst with hst | ⟨temp, vg, hours, name, hst⟩
    · cases hst
    cases hst
    obtain ⟨rfl, hd⟩ := tddbDev_get hp
    cases hd
    rw [(tddb_mech_mem hm).2]
    intro q hq
    have hq : (q, false) ∈ defectParams.map fun p => (p, false) := hq
    show q ∈ "time" :: ["c", "t_diel", "bond_strength", "thermal_dist"] ++ ["temp", "v_g"]
    simp only [List.mem_map, Prod.mk.injEq, and_true, exists_eq_right, defectParams, List.mem_cons,
      List.not_mem_nil, or_false] at hq
    simp only [List.mem_append, List.mem_cons, List.not_mem_nil, or_false]
    tauto
  measure := by
    intro m hm
    rcases tddb_mem hm with hm | ⟨temp, vg, hours, name, hm⟩
    swap
    · cases hm
    cases hm
    refine ⟨List.nodup_singleton _, fun p hp => .inl hp, fun p hp => ?_, ?_, ?_, ?_⟩
    · cases List.mem_singleton.1 hp
      exact ⟨_, rfl, fun xs w _ => ⟨_, w, rfl⟩⟩
    · intro p d hp hd
      obtain ⟨rfl, h⟩ := tddbDev_get hd
      cases h
      exact fun q hq => (by cases hq)
    · intro p c hp hc
      obtain ⟨rfl, h⟩ := tddbDev_get hc
      cases h
    · intro p c hp hc
      obtain ⟨rfl, h⟩ := tddbDev_get hc
      cases h
  all := by
    intro p hp
    cases List.mem_singleton.1 hp
    exact ⟨"tddb", samples, ⟨tddbMeas samples, List.mem_cons_self, List.mem_singleton.2 rfl⟩, .inl rfl⟩
  tied := by
    intro c m n hc
    obtain ⟨rfl, h⟩ := tddbDev_get hc
    cases h
  times := tddbTimes samples weeks le_rfl (by
    have : hourUs = 3600000000 := rfl
    rw [this]
    omega)

omit [IsStrictOrderedRing K] [PyTrans (Ext K)] in
theorem tddb_sizes {samples : Nat} (hs : samples ≠ 1) (weeks : Nat) :
    TestSizes (· ≠ 1) (tddbSteps samples weeks : TestSpec (Ext K)) := by
  rintro p n ⟨m, hm, hp⟩
  rcases tddb_mem hm with hm | ⟨temp, vg, hours, name, hm⟩
  · cases hm
    cases List.mem_singleton.1 hp
    show 1 * 1 * samples ≠ 1
    omega
  · cases hm

omit [IsStrictOrderedRing K] [PyTrans (Ext K)] in
/-- Step `4 * y` is the measurement after week `y`. -/
theorem tddb_split (samples : Nat) {y weeks : Nat} (hyy : y ≤ weeks) :
    ∃ pre post, (tddbSteps samples weeks : TestSpec (Ext K)).steps =
      pre ++ .meas (tddbMeas samples) :: post ∧ pre.length = 4 * y := by
  cases y with
  | zero => exact ⟨[], _, rfl, rfl⟩
  | succ y =>
    obtain ⟨z, rfl⟩ := Nat.exists_eq_add_of_le hyy
    refine ⟨.meas (tddbMeas samples) :: (copies y (tddbWeek samples) ++ (tddbWeek samples).take 3),
      copies z (tddbWeek samples), ?_, ?_⟩
    · have e : copies (y + 1 + z) (tddbWeek samples : List (Step (Ext K))) =
          copies y (tddbWeek samples) ++ (tddbWeek samples ++ copies z (tddbWeek samples)) := by
        simp [copies, List.replicate_add, List.replicate_succ']
      show _ :: copies (y + 1 + z) (tddbWeek samples) = _
      rw [e]
      simp [tddbWeek]
    · simp [copies, tddbWeek]
      omega

/-- The value is 0 or 1. -/
def Bit (x : Ext K) : Prop := x = ofRat 0 ∨ x = ofRat 1

/-- The defects, the states of the oxides and their readings are 0 or 1, the threshold is a half. -/
def tddbRanges : Ranges (Ext K) where
  arg := fun _ k x => if k ∈ defectNames ∨ k = "init" then Bit x else
    if k = "threshold" then x = ofRat (1 / 2) else if k = "init_val" then x = ofRat 1 else True
  val := fun _ => Bit
  read := fun _ => Bit
  num := IsFin

omit [FloorRing K] [Pow10 K] [IsStrictOrderedRing K] [PyTrans (Ext K)] in
theorem tddb_bit {p k : String} {x : Ext K} (hk : k ∈ defectNames ∨ k = "init") :
    tddbRanges.arg p k x ↔ Bit x := by
  show (if _ then _ else _) ↔ _
  rw [if_pos hk]

omit [FloorRing K] [Pow10 K] [IsStrictOrderedRing K] [PyTrans (Ext K)] in
theorem tddb_free {p k : String} {x : Ext K} (h1 : k ∉ defectNames) (h2 : k ≠ "init") (h3 : k ≠ "threshold")
    (h4 : k ≠ "init_val") : tddbRanges.arg p k x := by
  show if _ then _ else _
  rw [if_neg (by tauto), if_neg h3, if_neg h4]
  trivial

omit [PyTrans (Ext K)] in
theorem constLatent_value {v : Ext K} {k : String} {n C L : Nat} {w w' : W} {a : Arr3 (Ext K)}
    (h : ((constLatent v : LatentVar (Ext K)).setName (some k)).genLatentVals n C L w = (.ok a, w')) :
    ArrIn (· = v) a := by
  have hr := genLatentVals_run ((constLatent v : LatentVar (Ext K)).setName (some k)) (L := L) (C := C) (D := n)
    (w := w) (lotS := List.replicate L (PyArith.ofRat 1)) rfl rfl rfl (by simp) (by simp) (by simp)
  cases hr.symm.trans h
  refine ArrIn.ofFn fun l hl c hc d hd => ?_
  have i1 : l * C + c < L * C := by nlinarith
  have i2 : (l * C + c) * n + d < L * C * n := by nlinarith
  show mul (mul (mul v ((List.replicate _ (ofRat 1)).getD _ default))
    ((List.replicate _ (ofRat 1)).getD _ default)) ((List.replicate _ (ofRat 1)).getD _ default) = v
  rw [List.getD_eq_getElem _ _ (by simpa using i2), List.getD_eq_getElem _ _ (by simpa using i1),
    List.getD_eq_getElem _ _ (by simpa using hl), List.getElem_replicate, List.getElem_replicate,
    List.getElem_replicate, UnitLaws.mul_one, UnitLaws.mul_one, UnitLaws.mul_one]

omit [FloorRing K] [Pow10 K] [IsStrictOrderedRing K] [PyTrans (Ext K)] in
theorem bit_in {v : PyVal (Ext K)} (h : v = .scal (ofRat 0) ∨ v = .scal (ofRat 1)) : ValIn Bit v := by
  rcases h with rfl | rfl
  · exact .inl rfl
  · exact .inr rfl

omit [Field K] [LinearOrder K] [IsStrictOrderedRing K] [FloorRing K] [Pow10 K] [PyTrans (Ext K)] in
theorem except_bind {α β : Type} {x : Except Err α} {f : α → Except Err β} {b : β} (h : (x >>= f) = .ok b) :
    ∃ a, x = .ok a ∧ f a = .ok b := by
  cases x with
  | ok a => exact ⟨a, rfl, h⟩
  | error e => cases h

omit [IsStrictOrderedRing K] [PyTrans (Ext K)] in
theorem oxideVal_bit {args : Dict (PyVal (Ext K))} {v : PyVal (Ext K)} (h : oxideVal args = .ok v) :
    ValIn Bit v := by
  unfold oxideVal at h
  obtain ⟨_, -, h⟩ := except_bind h
  obtain ⟨_, -, h⟩ := except_bind h
  obtain ⟨_, -, h⟩ := except_bind h
  obtain ⟨_, -, h⟩ := except_bind h
  split at h
  · cases h
    exact .inl rfl
  · obtain ⟨_, -, h⟩ := except_bind h
    cases h
    refine bit_in ?_
    split
    · exact .inl rfl
    · exact .inr rfl

theorem tddbDev_in (c thermal : ℚ) : DeviceIn tddbRanges (tddbDev c thermal : DeviceMdl W (Ext K)) where
  deg := by
    intro p d hp
    cases List.mem_singleton.1 hp
    refine ⟨?_, fun k m hm => ?_, ?_, ?_, fun x hx => (tddb_bit (.inr rfl)).2 hx, fun k lv h => (by cases h), ?_,
      tddb_free (by decide) (by decide) (by decide) (by decide), ?_, ?_⟩
    · show (Dict.keys _).Nodup
      rw [tddb_keys]
      decide
    · obtain ⟨hk, rfl⟩ := tddb_mech_mem hm
      refine ⟨?_, ?_, (tddb_bit (.inl hk)).2 (.inl rfl), fun h => (nomatch h), fun h => (nomatch h)⟩
      · intro j lv hj n C L w a w' _ x _
        obtain ⟨q, hj, -⟩ := tddbMech_latents hj
        have : j ∉ defectNames ∧ j ≠ "init" ∧ j ≠ "threshold" ∧ j ≠ "init_val" := by
          simp only [List.mem_cons, List.not_mem_nil, or_false] at hj
          rcases hj with rfl | rfl | rfl | rfl <;> decide
        exact tddb_free this.1 this.2.1 this.2.2.1 this.2.2.2
      · intro args w r w' _ h
        exact (bit_in (defectFn_bit h)).mono fun x hx => (tddb_bit (.inl hk)).2 hx
    · intro k lv hk n C L w a w' ha
      cases List.mem_singleton.1 hk
      intro x hx
      exact constLatent_value ha x hx
    · intro args w r w' ha hr
      refine (ha.get (Dict.getE_eq_ok.1 (M.ofExcept_eq_ok.1 hr).1)).mono fun x hx => .inr hx
    · intro args w r w' ha hr
      cases hr
      exact tddb_free (by decide) (by decide) (by decide) (by decide)
    · intro k lv hk n C L w a w' ha
      cases List.mem_singleton.1 hk
      intro x hx
      exact constLatent_value ha x hx
    · intro args w r w' _ h
      exact oxideVal_bit (M.ofExcept_eq_ok.1 h).1
  circ := by
    intro p c hp
    cases List.mem_singleton.1 hp

omit [IsStrictOrderedRing K] [PyTrans (Ext K)] in
theorem tddb_vrtn (p k : String) (hk : k ∈ ["temp", "v_g"]) :
    VrtnIn W (tddbRanges.arg p k) ((tddbWorld : PhysTestEnv (Ext K)).vrtnMdl k) := by
  have : ∀ x : Ext K, tddbRanges.arg p k x := by
    intro x
    have : k ∉ defectNames ∧ k ≠ "init" ∧ k ≠ "threshold" ∧ k ≠ "init_val" := by
      simp only [List.mem_cons, List.not_mem_nil, or_false] at hk
      rcases hk with rfl | rfl <;> decide
    exact tddb_free this.1 this.2.1 this.2.2.1 this.2.2.2
  exact ⟨fun x y _ _ => this _, fun _ _ _ _ _ _ _ => this _, fun _ _ _ _ _ _ _ => this _,
    fun _ _ _ _ _ _ _ => this _⟩

omit [FloorRing K] [Pow10 K] [IsStrictOrderedRing K] [PyTrans (Ext K)] in
theorem tddb_base (p : String) (x y : Ext K) :
    EveryEntry (fun k v => tddbRanges.arg p k v) [("temp", x), ("v_g", y)] := by
  intro k v hk
  simp only [List.mem_cons, List.not_mem_nil, or_false] at hk
  rcases hk with hk | hk <;> cases hk <;> exact tddb_free (by decide) (by decide) (by decide) (by decide)

omit [IsStrictOrderedRing K] in
theorem tddbSteps_in (c thermal : ℚ) (ord : SetOrder) (samples weeks : Nat) :
    StepsIn tddbRanges ord (tddbDev c thermal : DeviceMdl W (Ext K)) tddbWorld
      (tddbSteps samples weeks : TestSpec (Ext K)).steps where
  stress := by
    intro st hst
    rcases tddb_mem hst with hst | ⟨temp, vg, hours, name, hst⟩
    · cases hst
    cases hst
    refine ⟨fun q w conds w' hc => conds_in_of (F := tddbRanges.arg "tddb") (base := [("temp", _), ("v_g", _)]) (fun k hk => tddb_vrtn _ k hk)
      (tddb_base _ _ _) hc, ?_⟩
    intro p d hp k m hm q hq
    cases List.mem_singleton.1 hp
    obtain ⟨hk, rfl⟩ := tddb_mech_mem hm
    exact ⟨fun h => (nomatch h), fun _ => tddb_free (by decide) (by decide) (by decide) (by decide)⟩
  measure := by
    intro m hm
    rcases tddb_mem hm with hm | ⟨temp, vg, hours, name, hm⟩
    swap
    · cases hm
    cases hm
    refine ⟨fun q w conds w' hc => conds_in_of (F := tddbRanges.arg "tddb") (base := [("temp", _), ("v_g", _)]) (fun k hk => tddb_vrtn _ k hk)
      (tddb_base _ _ _) hc, fun p hp hn => absurd hp hn, ?_⟩
    intro p hp ins hi xs w ys w' hx hy
    cases List.mem_singleton.1 hp
    cases hi
    cases hy
    exact hx

end run

end Gerabaldi.Props
