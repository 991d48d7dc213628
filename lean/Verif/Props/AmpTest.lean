import Verif.Props.AmpDev

/-!
# C68: the tests of `demos/vts_paper_presilicon_variability.py`
-/

namespace Gerabaldi.Props

open Gerabaldi Gerabaldi.Spec

section
variable {K : Type} [Field K] [LinearOrder K] [IsStrictOrderedRing K] [FloorRing K] [Pow10 K]
variable [PyTrans (Ext K)]
variable {W : Type} [Rng W (Ext K)]
open PyArith

/-- A stress step. -/
def ampLoad (temp vdd : ℚ) (hours : Int) (name : String) : StrsSpec (Ext K) :=
  ⟨[("temp", ofRat temp), ("vdd", ofRat vdd)], .td (hours * hourUs), name⟩

/-- One interval of the high and low temperature tests. -/
def loopCycle (n : Nat) (celsius : ℚ) (stress : String) : List (Step (Ext K)) :=
  [.strs (ampLoad (celsius + 27315 / 100) (92 / 100) 50 stress), .meas (ampMeas n)]

/-- The high and low temperature tests. -/
def loopSteps (n chps lots cycles : Nat) (celsius : ℚ) (stress test : String) : TestSpec (Ext K) where
  steps := .meas (ampMeas n) :: copies cycles (loopCycle n celsius stress)
  numChps := chps
  numLots := lots
  name := test

/-- One cycle of the ramp test. -/
def rampCycle (n i : Nat) : List (Step (Ext K)) :=
  [.strs (ampLoad (100 + 10 * i + 27315 / 100) (88 / 100 + 2 / 100 * i) 90 (s!"Ramp Cycle Stress {i + 1}")),
    .meas (ampMeas n), .strs (ampLoad (30315 / 100) (86 / 100) 10 "Ramp Cycle Relax"), .meas (ampMeas n)]

/-- The ramp test. -/
def rampSteps (n chps lots cycles : Nat) : TestSpec (Ext K) where
  steps := .meas (ampMeas n) :: (List.range cycles).flatMap (rampCycle n)
  numChps := chps
  numLots := lots
  name := "Ramp to Failure Test"

omit [IsStrictOrderedRing K] [PyTrans (Ext K)] in
theorem ampUse_eq (temp vdd : ℚ) {hours : Int} (h0 : 0 < hours) (h : hours ≤ 1000) (name : String) :
    ampUse temp vdd hours name = .ok (ampLoad temp vdd hours name : StrsSpec (Ext K)) := by
  have h : tdOfNum .hours hours = .ok (hours * hourUs) := tdOfNum_hours hours h0.le (by omega)
  unfold ampUse StrsSpec.mk' convertTime
  simp only [timeUnitMap]
  simp [h, ampLoad]
  exact ⟨h0.ne', by decide⟩

omit [IsStrictOrderedRing K] [PyTrans (Ext K)] in
theorem ampLoopTest_eq (n chps lots : Nat) {cycles fuel : Nat} (hy : 0 < cycles) (hmax : cycles ≤ 1000000)
    (hf : cycles < fuel) (celsius : ℚ) (stress test : String) :
    ampLoopTest fuel n chps lots cycles celsius stress test =
      some (.ok (loopSteps n chps lots cycles celsius stress test : TestSpec (Ext K))) := by
  have hh : hourUs = 3600000000 := rfl
  have hD : denotes (.num (50 * cycles)) (some "h") (cycles * (50 * hourUs)) := by
    refine .inr ⟨_, rfl, ?_⟩
    have := tdOfNum_hours (50 * cycles) (by positivity) (by omega)
    unfold convertTime
    simp only [timeUnitMap]
    have e : ((50 * cycles : Int) : ℚ) = (50 * cycles : ℚ) := by push_cast; ring
    have e2 : (50 * cycles : Int) * 3600000000 = cycles * (50 * hourUs) := by
      rw [hh]
      ring
    rw [e, e2] at this
    simp only [String.reduceEq, if_false, if_true, this]
  have hst : stressTime (loopCycle n celsius stress : List (Step (Ext K))) = 50 * hourUs := rfl
  have hab : absStressTime (loopCycle n celsius stress : List (Step (Ext K))) = 50 * hourUs := rfl
  obtain ⟨m, h1, h2, h3⟩ := looped_append_outcome hD (by rw [hh]; positivity) (l := loopCycle n celsius stress)
    (by
      intro st h
      have : st = ampLoad (celsius + 27315 / 100) (92 / 100) 50 stress := by simpa [loopCycle] using h
      subst this
      exact ⟨_, rfl⟩)
    (by rw [hst, hh]; norm_num) (by rw [hab, hh]; omega) [.meas (ampMeas (V := Ext K) n)]
  have hn : m = cycles := by
    rw [hst, hh] at h1 h2
    omega
  subst hn
  have h3 := h3 fuel hf
  rw [hst, Int.emod_self, if_pos rfl] at h3
  unfold ampLoopTest
  have e1 := ampUse_eq (K := K) (celsius + 27315 / 100) (92 / 100) (hours := 50) (by norm_num) (by norm_num) stress
  push_cast at e1
  rw [e1]
  simp only
  unfold loopCycle at h3
  rw [h3]
  rfl

omit [IsStrictOrderedRing K] [PyTrans (Ext K)] in
theorem ampRamp_eq (n i k : Nat) (steps : List (Step (Ext K))) :
    ampRamp n (ampLoad (30315 / 100) (86 / 100) 10 "Ramp Cycle Relax") i k steps =
      .ok (steps ++ (List.range k).flatMap fun j => rampCycle n (i + j)) := by
  induction k generalizing i steps with
  | zero => simp [ampRamp]
  | succ k ih =>
    unfold ampRamp
    have e1 := ampUse_eq (K := K) (100 + 10 * i + 27315 / 100) (88 / 100 + 2 / 100 * i) (hours := 90)
      (by norm_num) (by norm_num) (s!"Ramp Cycle Stress {i + 1}")
    push_cast at e1
    rw [e1]
    have e2 : appendSteps 0 steps (.many (rampCycle n i : List (Step (Ext K)))) none none =
        some (.ok (), steps ++ rampCycle n i) := rfl
    unfold rampCycle at e2
    simp only
    rw [e2]
    simp only
    rw [ih, List.range_succ_eq_map, List.flatMap_cons, List.flatMap_map]
    congr 1
    rw [List.append_assoc]
    congr 2
    refine List.flatMap_congr fun j _ => ?_
    congr 1
    simp only [Nat.succ_eq_add_one]
    omega

omit [IsStrictOrderedRing K] [PyTrans (Ext K)] in
theorem ampRampTest_eq (n chps lots cycles : Nat) :
    ampRampTest n chps lots cycles = .ok (rampSteps n chps lots cycles : TestSpec (Ext K)) := by
  unfold ampRampTest
  have e1 := ampUse_eq (K := K) (30315 / 100) (86 / 100) (hours := 10) (by norm_num) (by norm_num) "Ramp Cycle Relax"
  push_cast at e1
  rw [e1]
  show (ampRamp n _ 0 cycles _ >>= _) = _
  rw [ampRamp_eq]
  simp only [Nat.zero_add]
  rfl

/-- The tests of the demonstration: measurements of the gain and stress steps. -/
structure AmpTest (n : Nat) (test : TestSpec (Ext K)) : Prop where
  steps : ∀ x ∈ test.steps, x = .meas (ampMeas n) ∨ ∃ temp vdd hours name, x = .strs (ampLoad temp vdd hours name)
  some : .meas (ampMeas n) ∈ test.steps
  times : TimesFit 0 test.steps

omit [IsStrictOrderedRing K] [PyTrans (Ext K)] in
theorem loopTimes (n : Nat) (celsius : ℚ) (stress : String) (cycles : Nat) {t : Int} (h0 : 0 ≤ t)
    (hmax : t + cycles * (50 * hourUs) ≤ 86399999913600000000) :
    TimesFit t (copies cycles (loopCycle n celsius stress : List (Step (Ext K)))) := by
  have hq : hourUs = 3600000000 := rfl
  induction cycles generalizing t with
  | zero =>
    show tdValid t
    unfold tdValid tdMin tdMax
    constructor <;> omega
  | succ cycles ih =>
    have e : copies (cycles + 1) (loopCycle n celsius stress : List (Step (Ext K))) =
        loopCycle n celsius stress ++ copies cycles (loopCycle n celsius stress) := by
      simp [copies, List.replicate_succ]
    rw [e]
    rw [hq] at hmax
    refine ⟨?_, _, rfl, ?_⟩
    · unfold tdValid tdMin tdMax
      constructor <;> push_cast at * <;> omega
    · refine ih (by omega) ?_
      rw [hq]
      push_cast at *
      omega

omit [IsStrictOrderedRing K] [PyTrans (Ext K)] in
theorem rampTimes (n i cycles : Nat) {t : Int} (h0 : 0 ≤ t)
    (hmax : t + cycles * (100 * hourUs) ≤ 86399999913600000000) :
    TimesFit t ((List.range cycles).flatMap fun j => (rampCycle n (i + j) : List (Step (Ext K)))) := by
  have hq : hourUs = 3600000000 := rfl
  induction cycles generalizing t i with
  | zero =>
    show tdValid t
    unfold tdValid tdMin tdMax
    constructor <;> omega
  | succ cycles ih =>
    have e : ((List.range (cycles + 1)).flatMap fun j => (rampCycle n (i + j) : List (Step (Ext K)))) =
        rampCycle n i ++ (List.range cycles).flatMap fun j => rampCycle n (i + 1 + j) := by
      rw [List.range_succ_eq_map, List.flatMap_cons, List.flatMap_map]
      congr 1
      refine List.flatMap_congr fun j _ => ?_
      congr 1
      simp only [Nat.succ_eq_add_one]
      omega
    rw [e]
    rw [hq] at hmax
    refine ⟨?_, _, rfl, ?_, _, rfl, ?_⟩
    · unfold tdValid tdMin tdMax
      constructor <;> push_cast at * <;> omega
    · unfold tdValid tdMin tdMax
      constructor <;> push_cast at * <;> omega
    · refine ih (i + 1) (by omega) ?_
      rw [hq]
      push_cast at *
      omega

omit [IsStrictOrderedRing K] [PyTrans (Ext K)] in
theorem loop_amp (n chps lots : Nat) {cycles : Nat} (hmax : cycles ≤ 1000000) (celsius : ℚ) (stress test : String) :
    AmpTest n (loopSteps n chps lots cycles celsius stress test : TestSpec (Ext K)) where
  steps := by
    intro x hx
    rcases List.mem_cons.1 hx with h | h
    · exact .inl h
    · obtain ⟨l, h1, h2⟩ := List.mem_flatten.1 h
      rw [(List.mem_replicate.1 h1).2] at h2
      simp only [loopCycle, List.mem_cons, List.not_mem_nil, or_false] at h2
      rcases h2 with rfl | rfl
      · exact .inr ⟨_, _, _, _, rfl⟩
      · exact .inl rfl
  some := List.mem_cons_self
  times := loopTimes n celsius stress cycles le_rfl (by
    have : hourUs = 3600000000 := rfl
    rw [this]
    omega)

omit [IsStrictOrderedRing K] [PyTrans (Ext K)] in
theorem ramp_amp (n chps lots : Nat) {cycles : Nat} (hmax : cycles ≤ 1000000) :
    AmpTest n (rampSteps n chps lots cycles : TestSpec (Ext K)) where
  steps := by
    intro x hx
    rcases List.mem_cons.1 hx with h | h
    · exact .inl h
    · obtain ⟨i, -, h2⟩ := List.mem_flatMap.1 h
      simp only [rampCycle, List.mem_cons, List.not_mem_nil, or_false] at h2
      rcases h2 with rfl | rfl | rfl | rfl
      · exact .inr ⟨_, _, _, _, rfl⟩
      · exact .inl rfl
      · exact .inr ⟨_, _, _, _, rfl⟩
      · exact .inl rfl
  some := List.mem_cons_self
  times := by
    have := rampTimes (K := K) n 0 cycles le_rfl (by
      have : hourUs = 3600000000 := rfl
      rw [this]
      omega)
    simp only [Nat.zero_add] at this
    exact this

omit [IsStrictOrderedRing K] [PyTrans (Ext K)] in
theorem AmpTest.requests {n : Nat} {test : TestSpec (Ext K)} (ht : AmpTest n test) {p : String} {k : Nat} :
    requests test.steps p k ↔ p = "amp_gain" ∧ k = n := by
  constructor
  · rintro ⟨m, hm, hp⟩
    rcases ht.steps _ hm with hm | ⟨_, _, _, _, hm⟩
    · cases hm
      cases List.mem_singleton.1 hp
      exact ⟨rfl, rfl⟩
    · cases hm
  · rintro ⟨rfl, rfl⟩
    exact ⟨_, ht.some, List.mem_singleton.2 rfl⟩

omit [IsStrictOrderedRing K] [Rng W (Ext K)] in
theorem gain_needs (init ba ha : LatentVar (Ext K)) :
    Needs (ampDev init ba ha : DeviceMdl W (Ext K)) "amp_gain" "v_th" := by
  refine ⟨gainMdl, rfl, by simp [ampDev, Dict.keys], ?_⟩
  simp [gainMdl, NumExpr.fn, PyFun.argNames, ampParams]

omit [IsStrictOrderedRing K] in
theorem ampTest_ok {n : Nat} {test : TestSpec (Ext K)} (ht : AmpTest n test) (init ba ha : LatentVar (Ext K)) :
    TestOk (ampDev init ba ha : DeviceMdl W (Ext K)) ampWorld test where
  stress := by
    intro st hst p d k m hp hm
    rcases ht.steps _ hst with hst | ⟨temp, vdd, hours, name, hst⟩
    · cases hst
    cases hst
    rcases ampDev_get hp with ⟨rfl, hd⟩ | ⟨-, hd⟩
    swap
    · cases hd
    cases hd
    simp only [vthPrm, List.mem_cons, List.not_mem_nil, or_false, Prod.mk.injEq] at hm
    rcases hm with ⟨-, rfl⟩ | ⟨-, rfl⟩
    · intro q hq
      have hq : (q, false) ∈ nbtiParams.map fun p => (p, false) := hq
      show q ∈ "time" :: ["a_0", "e_aa", "alpha", "n"] ++ ["temp", "vdd"]
      simp only [List.mem_map, Prod.mk.injEq, and_true, exists_eq_right, nbtiParams, List.mem_cons,
        List.not_mem_nil, or_false] at hq
      simp only [List.mem_append, List.mem_cons, List.not_mem_nil, or_false]
      tauto
    · intro q hq
      have hq : (q, false) ∈ hciParams.map fun p => (p, false) := hq
      show q ∈ "time" :: ["a_0", "n", "alpha", "beta", "t_0"] ++ ["temp", "vdd"]
      simp only [List.mem_map, Prod.mk.injEq, and_true, exists_eq_right, hciParams, List.mem_cons,
        List.not_mem_nil, or_false] at hq
      simp only [List.mem_append, List.mem_cons, List.not_mem_nil, or_false]
      tauto
  measure := by
    intro m hm
    rcases ht.steps _ hm with hm | ⟨temp, vdd, hours, name, hm⟩
    swap
    · cases hm
    cases hm
    refine ⟨List.nodup_singleton _, fun p hp => ?_, fun p hp => ?_, ?_, ?_, ?_⟩
    · cases List.mem_singleton.1 hp
      exact .inl (by simp [ampDev, Dict.keys])
    · cases List.mem_singleton.1 hp
      exact ⟨_, rfl, fun xs w _ => ⟨_, w, rfl⟩⟩
    · intro p d hp hd
      cases List.mem_singleton.1 hp
      rcases ampDev_get hd with ⟨h, -⟩ | ⟨-, h⟩
      · simp at h
      · cases h
    · intro p c hp hc
      rcases ampDev_get hc with ⟨-, h⟩ | ⟨-, h⟩
      · cases h
      cases h
      intro q hq
      have hq : (q, false) ∈ ampParams.map fun p => (p, false) := hq
      show q ∈ ["u_n", "c_ox", "w", "l", "v_e"] ++ ["temp", "vdd"] ++ ["v_th"]
      simp only [List.mem_map, Prod.mk.injEq, and_true, exists_eq_right, ampParams, List.mem_cons,
        List.not_mem_nil, or_false] at hq
      simp only [List.mem_append, List.mem_cons, List.not_mem_nil, or_false]
      tauto
    · intro p c hp hc
      rcases ampDev_get hc with ⟨-, h⟩ | ⟨-, h⟩
      · cases h
      cases h
      refine ⟨"vdd", by simp [gainMdl, NumExpr.fn, PyFun.argNames, ampParams], ?_⟩
      show "vdd" ∈ ["u_n", "c_ox", "w", "l", "v_e"] ++ ["temp", "vdd"] ++ ["v_th"]
      simp
  all := by
    intro p hp
    refine ⟨"amp_gain", n, ht.requests.2 ⟨rfl, rfl⟩, ?_⟩
    have : p = "v_th" ∨ p = "amp_gain" := by simpa [ampDev, Dict.keys] using hp
    rcases this with rfl | rfl
    · exact .inr (gain_needs ..)
    · exact .inl rfl
  tied := by
    intro c m k hc hr x k' _ hx
    rw [(ht.requests.1 hr).2, (ht.requests.1 hx).2]
  times := ht.times

end
end Gerabaldi.Props
