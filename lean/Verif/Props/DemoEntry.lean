import Verif.Model.DemoEntry
import Verif.Props.Demo
import Verif.Props.River
import Verif.Props.TddbRead
import Verif.Props.Amp
import Verif.Props.Layout
import Verif.Props.ReportObject

/-!
# C99: the demonstrations pass their own checks

The demonstrations can check themselves (`--test`). Whatever is drawn from the random number generators, all checks hold
and the exit code is 0, also if the reports are saved. But reports that were saved never pass.
-/

namespace Gerabaldi.Props
open Gerabaldi Gerabaldi.Spec

section cells
variable {W V : Type} [PyNum V] [Rng W V]

/-- A test of stress steps given as timedeltas and measurements. No condition occurs twice in a step or is called like
a column of the summary. -/
structure PlainTest (test : TestSpec V) : Prop where
  steps : ∀ d, Step.other d ∉ test.steps
  nodup : ∀ st ∈ test.steps, (stepConditions st).Nodup
  free : ∀ st ∈ test.steps, ∀ k ∈ reserved, k ∉ (stepConditions st).keys
  times : TdSteps test.steps

omit [PyNum V] in
theorem timeline_get {steps : List (Step V)} (hs : ∀ d, Step.other d ∉ steps) (k : Nat) (t : ℚ) {i : Nat} {st : Step V}
    (hi : steps[i]? = some st) : ∃ nm ty, stepName st = some nm ∧ (timeline k t steps)[i]? =
      some ⟨nm, ty, k + i, stressLen st, t + ((steps.take i).map stressLen).sum,
        t + ((steps.take i).map stressLen).sum + stressLen st⟩ := by
  induction steps generalizing k t i with
  | nil => cases hi
  | cons x rest ih =>
    have hr : ∀ d, Step.other d ∉ rest := fun d hd => hs d (List.mem_cons_of_mem _ hd)
    cases i with
    | zero =>
      cases hi
      cases st with
      | strs s => exact ⟨_, "stress", rfl, by simp [timeline, stressLen]⟩
      | meas m => exact ⟨_, "measure", rfl, by simp [timeline, stressLen]⟩
      | other d => exact absurd List.mem_cons_self (hs d)
    | succ i =>
      have hi' : rest[i]? = some st := hi
      cases x with
      | strs s =>
        obtain ⟨nm, ty, h1, h2⟩ := ih hr (k + 1) (t + Spec.timeVal s.duration) hi'
        refine ⟨nm, ty, h1, ?_⟩
        simp only [timeline, List.getElem?_cons_succ, h2, List.take_succ_cons, List.map_cons, List.sum_cons, stressLen]
        simp only [Option.some.injEq, Line.mk.injEq, true_and]
        exact ⟨by omega, by ring, by ring⟩
      | meas m =>
        obtain ⟨nm, ty, h1, h2⟩ := ih hr (k + 1) t hi'
        refine ⟨nm, ty, h1, ?_⟩
        simp only [timeline, List.getElem?_cons_succ, h2, List.take_succ_cons, List.map_cons, List.sum_cons, stressLen]
        simp only [Option.some.injEq, Line.mk.injEq, true_and]
        exact ⟨by omega, by ring, by ring⟩
      | other d => exact absurd List.mem_cons_self (hs d)

theorem forall₂_get {α β : Type} {R : α → β → Prop} {as : List α} {bs : List β} (h : List.Forall₂ R as bs) {i : Nat}
    {b : β} (hb : bs[i]? = some b) : ∃ a, as[i]? = some a ∧ R a b := by
  induction h generalizing i with
  | nil => cases hb
  | cons h1 _ ih =>
    cases i with
    | zero => cases hb; exact ⟨_, rfl, h1⟩
    | succ i => exact ih hb

omit [PyNum V] in
theorem cellAt_of {r : SimReport V} {i : Nat} {row : SumRow V} (hr : r.summary[i]? = some row) {c : String} {x : Cell V}
    (hx : row.get? c = some x) : r.obj.cellAt i c = .ok (some x) := by
  unfold ReportObj.cellAt
  simp only [SimReport.obj]
  rw [if_pos, hr, ← hx]
  rw [List.any_eq_true]
  exact ⟨row, List.mem_of_getElem? hr, by rw [hx]; rfl⟩

omit [PyNum V] in
theorem hoursAt_of {r : SimReport V} {i : Nat} {row : SumRow V} (hr : r.summary[i]? = some row) {c : String} {us : Int}
    (hx : row.get? c = some (.time (.td us))) : r.obj.hoursAt i c = .ok ((us : ℚ) / 3600000000) := by
  unfold ReportObj.hoursAt
  rw [cellAt_of hr hx]
  show Except.ok ((us : ℚ) / 1000000 / 3600) = _
  rw [div_div]
  norm_num

/-- **C99**, what the checks can see, for every simulation: the cells of line `i` of the summary are the conditions and
the name of step `i`, and the times are those of the steps before. -/
theorem C99_cells {ord : SetOrder} {test : TestSpec V} (hp : PlainTest test) {dev : DeviceMdl W V} {env : PhysTestEnv V}
    {r : SimReport V} {w w' : W} (h : simulate ord test dev env none w = (.ok r, w')) (hm : r.measurements ≠ [])
    {i : Nat} {st : Step V} (hi : test.steps[i]? = some st) :
    (∀ c v, (stepConditions st).get? c = some v → r.obj.cellAt i c = .ok (some (.val v))) ∧
    (∃ nm, stepName st = some nm ∧ r.obj.cellAt i "step name" = .ok (some (.str nm))) ∧
    r.obj.hoursAt i "duration" = .ok (stressLen st / 3600000000) ∧
    r.obj.hoursAt i "start time" = .ok (((test.steps.take i).map stressLen).sum / 3600000000) ∧
    r.obj.hoursAt i "end time" = .ok (((test.steps.take (i + 1)).map stressLen).sum / 3600000000) := by
  have h1 := C37_timeline_partial h hp.nodup hp.free
  have h2 := C50_conditions h hp.nodup
  have h3 := simulate_exportable h hp.nodup hp.free hp.times hm
  have hf : test.steps.filter (fun st => (stepName st).isSome) = test.steps := by
    rw [List.filter_eq_self]
    intro x hx
    cases x with
    | other d => exact absurd hx (hp.steps d)
    | strs s => rfl
    | meas m => rfl
  rw [hf] at h2
  obtain ⟨nm, ty, e1, e2⟩ := timeline_get hp.steps 0 0 hi
  obtain ⟨row, g1, g2⟩ := forall₂_get h1 e2
  obtain ⟨row', g3, g4⟩ := forall₂_get h2 hi
  cases g1.symm.trans g3
  have ht := (h3.rows row (List.mem_of_getElem? g1)).times
  have hours : ∀ c ∈ timeCols, ∀ t, holdsTime row c t → r.obj.hoursAt i c = .ok (t / 3600000000) := by
    rintro c hc t ⟨v, a1, a2⟩
    obtain ⟨us, b1, -⟩ := ht c hc
    cases a1.symm.trans b1
    rw [hoursAt_of g1 b1, ← a2]
    rfl
  refine ⟨fun c v hc => cellAt_of g1 (g4 c v hc), ⟨nm, e1, cellAt_of g1 g2.name⟩, hours _ (by simp [timeCols]) _ g2.duration,
    ?_, ?_⟩
  · have := hours _ (by simp [timeCols]) _ g2.start
    simpa using this
  · have := hours _ (by simp [timeCols]) _ g2.stop
    rw [this]
    have : test.steps.take (i + 1) = test.steps.take i ++ [st] := by
      rw [List.take_add_one, hi]; rfl
    rw [this]
    simp

/-- All measurements are of `n` samples of the same parameter: so many devices are there. -/
theorem one_count [LawfulRng W V] {dev : DeviceMdl W V} {N : Nat → Prop} (hw : DeviceWorks dev N) {env : PhysTestEnv V}
    {test : TestSpec V} {P : String → V → Prop} (hok : TestOk dev env test P) {ord : SetOrder} {r : SimReport V}
    {w w' : W} (h : simulate ord test dev env none w = (.ok r, w')) {p : String} {n : Nat}
    (hall : ∀ m, .meas m ∈ test.steps → m.measurements = [(p, n)]) (hex : ∃ m, .meas m ∈ test.steps)
    {d : DegPrmMdl W V} (hd : dev.prms.get? p = some (.deg d)) : r.devCounts.get? p = some n := by
  obtain ⟨s0, r0, w0, h1, h2, -⟩ := simStart_works hw hok w
  obtain ⟨⟨sf, rf⟩, wf, hf1, hf3⟩ := M.bind_eq_ok.1 h
  obtain ⟨⟨si, ri⟩, wi, hf2, hf4⟩ := M.bind_eq_ok.1 hf1
  cases h1.symm.trans hf2
  cases hf3
  obtain ⟨rows, lines, -, rfl⟩ := runSteps_ok.1 hf4
  obtain ⟨m, hm⟩ := hex
  obtain ⟨k, hk, -⟩ := ((genCounts_ok hok h2).measure m hm).degCount p d n
    (by rw [hall m hm]; exact List.mem_singleton.2 rfl) hd
  show r0.devCounts.get? p = some n
  rw [hk]
  refine congrArg some (augment_vals (dev := dev) (d := calcSamplesNeeded test.steps) (Q := (· = n)) ?_ p k (h2 ▸ hk))
  intro x k hx
  obtain ⟨⟨m, hm, hmx⟩, -⟩ := ((C08_max test.steps x).1 k).1 hx
  rw [hall m hm] at hmx
  cases List.mem_singleton.1 hmx
  rfl

omit [PyNum V] [Rng W V] in
theorem madeTest_bind {α : Type} (t : TestSpec V) (f : TestSpec V → M W α) :
    (madeTest (some (.ok t)) >>= f) = f t := rfl

omit [PyNum V] [Rng W V] in
theorem ofOk_bind {α β : Type} (a : α) (f : α → M W β) : (M.ofExcept (.ok a) >>= f) = f a := rfl

omit [PyNum V] in
theorem copies_sum (f : Step V → Nat) (k : Nat) (l : List (Step V)) :
    ((copies k l).map f).sum = k * (l.map f).sum := by
  induction k with
  | zero => simp [copies]
  | succ k ih =>
    have : copies (k + 1) l = l ++ copies k l := by simp [copies, List.replicate_succ]
    rw [this, List.map_append, List.sum_append, ih]
    ring

omit [PyNum V] in
theorem copies_meas (k : Nat) (l : List (Step V)) : measCount (copies k l) = k * measCount l := by
  induction k with
  | zero => simp [copies, measCount]
  | succ k ih =>
    have : copies (k + 1) l = l ++ copies k l := by simp [copies, List.replicate_succ]
    rw [this, measCount_append, ih]
    ring

omit [PyNum V] in
theorem copies_size (k : Nat) (l : List (Step V)) : (copies k l).length = k * l.length := by
  simp [copies]

omit [PyNum V] in
theorem copies_get {k : Nat} {l : List (Step V)} (q : Nat) (hq : q < k) {j : Nat} (hj : j < l.length) :
    (copies k l)[q * l.length + j]? = l[j]? := by
  induction k generalizing q with
  | zero => omega
  | succ k ih =>
    have : copies (k + 1) l = l ++ copies k l := by simp [copies, List.replicate_succ]
    rw [this]
    cases q with
    | zero => rw [Nat.zero_mul, Nat.zero_add, List.getElem?_append_left hj]
    | succ q =>
      rw [List.getElem?_append_right (by rw [Nat.succ_mul]; omega)]
      have e : (q + 1) * l.length + j - l.length = q * l.length + j := by rw [Nat.succ_mul]; omega
      rw [e]
      exact ih q (by omega)

end cells

/-! ## `demos/riverbed_erosion.py` -/

section river
variable {K : Type} [Field K] [LinearOrder K] [IsStrictOrderedRing K] [FloorRing K] [Pow10 K]
variable {W : Type} [Rng W (Ext K)]

omit [IsStrictOrderedRing K] in
theorem cellIs_self (q : ℚ) : cellIs (some (.val (PyArith.ofRat q : Ext K))) q = true := by
  show decide _ = true
  simp

omit [IsStrictOrderedRing K] in
theorem river_plain (samples rivers years : Nat) :
    PlainTest (riverSteps samples rivers years : TestSpec (Ext K)) where
  steps := fun d hd => by
    rcases river_mem hd with h | ⟨_, _, h⟩ <;> cases h
  nodup := fun st hst => by
    rcases river_mem hst with rfl | ⟨_, _, rfl⟩ <;> exact List.nodup_singleton _
  free := fun st hst k hk => by
    have : (stepConditions st).keys = ["tau"] := by
      rcases river_mem hst with rfl | ⟨_, _, rfl⟩ <;> rfl
    rw [this]
    intro h
    cases List.mem_singleton.1 h
    exact absurd hk (by decide)
  times := fun st hst => by
    rcases river_mem hst with h | ⟨_, _, h⟩
    · cases h
    · cases h
      exact ⟨quarter, rfl, by decide +kernel⟩

/-- The demonstration of erosion runs and its report passes the checks. -/
theorem river_passes [LawfulRng W (Ext K)] (h : FiniteNormals W K) (ord : SetOrder) (w : W) :
    ∃ r w', riverDemo ord w = (.ok r, w') ∧ riverChecks (SimReport.obj r : ReportObj (Ext K)) = .ok [true, true, true, true] ∧
      Exportable r.data := by
  have hw := riverDev_works (W := W) h
  have hok := riverTest_ok (W := W) h 10 5 (years := 10) (by norm_num)
  obtain ⟨r, w', h1, h2⟩ := C53_finite ord hw (riverDev_finite h) (riverWorld_draws h)
    (riverWorld_finite h) hok (river_conditions 10 5 10) w
  have hlen : r.measurements.length = 550 := by
    rw [C80_size hw.unique (fun p d hp => (hw.deg p d hp).unique) (fun p d hp => (hw.deg p d hp).shapes) h1 ?_ ?_]
    · have hk : ((riverDev (W := W) (K := K)).prms.get? "riverbed_level").isSome = true := rfl
      show (((Step.meas (riverMeas 10) : Step (Ext K)) :: copies 10 (riverYear 10)).map _).sum = 550
      rw [List.map_cons, List.sum_cons, copies_sum]
      simp [riverYear, stepSize, riverMeas, hk, riverSteps]
    · intro m hm
      rcases river_mem hm with h | ⟨_, _, h⟩ <;> cases h
      exact ⟨List.nodup_singleton _, List.nodup_singleton _⟩
    · intro m hm p n hp cm hcm
      obtain ⟨rfl, hd⟩ := riverDev_get hcm
      cases hd
  have hne : r.measurements ≠ [] := by
    intro h
    rw [h] at hlen
    cases hlen
  have hp := river_plain (K := K) 10 5 10
  have hcnt : r.devCounts.get? "riverbed_level" = some 10 := by
    refine one_count hw hok h1 (d := riverPrm) ?_ ⟨_, List.mem_cons_self⟩ rfl
    intro m hm
    rcases river_mem hm with h | ⟨_, _, h⟩ <;> cases h
    rfl
  refine ⟨r, w', ?_, ?_, simulate_exportable h1 hp.nodup hp.free hp.times hne⟩
  · unfold riverDemo
    rw [riverTest_eq 10 5 (years := 10) (fuel := 1000) (by norm_num) (by norm_num) (by norm_num), riverDevice_eq,
      riverEnv_eq, madeTest_bind, ofOk_bind, ofOk_bind]
    exact h1
  · have a1 := (C99_cells hp h1 hne (i := 33) (st := .strs (riverFlow 2 "Autumn"))
      (copies_get (l := riverYear 10) 6 (by norm_num) (j := 2) (by show 2 < 5; norm_num))).2.1
    have a2 := (C99_cells hp h1 hne (i := 42) (st := .strs (riverFlow 4 "Summer"))
      (copies_get (l := riverYear 10) 8 (by norm_num) (j := 1) (by show 1 < 5; norm_num))).1 "tau" _ rfl
    obtain ⟨nm, e, a1⟩ := a1
    cases e
    unfold riverChecks
    rw [a1, a2]
    simp only [ReportObj.rowCount, ReportObj.countOf, SimReport.obj, hlen, hcnt]
    show Except.ok [true, cellSays _ _, cellIs _ _, true] = _
    rw [cellIs_self]
    rfl

end river

/-! ## `demos/vts_paper_tddb_model_sensitivity.py` -/

section tddb
variable {K : Type} [Field K] [LinearOrder K] [IsStrictOrderedRing K] [FloorRing K] [Pow10 K]
variable [PyTrans (Ext K)]
variable {W : Type} [Rng W (Ext K)]

omit [IsStrictOrderedRing K] [PyTrans (Ext K)] in
theorem tddb_plain (samples weeks : Nat) (ht : ∀ st, .strs st ∈ (tddbSteps samples weeks : TestSpec (Ext K)).steps →
      ∃ us, st.duration = .td us ∧ inTimedeltaRange us) :
    PlainTest (tddbSteps samples weeks : TestSpec (Ext K)) where
  steps := fun d hd => by
    rcases tddb_mem hd with h | ⟨_, _, _, _, h⟩ <;> cases h
  nodup := fun st hst => by
    have : (stepConditions st).keys = ["temp", "v_g"] := by
      rcases tddb_mem hst with rfl | ⟨_, _, _, _, rfl⟩ <;> rfl
    show (stepConditions st).keys.Nodup
    rw [this]
    decide
  free := fun st hst k hk => by
    have : (stepConditions st).keys = ["temp", "v_g"] := by
      rcases tddb_mem hst with rfl | ⟨_, _, _, _, rfl⟩ <;> rfl
    rw [this]
    revert k
    decide
  times := ht

/-- What the checks of the demonstration of oxide breakdown ask about. -/
structure TddbGood (r : SimReport (Ext K)) : Prop where
  rows : r.obj.rowCount = .ok 10500
  gate : r.obj.cellAt 339 "v_g" = .ok (some (.val (PyArith.ofRat (87 / 100))))
  idle : r.obj.hoursAt 31 "duration" = .ok 122
  count : r.obj.countOf "tddb" = .ok 100
  saves : Exportable r.data

theorem tddb_good [LawfulRng W (Ext K)] (h : TddbDraws W K) (c thermal : ℚ) (ord : SetOrder) (w : W) :
    ∃ (r : SimReport (Ext K)) (w' : W), simulate ord (tddbSteps 100 104) (tddbDev c thermal) tddbWorld none w = (.ok r, w') ∧
      TddbGood r := by
  have hw := tddbDev_works (W := W) h c thermal
  have hok := tddbTest_ok (W := W) (K := K) c thermal 100 (weeks := 104) (by norm_num)
  obtain ⟨r, w', h1⟩ := C53_generated ord hw (tddbWorld_draws h) hok w (tddb_sizes (K := K) (by norm_num) 104)
  have hlen : r.measurements.length = 10500 := by
    have hd : ∃ (r' : SimReport (Ext K)) (u : W), simulate ord (tddbSteps 100 104) (tddbDev c thermal) tddbWorld none w = (.ok r', u) ∧
        ∀ y ≤ 104, (rowsAt r'.measurements (4 * y) "tddb").map place = places 1 1 100 := by
      obtain ⟨test, dev, env, e1, e2, e3, r', u, e4, e5⟩ := C66_run h c thermal ord (samples := 100) (by norm_num)
        (weeks := 104) (fuel := 1000) (by norm_num) (by norm_num) (by norm_num) w
      cases e1.symm.trans (tddbTest_eq 100 (by norm_num) (by norm_num) (by norm_num))
      cases e2.symm.trans (tddbDevice_eq c thermal)
      cases e3.symm.trans tddbEnv_eq
      exact ⟨r', u, e4, e5⟩
    obtain ⟨r', u, e4, e5⟩ := hd
    cases h1.symm.trans e4
    have hcount : measCount (tddbSteps 100 104 : TestSpec (Ext K)).steps = 105 := by
      show measCount (copies 104 (tddbWeek 100 : List (Step (Ext K)))) + 1 = 105
      rw [copies_meas]
      rfl
    rw [C69_table (fun m hm => by
      rcases tddb_mem hm with h | ⟨_, _, _, _, h⟩ <;> cases h
      exact List.nodup_singleton _) h1]
    rw [stepTables_length (m := tddbMeas 100) (p := "tddb") (k := 100) rfl (fun x hx => ?_) (fun pre post e => ?_), hcount]
    · rcases tddb_mem hx with h | ⟨_, _, _, _, h⟩
      · exact .inl h
      · exact .inr ⟨_, h⟩
    · have hi : (tddbSteps 100 104 : TestSpec (Ext K)).steps[pre.length]? = some (.meas (tddbMeas 100)) := by
        rw [e]
        simp
      have hlt : pre.length < 417 := by
        have := (List.getElem?_eq_some_iff.1 hi).1
        have hl : (tddbSteps 100 104 : TestSpec (Ext K)).steps.length = 417 := by
          show (copies 104 (tddbWeek 100 : List (Step (Ext K)))).length + 1 = 417
          rw [copies_size]
          rfl
        omega
      obtain ⟨y, hy⟩ : ∃ y, pre.length = 4 * y := by
        by_contra hc
        obtain ⟨q, j, hj, hq⟩ : ∃ q j, j < 3 ∧ pre.length = (q * 4 + j) + 1 := by
          refine ⟨(pre.length - 1) / 4, (pre.length - 1) % 4, ?_, ?_⟩
          · by_contra hj
            exact hc ⟨(pre.length - 1) / 4 + 1, by omega⟩
          · have : pre.length ≠ 0 := fun h0 => hc ⟨0, h0⟩
            omega
        rw [hq] at hi
        have hi : (copies 104 (tddbWeek 100 : List (Step (Ext K))))[q * 4 + j]? = some (.meas (tddbMeas 100)) := hi
        have := copies_get (l := (tddbWeek 100 : List (Step (Ext K)))) (k := 104) q (by omega) (j := j) (by show j < 4; omega)
        rw [show (tddbWeek 100 : List (Step (Ext K))).length = 4 from rfl, hi] at this
        rcases j with _ | _ | _ | j
        · cases this
        · cases this
        · cases this
        · omega
      have := congrArg List.length (e5 y (by omega))
      rw [List.length_map, places_length] at this
      rw [Nat.zero_add, hy]
      exact this
  have hne : r.measurements ≠ [] := by
    intro h
    rw [h] at hlen
    cases hlen
  have hp : PlainTest (tddbSteps 100 104 : TestSpec (Ext K)) := by
    refine tddb_plain 100 104 fun st hst => ?_
    rcases List.mem_cons.1 hst with h | h
    · cases h
    · obtain ⟨l, a1, a2⟩ := List.mem_flatten.1 h
      rw [(List.mem_replicate.1 a1).2] at a2
      simp only [tddbWeek, List.mem_cons, Step.strs.injEq, List.not_mem_nil, or_false, reduceCtorEq] at a2
      rcases a2 with rfl | rfl | rfl <;> exact ⟨_, rfl, by decide +kernel⟩
  have hcnt : r.devCounts.get? "tddb" = some 100 := by
    refine one_count hw hok h1 (d := tddbPrm c thermal) ?_ ⟨_, List.mem_cons_self⟩ rfl
    intro m hm
    rcases tddb_mem hm with h | ⟨_, _, _, _, h⟩ <;> cases h
    rfl
  refine ⟨r, w', h1, ?_, ?_, ?_, ?_, simulate_exportable h1 hp.nodup hp.free hp.times hne⟩
  · simp only [ReportObj.rowCount, SimReport.obj, hlen]
  · exact (C99_cells hp h1 hne (i := 339) (st := .strs (tddbLoad (30315 / 100) (87 / 100) 122 "Idle State"))
      (copies_get (l := tddbWeek 100) 84 (by norm_num) (j := 2) (by show 2 < 4; norm_num))).1 "v_g" _ rfl
  · rw [(C99_cells hp h1 hne (i := 31) (st := .strs (tddbLoad (30315 / 100) (87 / 100) 122 "Idle State"))
      (copies_get (l := tddbWeek 100) 7 (by norm_num) (j := 2) (by show 2 < 4; norm_num))).2.2.1]
    simp only [stressLen, tddbLoad, Spec.timeVal, hourUs]
    norm_num
  · simp only [ReportObj.countOf, SimReport.obj, hcnt]

end tddb

/-! ## `demos/vts_paper_presilicon_variability.py` -/

section amp
variable {K : Type} [Field K] [LinearOrder K] [IsStrictOrderedRing K] [FloorRing K] [Pow10 K]
variable [PyTrans (Ext K)]
variable {W : Type} [Rng W (Ext K)]

omit [IsStrictOrderedRing K] [PyTrans (Ext K)] in
theorem amp_plain {n : Nat} {test : TestSpec (Ext K)} (h : AmpTest n test) (ht : TdSteps test.steps) :
    PlainTest test where
  steps := fun d hd => by
    rcases h.steps _ hd with h | ⟨_, _, _, _, h⟩ <;> cases h
  nodup := fun st hst => by
    have : (stepConditions st).keys = ["temp", "vdd"] := by
      rcases h.steps _ hst with rfl | ⟨_, _, _, _, rfl⟩ <;> rfl
    show (stepConditions st).keys.Nodup
    rw [this]
    decide
  free := fun st hst k hk => by
    have : (stepConditions st).keys = ["temp", "vdd"] := by
      rcases h.steps _ hst with rfl | ⟨_, _, _, _, rfl⟩ <;> rfl
    rw [this]
    revert k
    decide
  times := ht

omit [IsStrictOrderedRing K] [PyTrans (Ext K)] in
theorem loop_td (n chps lots cycles : Nat) (celsius : ℚ) (stress test : String) :
    TdSteps (loopSteps n chps lots cycles celsius stress test : TestSpec (Ext K)).steps := by
  intro st hst
  rcases List.mem_cons.1 hst with h | h
  · cases h
  · obtain ⟨l, a1, a2⟩ := List.mem_flatten.1 h
    rw [(List.mem_replicate.1 a1).2] at a2
    simp only [loopCycle, List.mem_cons, Step.strs.injEq, List.not_mem_nil, or_false, reduceCtorEq] at a2
    cases a2
    exact ⟨_, rfl, by decide +kernel⟩

omit [IsStrictOrderedRing K] [PyTrans (Ext K)] in
theorem ramp_td (n chps lots cycles : Nat) : TdSteps (rampSteps n chps lots cycles : TestSpec (Ext K)).steps := by
  intro st hst
  rcases List.mem_cons.1 hst with h | h
  · cases h
  · obtain ⟨i, -, a2⟩ := List.mem_flatMap.1 h
    simp only [rampCycle, List.mem_cons, Step.strs.injEq, List.not_mem_nil, or_false, reduceCtorEq, false_or] at a2
    rcases a2 with rfl | rfl <;> exact ⟨_, rfl, by decide +kernel⟩

theorem flat_get {α : Type} {f : Nat → List α} {c : Nat} (hf : ∀ i, (f i).length = c) {k q j : Nat} (hq : q < k)
    (hj : j < c) : ((List.range k).flatMap f)[q * c + j]? = (f q)[j]? := by
  induction k with
  | zero => omega
  | succ k ih =>
    have hl : ((List.range k).flatMap f).length = k * c := by
      clear ih hq
      induction k with
      | zero => simp
      | succ k ih => rw [List.range_succ, List.flatMap_append, List.length_append, ih]; simp [hf]; ring
    rw [List.range_succ, List.flatMap_append, List.flatMap_singleton]
    rcases Nat.lt_succ_iff_lt_or_eq.1 hq with h | rfl
    · rw [List.getElem?_append_left, ih h]
      rw [hl]
      calc q * c + j < q * c + c := by omega
        _ = (q + 1) * c := by ring
        _ ≤ k * c := Nat.mul_le_mul_right _ h
    · rw [List.getElem?_append_right (by rw [hl]; omega), hl]
      congr 1
      omega

/-- A run of the high or low temperature test as the checks want it. -/
structure LoopGood (r : SimReport (Ext K)) : Prop where
  rows : r.obj.rowCount = .ok 2625
  start : r.obj.hoursAt 13 "start time" = .ok 300
  count : r.obj.countOf "v_th" = .ok 5
  saves : Exportable r.data

/-- A run of the ramp test as the checks want it. -/
structure RampGood (r : SimReport (Ext K)) : Prop where
  supply : r.obj.cellAt 29 "vdd" = .ok (some (.val (PyArith.ofRat (102 / 100))))
  saves : Exportable r.data

theorem loop_good [LawfulRng W (Ext K)] (h : FiniteNormals W K) {init ba ha : LatentVar (Ext K)}
    (hi : CanDraw W init) (hb : CanDraw W ba) (hh : CanDraw W ha) (ord : SetOrder) (celsius : ℚ) (stress test : String)
    (w : W) : ∃ (r : SimReport (Ext K)) (w' : W), simulate ord (loopSteps 5 5 5 20 celsius stress test)
      (ampDev init ba ha) ampWorld none w = (.ok r, w') ∧ LoopGood r := by
  have ht := loop_amp (K := K) 5 5 5 (cycles := 20) (by norm_num) celsius stress test
  have hp := amp_plain ht (loop_td 5 5 5 20 celsius stress test)
  obtain ⟨r, w', h1, h2, h3, h4, -⟩ := amp_run h hi hb hh ord ht w
  rw [loop_measCount] at h4
  have hlen : r.measurements.length = 2625 := h4
  have hne : r.measurements ≠ [] := by
    intro h
    rw [h] at hlen
    cases hlen
  refine ⟨r, w', h1, ?_, ?_, ?_, simulate_exportable h1 hp.nodup hp.free hp.times hne⟩
  · simp only [ReportObj.rowCount, SimReport.obj, hlen]
  · rw [(C99_cells hp h1 hne (i := 13) (st := .strs (ampLoad (celsius + 27315 / 100) (92 / 100) 50 stress))
      (copies_get (l := loopCycle 5 celsius stress) 6 (by norm_num) (j := 0) (by show 0 < 2; norm_num))).2.2.2.1]
    obtain ⟨pre, post, e1, e2, e3⟩ := loop_split (K := K) 5 5 5 (j := 6) (cycles := 20) (by norm_num) celsius stress test
    have : (pre ++ Step.meas (ampMeas 5) :: post).take 13 = pre ++ [Step.meas (ampMeas 5)] := by
      rw [List.take_append, e2, List.take_of_length_le (by omega)]
      rfl
    rw [e1, this, List.map_append, List.sum_append, e3]
    simp only [List.map_cons, List.map_nil, stressLen, List.sum_cons, List.sum_nil, hourUs]
    norm_num
  · simp only [ReportObj.countOf, SimReport.obj, h2]

theorem ramp_good [LawfulRng W (Ext K)] (h : FiniteNormals W K) {init ba ha : LatentVar (Ext K)}
    (hi : CanDraw W init) (hb : CanDraw W ba) (hh : CanDraw W ha) (ord : SetOrder) (w : W) :
    ∃ (r : SimReport (Ext K)) (w' : W), simulate ord (rampSteps 5 5 5 10) (ampDev init ba ha) ampWorld none w =
      (.ok r, w') ∧ RampGood r := by
  have ht := ramp_amp (K := K) 5 5 5 (cycles := 10) (by norm_num)
  have hp := amp_plain ht (ramp_td 5 5 5 10)
  obtain ⟨r, w', h1, h2, h3, h4, -⟩ := amp_run h hi hb hh ord ht w
  rw [ramp_measCount] at h4
  have hne : r.measurements ≠ [] := by
    intro h
    rw [h] at h4
    cases h4
  refine ⟨r, w', h1, ?_, simulate_exportable h1 hp.nodup hp.free hp.times hne⟩
  have := (C99_cells hp h1 hne (i := 29) (st := .strs (ampLoad (100 + 10 * (7 : Nat) + 27315 / 100)
      (88 / 100 + 2 / 100 * (7 : Nat)) 90 (s!"Ramp Cycle Stress {7 + 1}")))
      (flat_get (f := rampCycle 5) (c := 4) (fun _ => rfl) (q := 7) (j := 0) (by norm_num) (by norm_num))).1 "vdd" _ rfl
  rw [this]
  norm_num

end amp

end Gerabaldi.Props
