import Verif.Props.FigureDemos

/-!
# C100: the failure times shown by `demos/vts_paper_tddb_model_sensitivity.py`
-/

namespace Gerabaldi.Props

open Gerabaldi Gerabaldi.Spec

section
variable {α : Type} [BEq α] [LawfulBEq α]

theorem eraseDups_nodup {xs : List α} (h : xs.Nodup) : xs.eraseDups = xs := by
  induction xs with
  | nil => rfl
  | cons x xs ih =>
    obtain ⟨h1, h2⟩ := List.nodup_cons.1 h
    rw [List.eraseDups_cons]
    have : xs.filter (fun b => !b == x) = xs := by
      rw [List.filter_eq_self]
      intro y hy
      have : y ≠ x := fun e => h1 (e ▸ hy)
      simpa using this
    rw [this, ih h2]

/-- `unique()` of a repeated list. -/
theorem eraseDups_repeat {β : Type} {xs : List α} (h : xs.Nodup) {l : List β} (hl : l ≠ []) :
    (l.flatMap fun _ => xs).eraseDups = xs := by
  cases l with
  | nil => exact absurd rfl hl
  | cons b l =>
    rw [List.flatMap_cons, List.eraseDups_append, eraseDups_nodup h]
    have : (l.flatMap fun _ => xs).removeAll xs = [] := by
      unfold List.removeAll
      rw [List.filter_eq_nil_iff]
      intro y hy
      obtain ⟨_, _, hy⟩ := List.mem_flatMap.1 hy
      simpa using hy
    rw [this]
    simp

end

section
variable {V : Type}

/-- The device numbers of a table, each once. -/
theorem oneName_devices {rows : List (MeasRow V)} {steps : List (Step V)} {prm : String} {n : Nat}
    (h : OneName rows steps prm 1 1 n) (hne : measPoints 0 0 steps ≠ []) :
    (rows.map (·.dev)).eraseDups = (List.range n).map some := by
  have e : rows.map (·.dev) = (measPoints 0 0 steps).flatMap fun _ => (List.range n).map some := by
    have := congrArg (List.map fun y : Entry => y.2.2.1.2.2) h
    rw [List.map_map, List.map_flatMap] at this
    refine Eq.trans this (List.flatMap_congr fun it _ => ?_)
    simp [places, List.map_map, Function.comp_def]
  rw [e]
  exact eraseDups_repeat (List.nodup_range.map (Option.some_injective _)) hne

end

section fails
variable {K : Type} [Field K] [LinearOrder K] [IsStrictOrderedRing K] [FloorRing K] [Pow10 K]

/-- The failure time of an oxide as a time, or none. -/
def failHours : FailTime → Option ℚ
  | .hours t => some t
  | .censored => none

/-- The failure time taken from rows that all read 0 or 1. -/
theorem failTime_rows {xs : List (MeasRow (Ext K))} (hne : xs ≠ [])
    (h01 : ∀ x ∈ xs, x.measured = .fin 0 ∨ x.measured = .fin 1) (htd : ∀ x ∈ xs, ∃ us, x.time = .td us) :
    ∃ f, failTime xs = .ok f ∧
      FailsAt (xs.map fun x => (Spec.timeVal x.time / 3600000000, some x.measured)) (failHours f) := by
  have z0 : (Ext.fin 0 : Ext K) = PyArith.ofRat 0 := by
    show Ext.fin 0 = Ext.fin ((0 : ℚ) : K)
    rw [Rat.cast_zero]
  have z1 : (Ext.fin 1 : Ext K) = PyArith.ofRat 1 := by
    show Ext.fin 1 = Ext.fin ((1 : ℚ) : K)
    rw [Rat.cast_one]
  have b0 : PyArith.eq (Ext.fin 0 : Ext K) (PyArith.ofRat 1) = false := by
    rw [z0, Bool.eq_false_iff, Ne, lit_eq]
    norm_num
  have b1 : PyArith.eq (Ext.fin 1 : Ext K) (PyArith.ofRat 1) = true := by
    rw [z1, lit_eq]
  have c0 : PyArith.eq (Ext.fin 0 : Ext K) (PyArith.ofRat 0) = true := by
    rw [z0, lit_eq]
  have c1 : PyArith.eq (Ext.fin 1 : Ext K) (PyArith.ofRat 0) = false := by
    rw [z1, Bool.eq_false_iff, Ne, lit_eq]
    norm_num
  by_cases hall : ∀ x ∈ xs, x.measured = .fin 1
  · refine ⟨.censored, ?_, fun q hq => ?_⟩
    · have hf : xs.find? (fun x => !PyArith.eq x.measured (PyArith.ofRat 1)) = none := by
        rw [List.find?_eq_none]
        intro x hx
        rw [hall x hx, b1]
        decide
      cases xs with
      | nil => exact absurd rfl hne
      | cons x xs =>
        unfold failTime
        rw [hf]
        show (if PyArith.eq x.measured (PyArith.ofRat 0) = true then _ else _) = _
        rw [hall x List.mem_cons_self, c1]
        rfl
    · obtain ⟨x, hx, rfl⟩ := List.mem_map.1 hq
      show some x.measured = _
      rw [hall x hx]
  · have hsplit : ∃ pre y post, xs = pre ++ y :: post ∧ y.measured = .fin 0 ∧ ∀ x ∈ pre, x.measured = .fin 1 := by
      clear hne htd
      induction xs with
      | nil => exact absurd (fun x hx => (List.not_mem_nil hx).elim) hall
      | cons x xs ih =>
        rcases h01 x List.mem_cons_self with h | h
        · exact ⟨[], x, xs, rfl, h, fun y hy => (List.not_mem_nil hy).elim⟩
        · obtain ⟨pre, y, post, e, h1, h2⟩ := ih (fun y hy => h01 y (List.mem_cons_of_mem _ hy)) (by
            intro h3
            refine hall fun y hy => ?_
            rcases List.mem_cons.1 hy with rfl | hy
            · exact h
            · exact h3 y hy)
          refine ⟨x :: pre, y, post, by rw [e]; rfl, h1, fun z hz => ?_⟩
          rcases List.mem_cons.1 hz with rfl | hz
          · exact h
          · exact h2 z hz
    obtain ⟨pre, y, post, rfl, h1, h2⟩ := hsplit
    obtain ⟨us, hu⟩ := htd y (by simp)
    have hf : (pre ++ y :: post).find? (fun x => !PyArith.eq x.measured (PyArith.ofRat 1)) = some y := by
      rw [List.find?_append]
      have : pre.find? (fun x => !PyArith.eq x.measured (PyArith.ofRat 1)) = none := by
        rw [List.find?_eq_none]
        intro x hx
        rw [h2 x hx, b1]
        decide
      rw [this, Option.none_or, List.find?_cons_of_pos]
      rw [h1, b0]
      rfl
    refine ⟨.hours (us / 1000000 / 3600), ?_, pre.map (fun x => (Spec.timeVal x.time / 3600000000, some x.measured)),
      post.map (fun x => (Spec.timeVal x.time / 3600000000, some x.measured)), ?_, fun q hq => ?_⟩
    · unfold failTime
      rw [hf]
      show (if PyArith.eq y.measured (PyArith.ofRat 0) = true then _ else _) = _
      rw [h1, c0, hu]
      rfl
    · rw [List.map_append, List.map_cons, h1, hu]
      congr 3
      show (us : ℚ) / 3600000000 = us / 1000000 / 3600
      rw [div_div]
      norm_num
    · obtain ⟨x, hx, rfl⟩ := List.mem_map.1 hq
      show some x.measured = _
      rw [h2 x hx]

/-- **C100**, failures: in a table with the readings 0 and 1 of one lot and chip, each device has one failure time, in the
order of the devices: the time, in hours, of its first reading of 0, or none if it has none. -/
theorem C100_failTimes {rows : List (MeasRow (Ext K))} {steps : List (Step (Ext K))} {prm : String} {n : Nat}
    (h : OneName rows steps prm 1 1 n) (hne : measPoints 0 0 steps ≠ [])
    (h01 : ∀ x ∈ rows, x.measured = .fin 0 ∨ x.measured = .fin 1) (htd : ∀ x ∈ rows, ∃ us, x.time = .td us) :
    ∃ fails, failTimes rows = .ok fails ∧ fails.length = n ∧
      ∀ d < n, ∃ f, fails[d]? = some f ∧ FailsAt (deviceCurve rows steps 3600000000 prm 0 0 d) (failHours f) := by
  have key : ∀ d, ∃ f, d < n → failTime (rows.filter fun x => x.dev.isSome && x.dev == some d) = .ok f ∧
      FailsAt (deviceCurve rows steps 3600000000 prm 0 0 d) (failHours f) := by
    intro d
    by_cases hd : d < n
    · have hr := oneName_readings h Nat.one_pos Nat.one_pos hd
      have hf : (rows.filter fun x => x.dev.isSome && x.dev == some d) =
          rows.filter fun x => x.prm == prm && place x == (some 0, some 0, some d) := by
        refine List.filter_congr fun x hx => ?_
        obtain ⟨e1, l, c, d', hl, hc, -, e2⟩ := oneName_mem h hx
        obtain rfl := Nat.lt_one_iff.1 hl
        obtain rfl := Nat.lt_one_iff.1 hc
        have e3 : x.dev = some d' := congrArg (fun q => q.2.2) e2
        rw [e1, e2, e3]
        simp
      rw [hf]
      obtain ⟨f, g1, g2⟩ := failTime_rows (xs := rows.filter fun x => x.prm == prm && place x == (some 0, some 0, some d))
        (fun h0 => by
          rw [h0] at hr
          exact hne (List.map_eq_nil_iff.1 hr.symm))
        (fun x hx => h01 x (List.mem_of_mem_filter hx)) (fun x hx => htd x (List.mem_of_mem_filter hx))
      refine ⟨f, fun _ => ⟨g1, ?_⟩⟩
      have := congrArg (List.map fun q : ℚ × Option (Ext K) => (q.1 / 3600000000, q.2)) hr
      rw [List.map_map, List.map_map] at this
      have e : deviceCurve rows steps 3600000000 prm 0 0 d =
          (rows.filter fun x => x.prm == prm && place x == (some 0, some 0, some d)).map
            fun x => (Spec.timeVal x.time / 3600000000, some x.measured) := this.symm
      rw [e]
      exact g2
    · exact ⟨.censored, fun h => absurd h hd⟩
  choose g hg using key
  refine ⟨(List.range n).map g, ?_, by simp, fun d hd => ⟨g d, by simp [hd], (hg d hd).2⟩⟩
  unfold failTimes
  rw [oneName_devices h hne]
  rw [mapM_except (g := fun k : Option Nat => g (k.getD 0))]
  · rw [List.map_map]
    rfl
  · intro k hk
    obtain ⟨d, hd, rfl⟩ := List.mem_map.1 hk
    exact (hg d (List.mem_range.1 hd)).1

end fails

section tddb
variable {V : Type}

/-- Every measurement of a test is one of its points. -/
theorem measPoints_split (post pre : List (Step V)) (m : MeasSpec V) (i : Nat) (t : ℚ) :
    (i + pre.length, t + (pre.map stressLen).sum) ∈ measPoints i t (pre ++ .meas m :: post) := by
  induction pre generalizing i t with
  | nil => simp [measPoints]
  | cons st pre ih =>
    have ih := ih (i + 1) (t + stressLen st)
    rw [List.length_cons, List.map_cons, List.sum_cons, ← add_assoc t, Nat.add_comm pre.length, ← Nat.add_assoc]
    cases st with
    | meas m' =>
      refine List.mem_cons_of_mem _ ?_
      have hz : stressLen (.meas m' : Step V) = 0 := rfl
      rw [hz, add_zero] at ih ⊢
      exact ih
    | strs s' => exact ih
    | other o =>
      have hz : stressLen (.other o : Step V) = 0 := rfl
      rw [hz, add_zero] at ih ⊢
      exact ih

end tddb

section tddb
variable {W K : Type} [Field K] [LinearOrder K] [IsStrictOrderedRing K] [FloorRing K] [Pow10 K] [PyTrans (Ext K)]
  [Rng W (Ext K)]

omit [IsStrictOrderedRing K] [PyTrans (Ext K)] in
/-- The measurements are made at the beginning and at the end of every week. -/
theorem tddb_points (samples weeks : Nat) :
    measPoints 0 0 (tddbSteps samples weeks : TestSpec (Ext K)).steps =
      (List.range (weeks + 1)).map fun y : Nat => (4 * y, (y : ℚ) * 168 * 3600000000) := by
  have key : ∀ (n i : Nat) (t : ℚ), measPoints i t (copies n (tddbWeek samples : List (Step (Ext K)))) =
      (List.range n).map fun y : Nat => (i + 4 * y + 3, t + ((y : ℚ) + 1) * 168 * 3600000000) := by
    intro n
    induction n with
    | zero => intro i t; rfl
    | succ n ih =>
      intro i t
      have hq : ∀ (temp vg : ℚ) (hours : Int) (name : String),
          Spec.timeVal (tddbLoad temp vg hours name : StrsSpec (Ext K)).duration = hours * 3600000000 := by
        intro temp vg hours name
        show (((hours * hourUs : Int)) : ℚ) = _
        rw [hourUs]
        push_cast
        ring
      have e : copies (n + 1) (tddbWeek samples : List (Step (Ext K))) =
          .strs (tddbLoad (33815 / 100) (9 / 10) 30 "Moderate Loading") ::
            .strs (tddbLoad (36115 / 100) (92 / 100) 16 "Heavy Loading") ::
            .strs (tddbLoad (30315 / 100) (87 / 100) 122 "Idle State") :: .meas (tddbMeas samples) ::
            copies n (tddbWeek samples) :=
        Gerabaldi.Props.copies_succ n _
      rw [e, List.range_succ_eq_map, List.map_cons, List.map_map]
      simp only [measPoints, hq, ih]
      congr 1
      · ext
        · simp
        · simp; ring
      · refine List.map_congr_left fun y _ => ?_
        simp only [Function.comp_apply, Nat.succ_eq_add_one]
        ext
        · simp; ring
        · push_cast; ring
  show (0, (0 : ℚ)) :: measPoints 1 0 (copies weeks (tddbWeek samples : List (Step (Ext K)))) = _
  rw [key, List.range_succ_eq_map, List.map_cons, List.map_map]
  congr 1
  · simp
  · refine List.map_congr_left fun y _ => ?_
    simp only [Function.comp_apply, Nat.succ_eq_add_one]
    ext
    · simp; ring
    · push_cast; ring

omit [IsStrictOrderedRing K] [PyTrans (Ext K)] in
theorem tddb_td (samples weeks : Nat) : PlainTest (tddbSteps samples weeks : TestSpec (Ext K)) := by
  refine tddb_plain samples weeks fun st hst => ?_
  rcases List.mem_cons.1 hst with h | h
  · cases h
  · obtain ⟨l, a1, a2⟩ := List.mem_flatten.1 h
    rw [(List.mem_replicate.1 a1).2] at a2
    simp only [tddbWeek, List.mem_cons, Step.strs.injEq, List.not_mem_nil, or_false, reduceCtorEq] at a2
    rcases a2 with rfl | rfl | rfl <;> exact ⟨_, rfl, by decide +kernel⟩

/-- The table of the demonstration. -/
theorem tddb_table [LawfulRng W (Ext K)] (h : TddbDraws W K) {c thermal : ℚ} {ord : SetOrder} {samples : Nat}
    (hs : samples ≠ 1) {weeks fuel : Nat} (hy : 0 < weeks) (hmax : weeks ≤ 1000000) (hf : weeks < fuel)
    {test : TestSpec (Ext K)} {dev : DeviceMdl W (Ext K)} {env : PhysTestEnv (Ext K)}
    (ht : tddbTest fuel samples weeks = some (.ok test)) (hd : tddbDevice c thermal = .ok dev)
    (he : tddbEnv = .ok env) {w w' : W} {r : SimReport (Ext K)}
    (hr : simulate ord test dev env none w = (.ok r, w')) :
    OneName r.measurements test.steps "tddb" 1 1 samples ∧
      (∀ x ∈ r.measurements, x.measured = .fin 0 ∨ x.measured = .fin 1) ∧
      (∀ x ∈ r.measurements, ∃ us, x.time = .td us) ∧
      measPoints 0 0 test.steps = (List.range (weeks + 1)).map fun y : Nat => (4 * y, (y : ℚ) * 168 * 3600000000) := by
  have hread := fun y => C66_readings h hs hy hmax hf ht hd he hr (y := y)
  have hte : test = tddbSteps samples weeks := by
    have := ht.symm.trans (tddbTest_eq samples hy hmax hf)
    injection this with e
    injection e
  have hpts : measPoints 0 0 test.steps = (List.range (weeks + 1)).map fun y : Nat =>
      (4 * y, (y : ℚ) * 168 * 3600000000) := by
    rw [hte]
    exact tddb_points samples weeks
  have hmeas : ∀ m, .meas m ∈ test.steps → m.measurements = [("tddb", samples)] := by
    intro m hm
    rw [hte] at hm
    rcases tddb_mem hm with h | ⟨_, _, _, _, h⟩ <;> cases h
    rfl
  have hone : OneName r.measurements test.steps "tddb" 1 1 samples := by
    refine simulate_oneName hr hmeas fun pre post m e => ?_
    have hm := measPoints_split post pre m 0 0
    rw [← e, hpts] at hm
    obtain ⟨y, hy', e'⟩ := List.mem_map.1 hm
    have e2 : pre.length = 4 * y := by simpa using (congrArg Prod.fst e').symm
    obtain ⟨s, r1, w1, -, -, g⟩ := hread y (Nat.lt_succ_iff.1 (List.mem_range.1 hy'))
    rw [e2, g, expectedRows_places]
  refine ⟨hone, fun x hx => ?_, fun x hx => ?_, hpts⟩
  · have hm : entry x ∈ r.measurements.map entry := List.mem_map_of_mem hx
    rw [hone] at hm
    obtain ⟨it, hit, hm⟩ := List.mem_flatMap.1 hm
    obtain ⟨pl, -, e⟩ := List.mem_map.1 hm
    rw [hpts] at hit
    obtain ⟨y, hy', rfl⟩ := List.mem_map.1 hit
    have e1 : x.step = 4 * y := (congrArg Prod.fst e).symm
    have e2 : x.prm = "tddb" := (oneName_mem hone hx).1
    obtain ⟨s, r1, w1, -, -, g⟩ := hread y (Nat.lt_succ_iff.1 (List.mem_range.1 hy'))
    have hx' : x ∈ rowsAt r.measurements (4 * y) "tddb" := List.mem_filter.2 ⟨hx, by simp [e1, e2]⟩
    rw [g] at hx'
    obtain ⟨l, -, hx'⟩ := List.mem_flatMap.1 hx'
    obtain ⟨c, -, hx'⟩ := List.mem_flatMap.1 hx'
    obtain ⟨d, -, rfl⟩ := List.mem_map.1 hx'
    show intact _ = _ ∨ intact _ = _
    unfold intact
    split
    · left
      show Ext.fin ((0 : ℚ) : K) = _
      rw [Rat.cast_zero]
    · right
      show Ext.fin ((1 : ℚ) : K) = _
      rw [Rat.cast_one]
  · have hp : PlainTest test := by rw [hte]; exact tddb_td samples weeks
    obtain ⟨us, h1, -⟩ := (simulate_exportable hr hp.nodup hp.free hp.times (List.ne_nil_of_mem hx)).times x hx
    exact ⟨us, h1⟩

/-- **C100** for the demonstration of oxide breakdown: for every number of oxides but one, every number of weeks, all draws
and every set order, the failure times given to the figure are, oxide by oxide, the ends of the weeks after which the
oxide is first read as broken, in hours, and the others are the oxides that are intact in all readings. No oxide fails
at the beginning. -/
theorem C100_tddb [LawfulRng W (Ext K)] (h : TddbDraws W K) {c thermal : ℚ} {ord : SetOrder} {samples : Nat}
    (hs : samples ≠ 1) {weeks fuel : Nat} (hy : 0 < weeks) (hmax : weeks ≤ 1000000) (hf : weeks < fuel)
    {test : TestSpec (Ext K)} {dev : DeviceMdl W (Ext K)} {env : PhysTestEnv (Ext K)}
    (ht : tddbTest fuel samples weeks = some (.ok test)) (hd : tddbDevice c thermal = .ok dev)
    (he : tddbEnv = .ok env) {w w' : W} {r : SimReport (Ext K)}
    (hr : simulate ord test dev env none w = (.ok r, w')) (len : ℚ) :
    ∃ fails, failTimes r.measurements = .ok fails ∧ fails.length = samples ∧
      (weibullData len fails).1.length + (weibullData len fails).2.length = samples ∧
      ∀ d < samples, ∃ f, fails[d]? = some f ∧
        FailsAt (deviceCurve r.measurements test.steps 3600000000 "tddb" 0 0 d) (failHours f) ∧
        ∀ t, f = .hours t → ∃ k : Nat, 1 ≤ k ∧ k ≤ weeks ∧ t = 168 * k := by
  obtain ⟨hone, h01, htd, hpts⟩ := tddb_table h hs hy hmax hf ht hd he hr
  have hinit := fun x => C66_initial h hs hy hmax hf ht hd he hr (x := x)
  clear hr ht hd he
  obtain ⟨fails, g1, g2, g3⟩ := C100_failTimes hone (by rw [hpts]; simp) h01 htd
  refine ⟨fails, g1, g2, ?_, fun d hd => ?_⟩
  · rw [← g2]
    clear g1 g2 g3
    induction fails with
    | nil => rfl
    | cons f fs ih =>
      cases f with
      | hours t =>
        simp only [weibullData, List.filterMap_cons, List.length_cons] at ih ⊢
        omega
      | censored =>
        simp only [weibullData, List.filterMap_cons, List.length_cons] at ih ⊢
        omega
  · obtain ⟨f, q1, q2⟩ := g3 d hd
    refine ⟨f, q1, q2, ?_⟩
    rintro t rfl
    obtain ⟨pre, post, e, hpre⟩ := q2
    have hj : (deviceCurve r.measurements test.steps 3600000000 "tddb" 0 0 d)[pre.length]? = some (t, some (.fin 0)) := by
      rw [e]
      simp
    unfold deviceCurve at hj
    rw [hpts, List.map_map, List.getElem?_map, Option.map_eq_some_iff] at hj
    obtain ⟨y, hy1, hy2⟩ := hj
    obtain ⟨hlt, rfl⟩ := List.getElem?_eq_some_iff.1 hy1
    rw [List.length_range] at hlt
    rw [List.getElem_range] at hy2
    have e1 : ((pre.length : ℚ) * 168 * 3600000000) / 3600000000 = t := congrArg Prod.fst hy2
    have e2 : readingAt r.measurements (4 * pre.length) "tddb" 0 0 d = some (.fin 0) := congrArg Prod.snd hy2
    refine ⟨pre.length, ?_, Nat.lt_succ_iff.1 hlt, ?_⟩
    · rcases Nat.eq_zero_or_pos pre.length with h0 | h0
      · exfalso
        rw [h0] at e2
        unfold readingAt at e2
        split at e2
        · rename_i x hx
          have hm : x ∈ [x] := List.mem_singleton.2 rfl
          rw [← hx, List.mem_filter] at hm
          have := hinit x (List.mem_filter.2 ⟨hm.1, by
            have := hm.2
            simp only [Bool.and_eq_true] at this
            simpa using this.1⟩)
          have h2 : x.measured = .fin 0 := by simpa using e2
          rw [h2] at this
          have h3 : (0 : K) = ((1 : ℚ) : K) := Ext.fin.inj this
          rw [Rat.cast_one] at h3
          exact zero_ne_one h3
        · cases e2
      · exact h0
    · rw [← e1, mul_div_assoc, div_self (by norm_num), mul_one, mul_comm]

end tddb

end Gerabaldi.Props
