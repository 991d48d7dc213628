import Verif.Spec.Figures
import Verif.Model.Figures
import Verif.Props.SelfCheck
import Verif.Props.Inspect

/-!
# C100: the figures of the demonstrations
-/

namespace Gerabaldi.Props

open Gerabaldi Gerabaldi.Spec

section table
variable {V : Type}

/-- The numbers of the measurements are increasing. -/
theorem measPoints_sorted (steps : List (Step V)) (i : Nat) (t : ℚ) :
    (∀ x ∈ measPoints i t steps, i ≤ x.1) ∧ ((measPoints i t steps).map Prod.fst).Nodup := by
  induction steps generalizing i t with
  | nil => exact ⟨fun x hx => (List.not_mem_nil hx).elim, List.nodup_nil⟩
  | cons st rest ih =>
    cases st with
    | meas m =>
      obtain ⟨h1, h2⟩ := ih (i + 1) t
      refine ⟨fun x hx => ?_, ?_⟩
      · rcases List.mem_cons.1 hx with rfl | hx
        · exact le_rfl
        · exact (Nat.le_succ i).trans (h1 x hx)
      · refine List.nodup_cons.2 ⟨fun hm => ?_, h2⟩
        obtain ⟨x, hx, e⟩ := List.mem_map.1 hm
        have := h1 x hx
        rw [e] at this
        exact absurd this (Nat.not_succ_le_self i)
    | strs s =>
      obtain ⟨h1, h2⟩ := ih (i + 1) (t + Spec.timeVal s.duration)
      exact ⟨fun x hx => (Nat.le_succ i).trans (h1 x hx), h2⟩
    | other o =>
      obtain ⟨h1, h2⟩ := ih (i + 1) t
      exact ⟨fun x hx => (Nat.le_succ i).trans (h1 x hx), h2⟩

theorem mem_places {L C n l c d : Nat} (hl : l < L) (hc : c < C) (hd : d < n) :
    (some l, some c, some d) ∈ places L C n :=
  List.mem_flatMap.2 ⟨l, List.mem_range.2 hl, List.mem_flatMap.2 ⟨c, List.mem_range.2 hc,
    List.mem_map.2 ⟨d, List.mem_range.2 hd, rfl⟩⟩⟩

theorem of_mem_places {L C n : Nat} {pl : Option Nat × Option Nat × Option Nat} (h : pl ∈ places L C n) :
    ∃ l c d, l < L ∧ c < C ∧ d < n ∧ pl = (some l, some c, some d) := by
  obtain ⟨l, hl, h⟩ := List.mem_flatMap.1 h
  obtain ⟨c, hc, h⟩ := List.mem_flatMap.1 h
  obtain ⟨d, hd, rfl⟩ := List.mem_map.1 h
  exact ⟨l, c, d, List.mem_range.1 hl, List.mem_range.1 hc, List.mem_range.1 hd, rfl⟩

theorem filter_one {α : Type} [BEq α] [LawfulBEq α] {xs : List α} (h : xs.Nodup) {a : α} (ha : a ∈ xs) :
    xs.filter (· == a) = [a] := by
  rw [List.filter_beq, List.count_eq_one_of_mem h ha]
  rfl

/-- The rows of one device: one for each measurement, in the order of the test. -/
theorem oneName_series {rows : List (MeasRow V)} {steps : List (Step V)} {prm : String} {L C n : Nat}
    (h : OneName rows steps prm L C n) {l c d : Nat} (hl : l < L) (hc : c < C) (hd : d < n) :
    (rows.filter fun x => x.prm == prm && place x == (some l, some c, some d)).map entry =
      (measPoints 0 0 steps).map fun it => (it.1, prm, (some l, some c, some d), it.2) := by
  have e : (rows.filter fun x => x.prm == prm && place x == (some l, some c, some d)).map entry =
      (rows.map entry).filter fun y => y.2.1 == prm && y.2.2.1 == (some l, some c, some d) := by
    rw [List.filter_map]
    rfl
  rw [e, h, List.filter_flatMap, List.map_eq_flatMap]
  refine List.flatMap_congr fun it _ => ?_
  rw [List.filter_map]
  have : ((fun y : Entry => y.2.1 == prm && y.2.2.1 == (some l, some c, some d)) ∘ fun pl => (it.1, prm, pl, it.2)) =
      fun pl => pl == (some l, some c, some d) := by
    funext pl
    simp
  rw [this, filter_one (places_distinct L C n) (mem_places hl hc hd)]
  rfl

/-- Row for row, the rows of a device hold the readings of the device. -/
theorem oneName_readings {rows : List (MeasRow V)} {steps : List (Step V)} {prm : String} {L C n : Nat}
    (h : OneName rows steps prm L C n) {l c d : Nat} (hl : l < L) (hc : c < C) (hd : d < n) :
    (rows.filter fun x => x.prm == prm && place x == (some l, some c, some d)).map
        (fun x => (Spec.timeVal x.time, some x.measured)) =
      (measPoints 0 0 steps).map fun it => (it.2, readingAt rows it.1 prm l c d) := by
  have hs := oneName_series h hl hc hd
  set S := rows.filter fun x => x.prm == prm && place x == (some l, some c, some d) with hS
  have hsteps : S.map (fun x => x.step) = (measPoints 0 0 steps).map Prod.fst := by
    have := congrArg (List.map Prod.fst) hs
    simpa [List.map_map, Function.comp_def, entry] using this
  have hnd : (S.map fun x => x.step).Nodup := by
    rw [hsteps]
    exact (measPoints_sorted steps 0 0).2
  have hone : ∀ x ∈ S, readingAt rows x.step prm l c d = some x.measured := by
    intro x hx
    have e : (rows.filter fun y => y.step == x.step && y.prm == prm && place y == (some l, some c, some d)) = [x] := by
      have e1 : (rows.filter fun y => y.step == x.step && y.prm == prm && place y == (some l, some c, some d)) =
          S.filter fun y => y.step == x.step := by
        rw [hS, List.filter_filter]
        congr 1
        funext y
        rw [Bool.and_assoc]
      rw [e1]
      clear_value S
      clear hs hsteps e1 hS
      induction S with
      | nil => exact absurd hx List.not_mem_nil
      | cons y ys ih =>
        rw [List.map_cons, List.nodup_cons] at hnd
        rcases List.mem_cons.1 hx with rfl | hx
        · rw [List.filter_cons_of_pos (by simp)]
          congr 1
          rw [List.filter_eq_nil_iff]
          intro z hz hzx
          exact hnd.1 (List.mem_map.2 ⟨z, hz, by simpa using hzx⟩)
        · rw [List.filter_cons_of_neg, ih hnd.2 hx]
          intro hyx
          exact hnd.1 (List.mem_map.2 ⟨x, hx, by simpa using (by simpa using hyx : y.step = x.step).symm⟩)
    unfold readingAt
    rw [e]
  have hpair : S.map (fun x => (x.step, Spec.timeVal x.time)) = measPoints 0 0 steps := by
    have := congrArg (List.map fun y : Entry => (y.1, y.2.2.2)) hs
    simpa [List.map_map, Function.comp_def, entry] using this
  rw [← hpair, List.map_map]
  refine List.map_congr_left fun x hx => ?_
  show (Spec.timeVal x.time, some x.measured) = (Spec.timeVal x.time, readingAt rows x.step prm l c d)
  rw [hone x hx]

/-- Every row is for one of the devices. -/
theorem oneName_mem {rows : List (MeasRow V)} {steps : List (Step V)} {prm : String} {L C n : Nat}
    (h : OneName rows steps prm L C n) {x : MeasRow V} (hx : x ∈ rows) :
    x.prm = prm ∧ ∃ l c d, l < L ∧ c < C ∧ d < n ∧ place x = (some l, some c, some d) := by
  have : entry x ∈ rows.map entry := List.mem_map_of_mem hx
  rw [h] at this
  obtain ⟨it, -, hm⟩ := List.mem_flatMap.1 this
  obtain ⟨pl, hpl, e⟩ := List.mem_map.1 hm
  obtain ⟨l, c, d, hl, hc, hd, rfl⟩ := of_mem_places hpl
  have e1 : prm = x.prm := congrArg (fun y : Entry => y.2.1) e
  have e2 : (some l, some c, some d) = place x := congrArg (fun y : Entry => y.2.2.1) e
  exact ⟨e1.symm, l, c, d, hl, hc, hd, e2.symm⟩

/-- With the layout of C80, a test that measures one name only gives such a table. -/
theorem layout_oneName {rows : List (MeasRow V)} {steps : List (Step V)} {prm : String} {L C n : Nat}
    {known : String → Bool} (h : rows.map entry = layout L C known 0 0 steps) (hk : known prm = true)
    (hone : ∀ m, .meas m ∈ steps → m.measurements = [(prm, n)]) : OneName rows steps prm L C n := by
  unfold OneName
  rw [h]
  generalize (0 : ℕ) = i
  generalize (0 : ℚ) = t
  clear h
  induction steps generalizing i t with
  | nil => rfl
  | cons st rest ih =>
    have ih := ih (fun m hm => hone m (List.mem_cons_of_mem _ hm))
    cases st with
    | meas m =>
      have hm := hone m List.mem_cons_self
      show m.measurements.flatMap (requested L C known i t) ++ layout L C known (i + 1) (t + 0) rest = _
      rw [hm, add_zero, ih]
      simp [requested, hk, measPoints]
    | strs s => exact ih (i + 1) (t + Spec.timeVal s.duration)
    | other o =>
      show layout L C known (i + 1) (t + 0) rest = _
      rw [add_zero]
      exact ih (i + 1) t

/-- The series of a device is plotted as the curve of the device. -/
theorem series_plot [PyNum V] {rows : List (MeasRow V)} {steps : List (Step V)} {prm : String} {L C n : Nat}
    (h : OneName rows steps prm L C n) {l c d : Nat} (hl : l < L) (hc : c < C) (hd : d < n) {unit : ℚ}
    {g : TimeVal → TimeVal} (hg : ∀ x ∈ rows, g x.time = .num (Spec.timeVal x.time / unit))
    {key : MeasRow V → Bool}
    (hkey : ∀ x ∈ rows, key { x with time := g x.time } = (x.prm == prm && place x == (some l, some c, some d)))
    (hne : measPoints 0 0 steps ≠ []) :
    ∃ xs, seriesOf (rows.map fun x => { x with time := g x.time }) key = .ok xs ∧
      Plots (points xs) (deviceCurve rows steps unit prm l c d) ∧
      ∀ x ∈ xs, ∃ y ∈ rows, x.measured = y.measured := by
  have hr := oneName_readings h hl hc hd
  have hf : (rows.map fun x => ({ x with time := g x.time } : MeasRow V)).filter key =
      (rows.filter fun x => x.prm == prm && place x == (some l, some c, some d)).map
        fun x => { x with time := g x.time } := by
    rw [List.filter_map]
    congr 1
    exact List.filter_congr hkey
  set S := rows.filter fun x => x.prm == prm && place x == (some l, some c, some d) with hS
  have hSne : S ≠ [] := by
    intro h0
    rw [h0] at hr
    exact hne (List.map_eq_nil_iff.1 hr.symm)
  refine ⟨S.map fun x => { x with time := g x.time }, ?_, ?_, ?_⟩
  · unfold seriesOf
    rw [hf]
    cases hS' : S with
    | nil => exact absurd hS' hSne
    | cons x xs => rfl
  · unfold Plots points deviceCurve
    have := congrArg (List.map fun q : ℚ × Option V => (TimeVal.num (q.1 / unit), q.2)) hr
    rw [List.map_map, List.map_map] at this
    rw [List.map_map, List.map_map, List.map_map]
    refine Eq.trans (List.map_congr_left fun x hx => ?_) this
    show (g x.time, some x.measured) = _
    rw [hg x (List.mem_of_mem_filter hx)]
    rfl
  · intro x hx
    obtain ⟨y, hy, rfl⟩ := List.mem_map.1 hx
    exact ⟨y, List.mem_of_mem_filter hy, rfl⟩

/-- The table after `convert_report_time('hours')`. -/
theorem hoursTable_eq [PyNum V] {r : ReportData V} (hr : Exportable r) :
    ∃ g : TimeVal → TimeVal, (∀ x ∈ r.measurements, g x.time = .num (Spec.timeVal x.time / 3600000000)) ∧
      hoursTable r = .ok (r.measurements.map fun x => { x with time := g x.time }) := by
  refine ⟨numIn 3600000000, fun x hx => ?_, ?_⟩
  · obtain ⟨us, h, -⟩ := hr.times x hx
    rw [h]
    rfl
  · unfold hoursTable
    rw [convert_eq hr.meas (fun row h => (hr.times row h).imp fun _ h => h.1) (k := 3600000000)
      (by simp [acceptedUnits])]

/-- **C100** for the basic demonstration's figure: of every report with one row per measurement and device, it shows for
each device the curve of its readings over the hours of the test. -/
theorem C100_basic [PyNum V] {r : ReportData V} (hr : Exportable r) {steps : List (Step V)} {n : Nat}
    (h : OneName r.measurements steps "example_prm" 1 1 n) (hne : measPoints 0 0 steps ≠ []) :
    ∃ curves, basicCurves n r = .ok curves ∧ curves.length = n ∧
      ∀ d < n, ∃ pts, curves[d]? = some pts ∧
        Plots pts (deviceCurve r.measurements steps 3600000000 "example_prm" 0 0 d) := by
  obtain ⟨g, hg, ht⟩ := hoursTable_eq hr
  have key : ∀ d, ∃ xs, d < n → seriesOf (r.measurements.map fun x => { x with time := g x.time })
      (fun x => x.prm == "example_prm" && x.dev == some d) = .ok xs ∧
      Plots (points xs) (deviceCurve r.measurements steps 3600000000 "example_prm" 0 0 d) := by
    intro d
    by_cases hd : d < n
    · obtain ⟨xs, h1, h2, -⟩ := series_plot h Nat.one_pos Nat.one_pos hd hg
        (key := fun x => x.prm == "example_prm" && x.dev == some d) (fun x hx => by
          obtain ⟨-, l, c, d', hl, hc, -, hp⟩ := oneName_mem h hx
          obtain rfl : l = 0 := Nat.lt_one_iff.1 hl
          obtain rfl : c = 0 := Nat.lt_one_iff.1 hc
          have hdev : x.dev = some d' := congrArg (fun y => y.2.2) hp
          rw [hp, hdev]
          congr 1) hne
      exact ⟨xs, fun _ => ⟨h1, h2⟩⟩
    · exact ⟨[], fun h => absurd h hd⟩
  choose X hX using key
  refine ⟨(List.range n).map fun d => points (X d), ?_, by simp, fun d hd => ⟨points (X d), ?_, (hX d hd).2⟩⟩
  · unfold basicCurves
    rw [ht]
    refine mapM_except fun d hd => ?_
    rw [(hX d (List.mem_range.1 hd)).1]
    rfl
  · simp [hd]

end table

/-! ## Averages and bands -/

section spread
variable {K : Type} [Field K] [LinearOrder K] [IsStrictOrderedRing K] [FloorRing K] [Pow10 K]

omit [LinearOrder K] [IsStrictOrderedRing K] [FloorRing K] [Pow10 K] in
theorem arrayOp_fin {f : Ext K → Ext K → Ext K} {g : K → K → K} (hf : ∀ a b, f (.fin a) (.fin b) = .fin (g a b))
    {n : Nat} (a : Nat → K) {s : List K} (hs : s.length = n) :
    arrayOp f ((List.range n).map fun k => .fin (a k)) (s.map .fin) =
      .ok ((List.range n).map fun k => .fin (g (a k) (s.getD k 0))) := by
  unfold arrayOp
  rw [if_pos (by simp [hs])]
  congr 1
  refine List.ext_getElem (by simp [hs]) fun k h1 h2 => ?_
  have hk : k < s.length := by simpa [hs] using h1
  simp [hf, List.getD_eq_getElem?_getD, hk]

omit [IsStrictOrderedRing K] in
theorem npMax_num (a b : K) : npMaximum (.fin a) (.fin b : Ext K) = .fin (max a b) := by
  have e : ∀ x : K, PyArith.eq (.fin x : Ext K) (.fin x) = true := fun x => by
    show decide (x = x) = true
    simp
  have l : PyArith.lt (.fin a : Ext K) (.fin b) = decide (a < b) := rfl
  unfold npMaximum
  rw [e, e, l]
  by_cases h : a < b
  · simp [h, max_eq_right h.le]
  · simp [h, max_eq_left (not_lt.1 h)]

omit [IsStrictOrderedRing K] in
theorem npMin_num (a b : K) : npMinimum (.fin a) (.fin b : Ext K) = .fin (min a b) := by
  have e : ∀ x : K, PyArith.eq (.fin x : Ext K) (.fin x) = true := fun x => by
    show decide (x = x) = true
    simp
  have l : PyArith.lt (.fin b : Ext K) (.fin a) = decide (b < a) := rfl
  unfold npMinimum
  rw [e, e, l]
  by_cases h : b < a
  · simp [h, min_eq_right h.le]
  · simp [h, min_eq_left (not_lt.1 h)]

omit [IsStrictOrderedRing K] in
theorem spread_fold {n : Nat} (series : List (List K)) (hs : ∀ s ∈ series, s.length = n) (a b c : Nat → K) :
    (series.map fun s => s.map Ext.fin).foldlM Spread.more
        (⟨(List.range n).map fun k => .fin (a k), (List.range n).map fun k => .fin (b k),
          (List.range n).map fun k => .fin (c k)⟩ : Spread (Ext K)) =
      .ok ⟨(List.range n).map fun k => .fin ((series.map fun s => s.getD k 0).foldl (· + ·) (a k)),
        (List.range n).map fun k => .fin ((series.map fun s => s.getD k 0).foldl max (b k)),
        (List.range n).map fun k => .fin ((series.map fun s => s.getD k 0).foldl min (c k))⟩ := by
  induction series generalizing a b c with
  | nil => rfl
  | cons s rest ih =>
    have hl := hs s List.mem_cons_self
    rw [List.map_cons, List.foldlM_cons]
    have : (⟨(List.range n).map fun k => .fin (a k), (List.range n).map fun k => .fin (b k),
        (List.range n).map fun k => .fin (c k)⟩ : Spread (Ext K)).more (s.map Ext.fin) =
        .ok ⟨(List.range n).map fun k => .fin (a k + s.getD k 0), (List.range n).map fun k => .fin (max (b k) (s.getD k 0)),
          (List.range n).map fun k => .fin (min (c k) (s.getD k 0))⟩ := by
      unfold Spread.more
      rw [arrayOp_fin (g := (· + ·)) (fun _ _ => rfl) a hl, arrayOp_fin npMax_num b hl, arrayOp_fin npMin_num c hl]
      rfl
    rw [this]
    exact ih (fun x hx => hs x (List.mem_cons_of_mem _ hx)) _ _ _

omit [Field K] [IsStrictOrderedRing K] [FloorRing K] [Pow10 K] in
theorem foldl_max (xs : List K) (b : K) :
    IsGreatest (insert b {x | x ∈ xs}) (xs.foldl max b) := by
  induction xs generalizing b with
  | nil => simp [IsGreatest]
  | cons y ys ih =>
    obtain ⟨h1, h2⟩ := ih (max b y)
    rw [List.foldl_cons]
    refine ⟨?_, ?_⟩
    · rcases h1 with h | h
      · rcases max_choice b y with e | e
        · exact .inl (h.trans e)
        · refine .inr ?_
          rw [h, e]
          exact List.mem_cons_self
      · exact .inr (List.mem_cons_of_mem _ h)
    · rintro x (rfl | hx)
      · exact (le_max_left _ _).trans (h2 (.inl rfl))
      · rcases List.mem_cons.1 hx with rfl | hx
        · exact (le_max_right _ _).trans (h2 (.inl rfl))
        · exact h2 (.inr hx)

omit [Field K] [IsStrictOrderedRing K] [FloorRing K] [Pow10 K] in
theorem foldl_min (xs : List K) (b : K) :
    IsLeast (insert b {x | x ∈ xs}) (xs.foldl min b) := by
  induction xs generalizing b with
  | nil => simp [IsLeast]
  | cons y ys ih =>
    obtain ⟨h1, h2⟩ := ih (min b y)
    rw [List.foldl_cons]
    refine ⟨?_, ?_⟩
    · rcases h1 with h | h
      · rcases min_choice b y with e | e
        · exact .inl (h.trans e)
        · refine .inr ?_
          rw [h, e]
          exact List.mem_cons_self
      · exact .inr (List.mem_cons_of_mem _ h)
    · rintro x (rfl | hx)
      · exact (h2 (.inl rfl)).trans (min_le_left _ _)
      · rcases List.mem_cons.1 hx with rfl | hx
        · exact (h2 (.inl rfl)).trans (min_le_right _ _)
        · exact h2 (.inr hx)

omit [IsStrictOrderedRing K] in
/-- **C100**, averages and bands: of any number of series of finite readings of the same length, the average curve shows
at every point the mean of the values of the series there, and the band reaches from the smallest to the largest value
(counting 1000 among the former and -1000 among the latter, from which the loops start). -/
theorem C100_spread {n : Nat} {series : List (List K)} (hs : ∀ s ∈ series, s.length = n) (hne : series ≠ []) :
    ∃ sp : Spread (Ext K), spreadOf n (series.map fun s => s.map Ext.fin) = .ok sp ∧
      (sp.mean series.length).length = n ∧ sp.max.length = n ∧ sp.min.length = n ∧
      ∀ k < n, (sp.mean series.length)[k]? =
          some (.fin ((series.map fun s => s.getD k 0).sum / (series.length : K))) ∧
        (∃ m, sp.max[k]? = some (.fin m) ∧ IsGreatest (insert (-1000) {x | x ∈ series.map fun s => s.getD k 0}) m) ∧
        ∃ m, sp.min[k]? = some (.fin m) ∧ IsLeast (insert 1000 {x | x ∈ series.map fun s => s.getD k 0}) m := by
  have hst : (Spread.start n : Spread (Ext K)) = ⟨(List.range n).map fun _ => .fin 0, (List.range n).map fun _ => .fin (-1000),
      (List.range n).map fun _ => .fin 1000⟩ := by
    have e : ∀ q : ℚ, (PyArith.ofRat q : Ext K) = .fin (q : K) := fun _ => rfl
    unfold Spread.start
    rw [e, e, e]
    simp
  refine ⟨_, by unfold spreadOf; rw [hst]; exact spread_fold series hs _ _ _, by simp [Spread.mean], by simp, by simp, fun k hk => ⟨?_, ?_, ?_⟩⟩
  · have hc : ((series.length : ℚ) : K) ≠ 0 := by
      rw [Rat.cast_natCast, Nat.cast_ne_zero]
      exact fun h => hne (List.length_eq_zero_iff.1 h)
    have e : ∀ x : K, PyArith.div (.fin x : Ext K) (PyArith.ofRat (series.length : ℚ)) = .fin (x / (series.length : K)) := by
      intro x
      show Ext.div (.fin x) (.fin ((series.length : ℚ) : K)) = _
      simp only [Ext.div, if_neg hc]
      rw [Rat.cast_natCast]
    simp [Spread.mean, hk, e, List.sum_eq_foldl]
  · exact ⟨_, by simp [hk], foldl_max _ _⟩
  · exact ⟨_, by simp [hk], foldl_min _ _⟩

omit [IsStrictOrderedRing K] in
/-- The loop over the series of some devices makes the average and the band of their readings. -/
theorem table_band {rows : List (MeasRow (Ext K))} {steps : List (Step (Ext K))} {prm : String} {unit : ℚ}
    (hfin : ∀ x ∈ rows, ∃ a, x.measured = .fin a) {ks : List (Nat × Nat × Nat)} (hne : ks ≠ [])
    {xs : Nat × Nat × Nat → List (MeasRow (Ext K))}
    (hx : ∀ k ∈ ks, Plots (points (xs k)) (deviceCurve rows steps unit prm k.1 k.2.1 k.2.2) ∧
      ∀ x ∈ xs k, ∃ y ∈ rows, x.measured = y.measured) :
    ∃ sp, spreadOf (measPoints 0 0 steps).length (ks.map fun k => (xs k).map (·.measured)) = .ok sp ∧
      Band rows steps prm ks (sp.mean ks.length) sp.max sp.min := by
  have hv : ∀ k, ∃ v : List K, k ∈ ks → (xs k).map (·.measured) = v.map .fin ∧
      v.length = (measPoints 0 0 steps).length ∧
      ∀ j it, (measPoints 0 0 steps)[j]? = some it →
        readingAt rows it.1 prm k.1 k.2.1 k.2.2 = some (.fin (v.getD j 0)) := by
    intro k
    by_cases hk : k ∈ ks
    · obtain ⟨h1, h2⟩ := hx k hk
      have : ∃ v : List K, (xs k).map (·.measured) = v.map .fin := by
        clear h1
        generalize xs k = X at h2 ⊢
        induction X with
        | nil => exact ⟨[], rfl⟩
        | cons x rest ih =>
          obtain ⟨v, hv⟩ := ih fun y hy => h2 y (List.mem_cons_of_mem _ hy)
          obtain ⟨y, hy, e⟩ := h2 x List.mem_cons_self
          obtain ⟨a, ha⟩ := hfin y hy
          exact ⟨a :: v, by rw [List.map_cons, List.map_cons, hv, e, ha]⟩
      obtain ⟨v, hv⟩ := this
      have h3 := congrArg (List.map Prod.snd) h1
      simp only [points, deviceCurve, List.map_map, Function.comp_def] at h3
      have h4 : (v.map fun a => some (Ext.fin a)) =
          (measPoints 0 0 steps).map fun it => readingAt rows it.1 prm k.1 k.2.1 k.2.2 := by
        rw [← h3]
        have := congrArg (List.map some) hv
        simpa [List.map_map, Function.comp_def] using this.symm
      refine ⟨v, fun _ => ⟨hv, by simpa using congrArg List.length h4, fun j it hj => ?_⟩⟩
      have h5 := congrArg (fun l => l[j]?) h4
      simp only [List.getElem?_map, hj, Option.map_some] at h5
      cases hvj : v[j]? with
      | none => rw [hvj] at h5; cases h5
      | some a =>
        rw [hvj] at h5
        rw [List.getD_eq_getElem?_getD, hvj]
        exact (Option.some.inj h5).symm
    · exact ⟨[], fun h => absurd h hk⟩
  choose v hv using hv
  obtain ⟨sp, h1, h2, h3, h4, h5⟩ := C100_spread (n := (measPoints 0 0 steps).length) (series := ks.map v) (by
    intro s hs
    obtain ⟨k, hk, rfl⟩ := List.mem_map.1 hs
    exact (hv k hk).2.1) (by simpa using hne)
  rw [List.length_map] at h2 h5
  refine ⟨sp, ?_, ⟨h2, h3, h4⟩, fun j it hj => ⟨fun k => (v k).getD j 0, fun k hk => (hv k hk).2.2 j it hj, ?_⟩⟩
  · rw [← h1, List.map_map]
    congr 1
    exact List.map_congr_left fun k hk => (hv k hk).1
  · obtain ⟨a1, a2, a3⟩ := h5 j (List.getElem?_eq_some_iff.1 hj).1
    have e : {x | x ∈ (ks.map v).map fun s => s.getD j 0} = {y | ∃ k ∈ ks, y = (v k).getD j 0} := by
      ext y
      simp only [List.map_map, Set.mem_ofPred_eq, List.mem_map, Function.comp_apply]
      exact ⟨fun ⟨k, h, e⟩ => ⟨k, h, e.symm⟩, fun ⟨k, h, e⟩ => ⟨k, h, e.symm⟩⟩
    rw [e] at a2 a3
    refine ⟨?_, a2, a3⟩
    rw [a1, List.map_map]
    rfl

end spread

end Gerabaldi.Props
