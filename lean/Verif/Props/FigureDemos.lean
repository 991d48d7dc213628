import Verif.Props.Figures

/-!
# C100: what the figures of the demonstrations show
-/

namespace Gerabaldi.Props

open Gerabaldi Gerabaldi.Spec

theorem ok_bind {α β : Type} (a : α) (f : α → Except Err β) : ((.ok a : Except Err α) >>= f) = f a := rfl

section
variable {W V : Type} [PyNum V] [Rng W V]

/-- A simulation of a test that measures one name only, and that on all devices in every measurement. -/
theorem simulate_oneName [LawfulRng W V] {ord : SetOrder} {dev : DeviceMdl W V} {env : PhysTestEnv V} {test : TestSpec V}
    {r : SimReport V} {w w' : W} (h : simulate ord test dev env none w = (.ok r, w')) {prm : String} {L C n : Nat}
    (hone : ∀ m, .meas m ∈ test.steps → m.measurements = [(prm, n)])
    (hpl : ∀ pre post m, test.steps = pre ++ .meas m :: post →
      (rowsAt r.measurements pre.length prm).map place = places L C n) :
    OneName r.measurements test.steps prm L C n := by
  have hnd : ∀ m, .meas m ∈ test.steps → m.measurements.Nodup := fun m hm => by
    rw [hone m hm]
    exact List.nodup_singleton _
  have key : ∀ (post pre : List (Step V)), test.steps = pre ++ post →
      (stepTables r.measurements pre.length post).map entry =
        (measPoints pre.length (pre.map stressLen).sum post).flatMap fun it =>
          (places L C n).map fun pl => (it.1, prm, pl, it.2) := by
    intro post
    induction post with
    | nil => intro pre _; rfl
    | cons st rest ih =>
      intro pre e
      have ih := ih (pre ++ [st]) (by rw [e]; simp)
      rw [List.length_append, List.map_append, List.sum_append] at ih
      have ih : (stepTables r.measurements (pre.length + 1) rest).map entry =
          (measPoints (pre.length + 1) ((pre.map stressLen).sum + stressLen st) rest).flatMap fun it =>
            (places L C n).map fun pl => (it.1, prm, pl, it.2) := by simpa using ih
      show (stepTable r.measurements pre.length st ++ stepTables r.measurements (pre.length + 1) rest).map entry = _
      rw [List.map_append, ih]
      cases st with
      | strs s => rfl
      | other o =>
        show [] ++ (measPoints (pre.length + 1) ((pre.map stressLen).sum + 0) rest).flatMap _ = _
        rw [add_zero]
        rfl
      | meas m =>
        have hm := hone m (by rw [e]; simp)
        have hp := hpl pre rest m e
        have hb := rows_bear h e (hnd m (by rw [e]; simp)) (prm := prm) (n := n) (by rw [hm]; exact List.mem_singleton.2 rfl)
        have hz : stressLen (.meas m) = 0 := rfl
        rw [hz, add_zero]
        show _ = ((pre.length, (pre.map stressLen).sum) :: measPoints (pre.length + 1) (pre.map stressLen).sum rest).flatMap _
        rw [List.flatMap_cons]
        congr 1
        have hk : stepTable r.measurements pre.length (.meas m) = rowsAt r.measurements pre.length prm := by
          show m.measurements.keys.flatMap (rowsAt r.measurements pre.length) = _
          rw [hm]
          simp [Dict.keys]
        rw [hk, ← hp, List.map_map]
        refine List.map_congr_left fun x hx => ?_
        obtain ⟨b1, b2, b3⟩ := hb x hx
        simp [entry, b1, b2, b3]
  have := key test.steps [] rfl
  unfold OneName
  rw [C69_table hnd h]
  exact this

end

/-! ## `demos/riverbed_erosion.py` -/

section river
variable {K : Type} [Field K] [LinearOrder K] [IsStrictOrderedRing K] [FloorRing K] [Pow10 K]
variable {W : Type} [Rng W (Ext K)]

omit [IsStrictOrderedRing K] in
/-- The measurements are made at the beginning and at the end of every year. -/
theorem river_points (samples rivers years : Nat) :
    measPoints 0 0 (riverSteps samples rivers years : TestSpec (Ext K)).steps =
      (List.range (years + 1)).map fun y : Nat => (5 * y, (y : ℚ) * 8760 * 3600000000) := by
  have key : ∀ (n i : Nat) (t : ℚ), measPoints i t (copies n (riverYear samples : List (Step (Ext K)))) =
      (List.range n).map fun y : Nat => (i + 5 * y + 4, t + ((y : ℚ) + 1) * 8760 * 3600000000) := by
    intro n
    induction n with
    | zero => intro i t; rfl
    | succ n ih =>
      intro i t
      have hq : ∀ (tau : ℚ) (name : String), Spec.timeVal (riverFlow tau name : StrsSpec (Ext K)).duration = 7884000000000 := by
        intro tau name
        show ((quarter : Int) : ℚ) = _
        norm_num [quarter]
      have e : copies (n + 1) (riverYear samples : List (Step (Ext K))) =
          .strs (riverFlow 7 "Spring") :: .strs (riverFlow 4 "Summer") :: .strs (riverFlow 2 "Autumn") ::
            .strs (riverFlow 2 "Winter") :: .meas (riverMeas samples) :: copies n (riverYear samples) :=
        Gerabaldi.Props.copies_succ n _
      rw [e, List.range_succ_eq_map, List.map_cons, List.map_map]
      simp only [measPoints, hq, ih]
      congr 1
      · ext
        · simp
        · simp; ring
      · refine List.map_congr_left fun y _ => ?_
        simp only [Function.comp_apply, Nat.succ_eq_add_one]
        ext
        · simp; ring
        · push_cast; ring
  show (0, (0 : ℚ)) :: measPoints 1 0 (copies years (riverYear samples : List (Step (Ext K)))) = _
  rw [key, List.range_succ_eq_map, List.map_cons, List.map_map]
  congr 1
  · simp
  · refine List.map_congr_left fun y _ => ?_
    simp only [Function.comp_apply, Nat.succ_eq_add_one]
    ext
    · simp; ring
    · push_cast; ring

omit [IsStrictOrderedRing K] in
/-- `riverFigure` for a table with one row per measurement, river and sample, over ten years. -/
theorem river_figure {r : ReportData (Ext K)} (hr : Exportable r) {steps : List (Step (Ext K))} {samples rivers : Nat}
    (hs : 0 < samples) (h : OneName r.measurements steps "riverbed_level" 1 rivers samples)
    (hfin : ∀ x ∈ r.measurements, ∃ a, x.measured = .fin a) (h11 : (measPoints 0 0 steps).length = 11) :
    ∃ plots, riverFigure samples rivers r = .ok plots ∧ plots.length = rivers ∧
      ∀ rvr < rivers, ∃ pl, plots[rvr]? = some pl ∧ pl.series.length = samples ∧
        (∀ smpl < samples, ∃ pts, pl.series[smpl]? = some pts ∧
          Plots pts (deviceCurve r.measurements steps (8760 * 3600000000) "riverbed_level" 0 rvr smpl)) ∧
        pl.times = (measPoints 0 0 steps).map (fun it => .num (it.2 / (8760 * 3600000000))) ∧
        Band r.measurements steps "riverbed_level" ((List.range samples).map fun d => (0, rvr, d)) pl.avg pl.max pl.min := by
  have hne : measPoints 0 0 steps ≠ [] := by
    intro h0
    rw [h0] at h11
    cases h11
  obtain ⟨g, hg, ht⟩ := hoursTable_eq hr
  let g' : TimeVal → TimeVal := fun t => match g t with
    | .num q => .num (q / 8760)
    | t => t
  have hg' : ∀ x ∈ r.measurements, g' x.time = .num (Spec.timeVal x.time / (8760 * 3600000000)) := by
    intro x hx
    show (match g x.time with
      | .num q => TimeVal.num (q / 8760)
      | t => t) = _
    rw [hg x hx]
    show TimeVal.num _ = _
    rw [div_div, mul_comm (3600000000 : ℚ)]
  set rows := r.measurements.map fun x => ({ x with time := g' x.time } : MeasRow (Ext K)) with hrows
  have hyears : (r.measurements.map fun x => ({ x with time := g x.time } : MeasRow (Ext K))).mapM (fun x => do
      let t ← inYears x.time
      pure { x with time := t }) = (.ok rows : Except Err _) := by
    rw [hrows]
    have : (r.measurements.map fun x => ({ x with time := g' x.time } : MeasRow (Ext K))) =
        (r.measurements.map fun x => ({ x with time := g x.time } : MeasRow (Ext K))).map fun x =>
          { x with time := match x.time with
            | .num q => .num (q / 8760)
            | t => t } := by
      rw [List.map_map]
      rfl
    rw [this]
    refine mapM_except fun x hx => ?_
    obtain ⟨y, hy, rfl⟩ := List.mem_map.1 hx
    simp only [hg y hy]
    rfl
  have series : ∀ k : Nat × Nat × Nat, ∃ xs, k.1 = 0 ∧ k.2.1 < rivers ∧ k.2.2 < samples →
      seriesOf rows (fun x => x.prm == "riverbed_level" && x.dev == some k.2.2 && x.chp == some k.2.1) = .ok xs ∧
      Plots (points xs) (deviceCurve r.measurements steps (8760 * 3600000000) "riverbed_level" k.1 k.2.1 k.2.2) ∧
      ∀ x ∈ xs, ∃ y ∈ r.measurements, x.measured = y.measured := by
    rintro ⟨l, c, d⟩
    by_cases hk : l = 0 ∧ c < rivers ∧ d < samples
    · obtain ⟨rfl, hc, hd⟩ := hk
      obtain ⟨xs, h1, h2⟩ := series_plot h Nat.one_pos hc hd hg'
        (key := fun x => x.prm == "riverbed_level" && x.dev == some d && x.chp == some c) (fun x hx => by
          obtain ⟨-, l', c', d', hl, -, -, hp⟩ := oneName_mem h hx
          obtain rfl : l' = 0 := Nat.lt_one_iff.1 hl
          have hdev : x.dev = some d' := congrArg (fun y => y.2.2) hp
          have hchp : x.chp = some c' := congrArg (fun y => y.2.1) hp
          rw [hp]
          simp only [hdev, hchp]
          rw [Bool.and_assoc]
          congr 1
          rw [Bool.eq_iff_iff]
          simp [and_comm]) hne
      exact ⟨xs, fun _ => ⟨h1, h2⟩⟩
    · exact ⟨[], fun h => absurd h hk⟩
  choose X hX using series
  have plot : ∀ rvr, ∃ pl, rvr < rivers → riverPlot samples rows rvr = .ok pl ∧ pl.series.length = samples ∧
        (∀ smpl < samples, ∃ pts, pl.series[smpl]? = some pts ∧
          Plots pts (deviceCurve r.measurements steps (8760 * 3600000000) "riverbed_level" 0 rvr smpl)) ∧
        pl.times = (measPoints 0 0 steps).map (fun it => .num (it.2 / (8760 * 3600000000))) ∧
        Band r.measurements steps "riverbed_level" ((List.range samples).map fun d => (0, rvr, d)) pl.avg pl.max
          pl.min := by
    intro rvr
    by_cases hrv : rvr < rivers
    · obtain ⟨f1, f2, -⟩ := hX (0, 0, 0) ⟨rfl, Nat.zero_lt_of_lt hrv, hs⟩
      have hall : (List.range samples).mapM (fun smpl => seriesOf rows
          (fun x => x.prm == "riverbed_level" && x.dev == some smpl && x.chp == some rvr)) =
          (.ok ((List.range samples).map fun smpl => X (0, rvr, smpl)) : Except Err _) :=
        mapM_except fun smpl hm => (hX (0, rvr, smpl) ⟨rfl, hrv, List.mem_range.1 hm⟩).1
      obtain ⟨sp, s1, s2⟩ := table_band hfin (ks := (List.range samples).map fun d => (0, rvr, d)) (xs := X)
        (steps := steps) (prm := "riverbed_level") (unit := 8760 * 3600000000) (by simp; omega) (by
          intro k hk
          obtain ⟨d, hd, rfl⟩ := List.mem_map.1 hk
          exact (hX (0, rvr, d) ⟨rfl, hrv, List.mem_range.1 hd⟩).2)
      rw [h11, List.map_map] at s1
      rw [List.length_map, List.length_range] at s2
      refine ⟨⟨((List.range samples).map fun smpl => X (0, rvr, smpl)).map points, (X (0, 0, 0)).map (·.time),
        sp.mean samples, sp.max, sp.min⟩, fun _ => ⟨?_, by simp, fun smpl hsm => ⟨points (X (0, rvr, smpl)), by simp [hsm],
          (hX (0, rvr, smpl) ⟨rfl, hrv, hsm⟩).2.1⟩, ?_, s2⟩⟩
      · unfold riverPlot
        rw [show seriesOf rows (fun x => x.prm == "riverbed_level" && x.dev == some 0 && x.chp == some 0) = .ok (X (0, 0, 0)) from f1,
          hall]
        have s1' : spreadOf 11 (((List.range samples).map fun smpl => X (0, rvr, smpl)).map fun s => s.map (·.measured)) =
            .ok sp := by
          rw [List.map_map]
          exact s1
        show (spreadOf 11 (((List.range samples).map fun smpl => X (0, rvr, smpl)).map fun s => s.map (·.measured)) >>= _) = _
        rw [s1']
        rfl
      · have := congrArg (List.map Prod.fst) f2
        simp only [points, deviceCurve, List.map_map, Function.comp_def] at this
        exact this
    · exact ⟨⟨[], [], [], [], []⟩, fun h => absurd h hrv⟩
  choose P hP using plot
  refine ⟨(List.range rivers).map P, ?_, by simp, fun rvr hrv => ⟨P rvr, by simp [hrv], (hP rvr hrv).2⟩⟩
  unfold riverFigure
  rw [ht, ok_bind, hyears, ok_bind]
  exact mapM_except fun rvr hm => (hP rvr (List.mem_range.1 hm)).1

omit [IsStrictOrderedRing K] [Rng W (Ext K)] in
theorem river_known : ((riverDev (W := W) (K := K)).prms.get? "riverbed_level").isSome = true := rfl

/-- The table of the demonstration. -/
theorem river_table [LawfulRng W (Ext K)] (h : FiniteNormals W K) {ord : SetOrder} {samples rivers years : Nat} {w w' : W}
    {r : SimReport (Ext K)}
    (h1 : simulate ord (riverSteps samples rivers years) riverDev riverWorld none w = (.ok r, w')) :
    OneName r.measurements (riverSteps samples rivers years : TestSpec (Ext K)).steps "riverbed_level" 1 rivers samples := by
  have hw := riverDev_works (W := W) h
  have hmeas : ∀ m, .meas m ∈ (riverSteps samples rivers years : TestSpec (Ext K)).steps → m = riverMeas samples := by
    intro m hm
    rcases river_mem hm with h | ⟨_, _, h⟩ <;> cases h
    rfl
  have hlay := C80_layout hw.unique (fun p d hp => (hw.deg p d hp).unique) (fun p d hp => (hw.deg p d hp).shapes) h1
    (fun m hm => by
      rw [hmeas m hm]
      exact ⟨List.nodup_singleton _, List.nodup_singleton _⟩)
    (fun m hm p n hp cm hcm => by
      obtain ⟨rfl, hd⟩ := riverDev_get hcm
      cases hd)
  exact layout_oneName hlay river_known fun m hm => by rw [hmeas m hm]; rfl

/-- **C100** for the demonstration of erosion: for every number of rivers and of samples, all finite draws and every set
order, the figure can be drawn, and shows for each sample the curve of its readings over the years, and for each river
the mean of its samples and the band between their smallest and largest readings, at the beginning and after each of
the ten years. -/
theorem C100_river [LawfulRng W (Ext K)] (h : FiniteNormals W K) {ord : SetOrder} {samples rivers : Nat}
    (hs : 0 < samples) (hrv : 0 < rivers) {fuel : Nat} (hf : 10 < fuel) {test : TestSpec (Ext K)}
    {dev : DeviceMdl W (Ext K)} {env : PhysTestEnv (Ext K)} (ht : riverTest fuel samples rivers 10 = some (.ok test))
    (hd : riverDevice = .ok dev) (he : riverEnv = .ok env) (w : W) :
    ∃ (r : SimReport (Ext K)) (w' : W) (plots : List (RiverPlot (Ext K))),
      simulate ord test dev env none w = (.ok r, w') ∧
      riverFigure samples rivers r.data = .ok plots ∧ plots.length = rivers ∧
      ∀ rvr < rivers, ∃ pl, plots[rvr]? = some pl ∧ pl.series.length = samples ∧
        (∀ smpl < samples, ∃ pts, pl.series[smpl]? = some pts ∧
          Plots pts (deviceCurve r.measurements test.steps (8760 * 3600000000) "riverbed_level" 0 rvr smpl)) ∧
        pl.times = (List.range 11).map (fun y : Nat => .num (y : ℚ)) ∧
        Band r.measurements test.steps "riverbed_level" ((List.range samples).map fun d => (0, rvr, d)) pl.avg
          pl.max pl.min := by
  have ht' := ht.symm.trans (riverTest_eq samples rivers (years := 10) (fuel := fuel) (by norm_num) (by norm_num) hf)
  have hte : test = riverSteps samples rivers 10 := by injection ht' with e; injection e
  have hde : dev = riverDev := by
    have := hd.symm.trans riverDevice_eq
    injection this
  have hee : env = riverWorld := by
    have := he.symm.trans riverEnv_eq
    injection this
  clear ht ht' hd he
  have hpts := river_points (K := K) samples rivers 10
  have hp := river_plain (K := K) samples rivers 10
  have hok := riverTest_ok (W := W) h samples rivers (years := 10) (by norm_num)
  have hcon := river_conditions (K := K) samples rivers 10
  have htab := fun ord w w' r => river_table h (ord := ord) (samples := samples) (rivers := rivers) (years := 10) (w := w)
    (w' := w') (r := r)
  rw [← hte] at hpts hp hok hcon htab
  clear hte
  rw [← hde] at hok htab
  rw [← hee] at hok htab
  have hw := riverDev_works (W := W) h
  have hw2 := riverDev_finite (W := W) h
  have hw3 := riverWorld_draws (W := W) h
  have hw4 := riverWorld_finite (W := W) h
  rw [← hde] at hw hw2
  rw [← hee] at hw3 hw4
  clear hde hee
  obtain ⟨r, w', h1, h2⟩ := C53_finite ord hw hw2 hw3 hw4 hok hcon w
  have hone := htab ord w w' r h1
  have hne : r.measurements ≠ [] := by
    intro h0
    have := oneName_series hone Nat.one_pos hrv hs
    rw [h0, hpts] at this
    exact absurd (congrArg List.length this) (by simp)
  obtain ⟨plots, p1, p2, p3⟩ := river_figure (simulate_exportable h1 hp.nodup hp.free hp.times hne) hs hone h2
    (by rw [hpts]; simp)
  refine ⟨r, w', plots, h1, p1, p2, fun rvr hr => ?_⟩
  obtain ⟨pl, q1, q2, q3, q4, q5⟩ := p3 rvr hr
  refine ⟨pl, q1, q2, q3, ?_, q5⟩
  rw [q4, hpts, List.map_map]
  refine List.map_congr_left fun y _ => ?_
  simp only [Function.comp_apply]
  congr 1
  rw [mul_assoc, mul_div_assoc, div_self (by norm_num), mul_one]

end river

end Gerabaldi.Props
