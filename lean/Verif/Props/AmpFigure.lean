import Verif.Props.Fails

/-!
# C100: the figure of `demos/vts_paper_presilicon_variability.py`
-/

namespace Gerabaldi.Props

open Gerabaldi Gerabaldi.Spec

section amp
variable {K : Type} [Field K] [LinearOrder K] [IsStrictOrderedRing K] [FloorRing K] [Pow10 K]

/-- All devices of `L` lots of `C` chips: lot, chip and device, by lots, in each lot by chips. -/
def allDevices (L C n : Nat) : List (Nat × Nat × Nat) :=
  (List.range L).flatMap fun l => (List.range C).flatMap fun c => (List.range n).map fun d => (l, c, d)

theorem mem_allDevices {L C n : Nat} {k : Nat × Nat × Nat} :
    k ∈ allDevices L C n ↔ k.1 < L ∧ k.2.1 < C ∧ k.2.2 < n := by
  obtain ⟨l, c, d⟩ := k
  simp only [allDevices, List.mem_flatMap, List.mem_range, List.mem_map, Prod.mk.injEq]
  constructor
  · rintro ⟨l', h1, c', h2, d', h3, rfl, rfl, rfl⟩
    exact ⟨h1, h2, h3⟩
  · rintro ⟨h1, h2, h3⟩
    exact ⟨l, h1, c, h2, d, h3, rfl, rfl, rfl⟩

theorem allDevices_length (L C n : Nat) : (allDevices L C n).length = n * C * L := by
  simp [allDevices, List.length_flatMap]
  ring

omit [IsStrictOrderedRing K] in
/-- **C100**, amplifiers: for a table with the readings of all devices, the figure shows their average over time, in hours,
and the band between their smallest and largest readings, and the histogram their last readings. -/
theorem C100_ampPlot {r : ReportData (Ext K)} (hr : Exportable r) {steps : List (Step (Ext K))} {lots chips devices : Nat}
    (hl : 0 < lots) (hc : 0 < chips) (hd : 0 < devices) (h : OneName r.measurements steps "amp_gain" lots chips devices)
    (hfin : ∀ x ∈ r.measurements, ∃ a, x.measured = .fin a) (hne : measPoints 0 0 steps ≠ []) :
    ∃ pl, ampPlot lots chips devices r = .ok pl ∧
      pl.times = (measPoints 0 0 steps).map (fun it => .num (it.2 / 3600000000)) ∧
      Band r.measurements steps "amp_gain" (allDevices lots chips devices) pl.avg pl.max pl.min ∧
      pl.final.map some = (allDevices lots chips devices).map fun k =>
        readingAt r.measurements ((measPoints 0 0 steps).getLast hne).1 "amp_gain" k.1 k.2.1 k.2.2 := by
  obtain ⟨g, hg, ht⟩ := hoursTable_eq hr
  set rows := r.measurements.map fun x => ({ x with time := g x.time } : MeasRow (Ext K)) with hrows
  have series : ∀ k : Nat × Nat × Nat, ∃ xs, k ∈ allDevices lots chips devices →
      seriesOf rows (fun x => x.prm == "amp_gain" && x.dev == some k.2.2 && x.chp == some k.2.1 && x.lot == some k.1) =
        .ok xs ∧
      Plots (points xs) (deviceCurve r.measurements steps 3600000000 "amp_gain" k.1 k.2.1 k.2.2) ∧
      ∀ x ∈ xs, ∃ y ∈ r.measurements, x.measured = y.measured := by
    rintro ⟨l, c, d⟩
    by_cases hk : (l, c, d) ∈ allDevices lots chips devices
    · obtain ⟨h1, h2, h3⟩ := mem_allDevices.1 hk
      obtain ⟨xs, a1, a2⟩ := series_plot h h1 h2 h3 hg
        (key := fun x => x.prm == "amp_gain" && x.dev == some d && x.chp == some c && x.lot == some l) (fun x hx => by
          rw [Bool.eq_iff_iff]
          simp only [place, Bool.and_eq_true, beq_iff_eq, Prod.mk.injEq]
          tauto) hne
      exact ⟨xs, fun _ => ⟨a1, a2⟩⟩
    · exact ⟨[], fun h => absurd h hk⟩
  choose X hX using series
  have h0 : (0, 0, 0) ∈ allDevices lots chips devices := mem_allDevices.2 ⟨hl, hc, hd⟩
  obtain ⟨f1, f2, -⟩ := hX (0, 0, 0) h0
  have hlen : ∀ k ∈ allDevices lots chips devices, (X k).length = (measPoints 0 0 steps).length := by
    intro k hk
    have := congrArg List.length (hX k hk).2.1
    simpa [points, deviceCurve] using this
  obtain ⟨sp, s1, s2⟩ := table_band hfin (ks := allDevices lots chips devices) (xs := X)
    (steps := steps) (prm := "amp_gain") (unit := 3600000000) (List.ne_nil_of_mem h0) (fun k hk => (hX k hk).2)
  rw [allDevices_length] at s2
  have hall : ((List.range lots).flatMap fun l => (List.range chips).flatMap fun c => (List.range devices).map fun i =>
      (i, c, l)) = (allDevices lots chips devices).map fun k => (k.2.2, k.2.1, k.1) := by
    simp [allDevices, List.map_flatMap, Function.comp_def]
  have hm : ((allDevices lots chips devices).map fun k => (k.2.2, k.2.1, k.1)).mapM (fun k : Nat × Nat × Nat => seriesOf rows
      (fun x => x.prm == "amp_gain" && x.dev == some k.1 && x.chp == some k.2.1 && x.lot == some k.2.2)) =
      (.ok ((allDevices lots chips devices).map X) : Except Err _) := by
    have : (allDevices lots chips devices).map X = ((allDevices lots chips devices).map fun k => (k.2.2, k.2.1, k.1)).map
        fun k => X (k.2.2, k.2.1, k.1) := by
      rw [List.map_map]
      rfl
    rw [this]
    refine mapM_except fun k hk => ?_
    obtain ⟨k', hk', rfl⟩ := List.mem_map.1 hk
    exact (hX k' hk').1
  have hfin' : (((allDevices lots chips devices).map X).map fun s => s.map (·.measured)).filterMap List.getLast? =
      (allDevices lots chips devices).filterMap fun k => ((X k).map (·.measured)).getLast? := by
    rw [List.filterMap_map, List.filterMap_map]
    rfl
  refine ⟨⟨(X (0, 0, 0)).map (·.time), sp.mean (devices * chips * lots), sp.max, sp.min,
    (((allDevices lots chips devices).map X).map fun s => s.map (·.measured)).filterMap List.getLast?⟩, ?_, ?_, s2, ?_⟩
  · unfold ampPlot
    rw [ht, ok_bind]
    show (seriesOf rows (fun x => x.prm == "amp_gain" && x.dev == some 0 && x.chp == some 0 && x.lot == some 0) >>= _) = _
    rw [f1, ok_bind, hall]
    simp only [hm, ok_bind]
    have s1' : spreadOf (X (0, 0, 0)).length (((allDevices lots chips devices).map X).map fun s => s.map (·.measured)) =
        .ok sp := by
      rw [hlen _ h0, List.map_map]
      exact s1
    rw [s1']
    rfl
  · have := congrArg (List.map Prod.fst) f2
    simp only [points, deviceCurve, List.map_map, Function.comp_def] at this
    exact this
  · show List.map some (List.filterMap _ _) = _
    rw [hfin']
    have : ∀ ks : List (Nat × Nat × Nat), (∀ k ∈ ks, k ∈ allDevices lots chips devices) →
        (ks.filterMap fun k => ((X k).map (·.measured)).getLast?).map some = ks.map fun k =>
          readingAt r.measurements ((measPoints 0 0 steps).getLast hne).1 "amp_gain" k.1 k.2.1 k.2.2 := by
      intro ks
      induction ks with
      | nil => intro _; rfl
      | cons k ks ih =>
        intro hk
        have e := congrArg (List.map Prod.snd) (hX k (hk k List.mem_cons_self)).2.1
        simp only [points, deviceCurve, List.map_map, Function.comp_def] at e
        have e2 := congrArg List.getLast? e
        rw [List.getLast?_map, List.getLast?_map, List.getLast?_eq_getLast_of_ne_nil hne] at e2
        cases hx : (X k).getLast? with
        | none => rw [hx] at e2; cases e2
        | some x =>
          rw [hx] at e2
          rw [List.filterMap_cons, List.getLast?_map, hx]
          show some x.measured :: _ = _
          rw [List.map_cons, ← ih fun k' hk' => hk k' (List.mem_cons_of_mem _ hk')]
          congr 1
          exact Option.some.inj e2
    exact this _ fun k hk => hk

end amp

section amp
variable {K : Type} [Field K] [LinearOrder K] [IsStrictOrderedRing K] [FloorRing K] [Pow10 K]
variable [PyTrans (Ext K)]
variable {W : Type} [Rng W (Ext K)]

/-- The table of a test of the amplifier. -/
theorem amp_table [LawfulRng W (Ext K)] (h : FiniteNormals W K) {init ba ha : LatentVar (Ext K)}
    (hi : CanDraw W init) (hb : CanDraw W ba) (hh : CanDraw W ha) {ord : SetOrder} {n : Nat}
    {test : TestSpec (Ext K)} (ht : AmpTest n test) {r : SimReport (Ext K)} {w w' : W}
    (hr : simulate ord test (ampDev init ba ha) ampWorld none w = (.ok r, w')) :
    OneName r.measurements test.steps "amp_gain" (min n test.numLots) test.numChps n := by
  have hmeas : ∀ m, .meas m ∈ test.steps → m = ampMeas n := by
    intro m hm
    rcases ht.steps _ hm with h | ⟨_, _, _, _, h⟩
    · injection h
    · cases h
  refine simulate_oneName hr (fun m hm => by rw [hmeas m hm]; rfl) fun pre post m e => ?_
  obtain rfl := hmeas m (by rw [e]; simp)
  obtain ⟨s0, r0, s, r1, conds, cs, ia, cur, bti, hci, vdd, gain, mv, w0, w1, w2, -, -, -, -, -, -, -, -, -, -, -, -, g, -⟩ :=
    C68_gain h hi hb hh ht hr e
  rw [g, expectedRows_places]

/-- **C100** for the demonstration of the amplifier: with at least as many devices on a chip as lots, the figure of every
simulation in which all gains are finite can be drawn and shows the average gain of all devices over time with the band of
their readings, and the histogram shows their last readings. -/
theorem C100_amp_partial [LawfulRng W (Ext K)] (h : FiniteNormals W K) {init ba ha : LatentVar (Ext K)}
    (hi : CanDraw W init) (hb : CanDraw W ba) (hh : CanDraw W ha) {ord : SetOrder} {n : Nat}
    {test : TestSpec (Ext K)} (ht : AmpTest n test) (htd : TdSteps test.steps) {r : SimReport (Ext K)} {w w' : W}
    (hr : simulate ord test (ampDev init ba ha) ampWorld none w = (.ok r, w')) (hl : 0 < test.numLots)
    (hc : 0 < test.numChps) (hln : test.numLots ≤ n) (hfin : ∀ x ∈ r.measurements, ∃ a, x.measured = .fin a) :
    ∃ pl, ampPlot test.numLots test.numChps n r.data = .ok pl ∧
      pl.times = (measPoints 0 0 test.steps).map (fun it => .num (it.2 / 3600000000)) ∧
      Band r.measurements test.steps "amp_gain" (allDevices test.numLots test.numChps n) pl.avg pl.max pl.min ∧
      ∃ it, (measPoints 0 0 test.steps).getLast? = some it ∧
        pl.final.map some = (allDevices test.numLots test.numChps n).map fun k =>
          readingAt r.measurements it.1 "amp_gain" k.1 k.2.1 k.2.2 := by
  have hone := amp_table h hi hb hh ht hr
  rw [min_eq_right hln] at hone
  have hp := amp_plain ht htd
  have hpts : measPoints 0 0 test.steps ≠ [] := by
    obtain ⟨pre, post, e⟩ := List.append_of_mem ht.some
    rw [e]
    exact List.ne_nil_of_mem (measPoints_split post pre _ 0 0)
  have hne : r.measurements ≠ [] := by
    intro h0
    have := oneName_series hone hl hc (lt_of_lt_of_le hl hln)
    rw [h0] at this
    exact hpts (List.map_eq_nil_iff.1 this.symm)
  obtain ⟨pl, p1, p2, p3, p4⟩ := C100_ampPlot (r := r.data) (simulate_exportable hr hp.nodup hp.free hp.times hne) hl hc
    (lt_of_lt_of_le hl hln) hone hfin hpts
  exact ⟨pl, p1, p2, p3, _, List.getLast?_eq_getLast_of_ne_nil hpts, p4⟩

/-- **C100**, violated: with fewer devices on a chip than lots, the gain is only measured in as many lots as there are
devices (C44), and the figure cannot be drawn. -/
theorem C100_amp_violated [LawfulRng W (Ext K)] (h : FiniteNormals W K) {init ba ha : LatentVar (Ext K)}
    (hi : CanDraw W init) (hb : CanDraw W ba) (hh : CanDraw W ha) {ord : SetOrder} {n : Nat}
    {test : TestSpec (Ext K)} (ht : AmpTest n test) (htd : TdSteps test.steps) {r : SimReport (Ext K)} {w w' : W}
    (hr : simulate ord test (ampDev init ba ha) ampWorld none w = (.ok r, w'))
    (hc : 0 < test.numChps) (hn : 0 < n) (hln : n < test.numLots) :
    ampPlot test.numLots test.numChps n r.data = .error .keyError := by
  have hone := amp_table h hi hb hh ht hr
  rw [min_eq_left hln.le] at hone
  have hp := amp_plain ht htd
  have hpts : measPoints 0 0 test.steps ≠ [] := by
    obtain ⟨pre, post, e⟩ := List.append_of_mem ht.some
    rw [e]
    exact List.ne_nil_of_mem (measPoints_split post pre _ 0 0)
  have hne : r.measurements ≠ [] := by
    intro h0
    have := oneName_series hone hn hc hn
    rw [h0] at this
    exact hpts (List.map_eq_nil_iff.1 this.symm)
  obtain ⟨g, hg, hht⟩ := hoursTable_eq (simulate_exportable hr hp.nodup hp.free hp.times hne)
  set rows := r.data.measurements.map fun x => ({ x with time := g x.time } : MeasRow (Ext K)) with hrows
  have hser : ∀ i c l : Nat, seriesOf rows (fun x => x.prm == "amp_gain" && x.dev == some i && x.chp == some c &&
      x.lot == some l) = .error .keyError ∨ ∃ xs, seriesOf rows (fun x => x.prm == "amp_gain" && x.dev == some i &&
        x.chp == some c && x.lot == some l) = .ok xs := by
    intro i c l
    unfold seriesOf
    split
    · exact .inl rfl
    · exact .inr ⟨_, rfl⟩
  have hbad : seriesOf rows (fun x => x.prm == "amp_gain" && x.dev == some 0 && x.chp == some 0 &&
      x.lot == some n) = .error .keyError := by
    unfold seriesOf
    have : rows.filter (fun x => x.prm == "amp_gain" && x.dev == some 0 && x.chp == some 0 && x.lot == some n) = [] := by
      rw [List.filter_eq_nil_iff]
      intro x hx hk
      obtain ⟨y, hy, rfl⟩ := List.mem_map.1 hx
      obtain ⟨-, l, c, d, h1, -, -, e⟩ := oneName_mem hone hy
      have e1 : y.lot = some l := congrArg Prod.fst e
      simp only [Bool.and_eq_true, beq_iff_eq, e1, Option.some.injEq] at hk
      omega
    rw [this]
  have hmap : ∀ ks : List (Nat × Nat × Nat), (0, 0, n) ∈ ks → ks.mapM (fun k : Nat × Nat × Nat => seriesOf rows
      (fun x => x.prm == "amp_gain" && x.dev == some k.1 && x.chp == some k.2.1 && x.lot == some k.2.2)) =
      (.error .keyError : Except Err _) := by
    intro ks
    induction ks with
    | nil => intro h; cases h
    | cons k ks ih =>
      intro hm
      rw [List.mapM_cons]
      rcases List.mem_cons.1 hm with rfl | hm
      · rw [hbad]
        rfl
      · rcases hser k.1 k.2.1 k.2.2 with e | ⟨xs, e⟩
        · rw [e]
          rfl
        · rw [e, ok_bind, ih hm]
          rfl
  unfold ampPlot
  rw [hht, ok_bind]
  show (seriesOf rows (fun x => x.prm == "amp_gain" && x.dev == some 0 && x.chp == some 0 && x.lot == some 0) >>= _) = _
  rcases hser 0 0 0 with e | ⟨xs, e⟩
  · rw [e]
    rfl
  · rw [e, ok_bind]
    simp only []
    rw [hmap]
    · rfl
    · refine List.mem_flatMap.2 ⟨n, List.mem_range.2 hln, List.mem_flatMap.2 ⟨0, List.mem_range.2 hc,
        List.mem_map.2 ⟨0, List.mem_range.2 hn, rfl⟩⟩⟩

end amp

end Gerabaldi.Props
