import Verif.Props.AmpFigure

/-!
# C100: the figure of `demos/basic_use.py`, and examples
-/

namespace Gerabaldi.Props

open Gerabaldi Gerabaldi.Spec

section basic
variable {W : Type} [Rng W (Ext ℝ)]

/-- **C100** for the basic demonstration: for every number of devices, all temperatures, lengths of the stress and draws,
the figure shows one curve for each device, with its readings before and after the stress. -/
theorem C100_basicRun [LawfulRng W (Ext ℝ)] {mu sigma : ℚ} (hd : BasicDraws W mu sigma) {ord : SetOrder} {n : Nat}
    (hn : 0 < n) {cold hot : ℝ} {us : Int} (hus : inTimedeltaRange us) {r : SimReport (Ext ℝ)} {w w' : W}
    (h1 : simulate ord (basicSteps n cold hot us) (basicDev mu sigma) ⟨[], []⟩ none w = (.ok r, w')) :
    ∃ curves, basicCurves n r.data = .ok curves ∧ curves.length = n ∧
      ∀ d < n, ∃ pts, curves[d]? = some pts ∧
        Plots pts [(0, readingAt r.measurements 0 "example_prm" 0 0 d),
          (us / 3600000000, readingAt r.measurements 2 "example_prm" 0 0 d)] := by
  have hw := basicDev_works hd
  have hmem : ∀ x ∈ (basicSteps n cold hot us).steps, x = .meas (basicMeas n cold) ∨ x = .strs (basicStrs hot us) := by
    intro x hx
    simp only [basicSteps, List.mem_cons, List.not_mem_nil, or_false] at hx
    rcases hx with h | h | h
    · exact .inl h
    · exact .inr h
    · exact .inl h
  have hmeas : ∀ m, .meas m ∈ (basicSteps n cold hot us).steps → m = basicMeas n cold := by
    intro m hm
    rcases hmem _ hm with h | h <;> cases h
    rfl
  have hlay := C80_layout hw.unique (fun p d hp => (hw.deg p d hp).unique) (fun p d hp => (hw.deg p d hp).shapes) h1
    (fun m hm => by
      rw [hmeas m hm]
      exact ⟨List.nodup_singleton _, List.nodup_singleton _⟩)
    (fun m hm p n hp cm hcm => by
      obtain ⟨rfl, hd⟩ := basicDev_get hcm
      cases hd)
  have hone : OneName r.measurements (basicSteps n cold hot us).steps "example_prm" 1 1 n :=
    layout_oneName hlay rfl fun m hm => by rw [hmeas m hm]; rfl
  have hpts : measPoints 0 0 (basicSteps n cold hot us).steps = [(0, 0), (2, (us : ℚ))] := by
    have : Spec.timeVal (basicStrs hot us).duration = us := rfl
    simp [basicSteps, measPoints, this]
  have hne : r.measurements ≠ [] := by
    intro h0
    have := oneName_series hone Nat.one_pos Nat.one_pos hn
    rw [h0, hpts] at this
    cases this
  have hk : ∀ st ∈ (basicSteps n cold hot us).steps, (stepConditions st).keys = ["temp"] := by
    intro st hst
    rcases hmem st hst with rfl | rfl <;> rfl
  have hex := simulate_exportable h1 (fun st hst => by
      show (stepConditions st).keys.Nodup
      rw [hk st hst]
      decide)
    (fun st hst k hkr => by
      rw [hk st hst]
      revert k
      decide)
    (fun st hst => by
      rcases hmem _ hst with h | h
      · cases h
      · cases h
        exact ⟨us, rfl, hus⟩) hne
  obtain ⟨curves, c1, c2, c3⟩ := C100_basic hex hone (by rw [hpts]; simp)
  refine ⟨curves, c1, c2, fun d hd => ?_⟩
  obtain ⟨pts, q1, q2⟩ := c3 d hd
  refine ⟨pts, q1, ?_⟩
  unfold deviceCurve at q2
  rw [hpts] at q2
  show Plots pts [(0, readingAt r.data.measurements 0 "example_prm" 0 0 d),
    (us / 3600000000, readingAt r.data.measurements 2 "example_prm" 0 0 d)]
  simpa using q2

end basic

/-- The basic demonstration with five devices and 100 hours. -/
example (ord : SetOrder) (w : Counts) : ∃ (r : SimReport (Ext ℝ)) (w' : Counts) (curves : List (List (TimeVal × Ext ℝ))),
    simulate ord (basicSteps 5 298 398 360000000000) (basicDev (1 / 1000) (2 / 10000)) ⟨[], []⟩ none w = (.ok r, w') ∧
    basicCurves 5 r.data = .ok curves ∧ curves.length = 5 ∧
    ∀ d < 5, ∃ pts, curves[d]? = some pts ∧
      Plots pts [(0, readingAt r.measurements 0 "example_prm" 0 0 d),
        (100, readingAt r.measurements 2 "example_prm" 0 0 d)] := by
  have hd := basic_counting (1 / 1000) (2 / 10000)
  obtain ⟨r, w', h1⟩ := C53_generated ord (basicDev_works hd) (envDraws_empty (W := Counts) [])
    (basic_testOk (by decide +kernel : tdValid 360000000000) (n := 5) (cold := 298) (hot := 398)) w
  obtain ⟨curves, h2, h3, h4⟩ := C100_basicRun hd (by norm_num) (by decide +kernel) h1
  refine ⟨r, w', curves, h1, h2, h3, fun d hd => ?_⟩
  obtain ⟨pts, q1, q2⟩ := h4 d hd
  refine ⟨pts, q1, ?_⟩
  norm_num at q2
  exact q2

/-- The rivers of the demonstration: five rivers with ten samples each. -/
example (ord : SetOrder) (w : Counts) : ∃ (r : SimReport (Ext ℝ)) (w' : Counts) (plots : List (RiverPlot (Ext ℝ))),
    simulate ord (riverSteps 10 5 10) riverDev riverWorld none w = (.ok r, w') ∧
    riverFigure 10 5 r.data = .ok plots ∧ plots.length = 5 := by
  obtain ⟨r, w', plots, h1, h2, h3, -⟩ := C100_river (W := Counts) counts_normals (ord := ord) (samples := 10) (rivers := 5)
    (by norm_num) (by norm_num) (fuel := 11) (by norm_num)
    (riverTest_eq 10 5 (years := 10) (fuel := 11) (by norm_num) (by norm_num) (by norm_num)) riverDevice_eq riverEnv_eq w
  exact ⟨r, w', plots, h1, h2, h3⟩

/-- A thousand oxides over ten years. -/
example (ord : SetOrder) (w : Counts) : ∃ (test : TestSpec (Ext ℝ)) (r : SimReport (Ext ℝ)) (w' : Counts) (fails : List FailTime),
    simulate ord test (tddbDev (1 / 10) 5) tddbWorld none w = (.ok r, w') ∧
    failTimes r.measurements = .ok fails ∧ fails.length = 1000 ∧
    ∀ t, .hours t ∈ fails → 168 ≤ t ∧ t ≤ 87360 := by
  obtain ⟨test, dev, env, h1, h2, h3, r, w', h4, -⟩ :=
    C66_run counts_tddb (1 / 10) 5 ord (samples := 1000) (by norm_num) (weeks := 520) (fuel := 521) (by norm_num)
      (by norm_num) (by norm_num) w
  obtain ⟨fails, f1, f2, -, f3⟩ := C100_tddb counts_tddb (by norm_num) (by norm_num) (by norm_num) (by norm_num) h1 h2 h3 h4 0
  have e1 : dev = tddbDev (1 / 10) 5 := by
    have := h2.symm.trans (tddbDevice_eq _ _)
    injection this
  have e2 : env = tddbWorld := by
    have := h3.symm.trans tddbEnv_eq
    injection this
  rw [e1, e2] at h4
  refine ⟨test, r, w', fails, h4, f1, f2, fun t ht => ?_⟩
  obtain ⟨d, hd, e⟩ := List.mem_iff_getElem.1 ht
  obtain ⟨f, q1, -, q2⟩ := f3 d (f2 ▸ hd)
  rw [List.getElem?_eq_getElem hd, e] at q1
  obtain ⟨k, k1, k2, rfl⟩ := q2 t (Option.some.inj q1).symm
  have k1 : (1 : ℚ) ≤ k := by exact_mod_cast k1
  have k2 : (k : ℚ) ≤ 520 := by exact_mod_cast k2
  constructor <;> linarith

namespace FigureEx

open Gerabaldi.Spec.Ex

/-- Constants in place of powers, to calculate with. -/
instance crude : PyTrans Q where
  exp := fun _ => .fin 1
  pow := fun _ _ => .fin 1

theorem fst_run {α β : Type} {x : α × β} {a : α} (h : x.1 = a) : x = (a, x.2) := Prod.ext h rfl

theorem countsQ_normals : FiniteNormals Counts ℚ := fun i mu sigma n w _ =>
  ⟨(List.range n).map fun j => ((100 * i + w.next i + j : Nat) : ℚ), _, by
    show (_, _) = (_, _)
    rw [List.map_map]
    rfl⟩

/-- Two lots with a chip with two amplifiers: all gains are finite, and the figure can be drawn. -/
example : ∃ (r : SimReport Q) (w' : Counts) (pl : AmpPlot Q),
    simulate orderA (loopSteps 2 1 2 1 125 "HTOL Stress" "HTOL Similar Test") curDev ampWorld none Counts.start =
      (.ok r, w') ∧
    ampPlot 2 1 2 r.data = .ok pl ∧ pl.times = [.num 0, .num 50] ∧
    Band r.measurements (loopSteps 2 1 2 1 125 "HTOL Stress" "HTOL Similar Test" : TestSpec Q).steps "amp_gain"
      [(0, 0, 0), (0, 0, 1), (1, 0, 0), (1, 0, 1)] pl.avg pl.max pl.min := by
  obtain ⟨r, hr, hq⟩ := exists_ok (x := (simulate orderA (loopSteps 2 1 2 1 125 "HTOL Stress" "HTOL Similar Test")
      (curDev : DeviceMdl Counts Q) ampWorld none Counts.start).1)
    (f := fun r : SimReport Q => r.measurements.all fun x : MeasRow Q => match x.measured with | .fin _ => true | _ => false)
    (by decide +kernel)
  obtain ⟨pl, h1, h2, h3, -⟩ := C100_amp_partial countsQ_normals (curInit_draws countsQ_normals) (curBti_draws countsQ_normals)
    (curHci_draws countsQ_normals) (loop_amp 2 1 2 (cycles := 1) (by norm_num) 125 "HTOL Stress" "HTOL Similar Test")
    (loop_td 2 1 2 1 125 _ _) (r := r) (fst_run hr) (by decide) (by decide) (by decide) (fun x hx => by
      have := List.all_eq_true.1 hq x hx
      split at this
      · rename_i a e
        exact ⟨a, e⟩
      · cases this)
  exact ⟨r, _, pl, fst_run hr, h1, by rw [h2]; decide +kernel, h3⟩

/-- Two lots with a chip with one amplifier: the figure fails. -/
example : ∃ (r : SimReport Q) (w' : Counts),
    simulate orderA (loopSteps 1 1 2 1 125 "HTOL Stress" "HTOL Similar Test") curDev ampWorld none Counts.start =
      (.ok r, w') ∧ ampPlot 2 1 1 r.data = .error .keyError := by
  obtain ⟨r, hr, -⟩ := exists_ok (x := (simulate orderA (loopSteps 1 1 2 1 125 "HTOL Stress" "HTOL Similar Test")
      (curDev : DeviceMdl Counts Q) ampWorld none Counts.start).1) (f := fun _ => true) (by decide +kernel)
  exact ⟨r, _, fst_run hr, C100_amp_violated countsQ_normals (curInit_draws countsQ_normals)
    (curBti_draws countsQ_normals) (curHci_draws countsQ_normals)
    (loop_amp 1 1 2 (cycles := 1) (by norm_num) 125 "HTOL Stress" "HTOL Similar Test")
    (loop_td 1 1 2 1 125 _ _) (r := r) (fst_run hr) (by decide) (by decide) (by decide)⟩

end FigureEx

end Gerabaldi.Props
