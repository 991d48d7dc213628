import Verif.Props.DemoEntry

/-!
# C99: the exit codes of the demonstrations

Whatever is drawn, the demonstrations run with `--test` end with exit code 0, with and without saving the reports. Run on
saved reports they never do: a loaded report has no `dev_counts`, and the two demonstrations with several reports put
them in a set, which cannot be indexed.
-/

namespace Gerabaldi.Props
open Gerabaldi Gerabaldi.Spec

/-! ## Saving -/

section save
variable {V : Type}

theorem json_proper (s : String) : ProperName (s ++ ".json") := by
  have hl : (s ++ ".json").length = s.length + 5 := by rw [String.length_append]; rfl
  constructor
  · intro h
    rw [h] at hl
    exact absurd hl (by show ¬ 0 = _; omega)
  · intro h
    rw [h] at hl
    exact absurd hl (by show ¬ 1 = _; omega)

theorem place_ne {d : Disk V} (hs : SaneDisk d) {dir : List String} {name : String} (hn : ProperName name)
    (ht : d.place (dir ++ [name]) ∉ d.dirs) : d.place (dir ++ [name]) ≠ d.place dir := by
  intro h
  rcases place_name d dir hn with h' | ⟨-, h'⟩
  · rw [h'] at h
    exact absurd (congrArg List.length h) (by simp)
  · exact ht (by rw [h, h']; exact hs.cwd)

theorem exportFile_cwd {enc : JsonEnc V} {r : ReportData V} {d d' : Disk V} {file : List String} {given : Option String}
    {j : ReportJson V} (h : r.exportFile enc d file given = (.ok j, d')) : d'.cwd = d.cwd := by
  unfold ReportData.exportFile at h
  split at h
  · cases h
  · split at h
    · cases h
    · rename_i d1 h1
      split at h
      · cases h
      · rename_i d2 h2
        cases h
        have e1 : d1.cwd = d.cwd := by
          unfold Disk.mkdir at h1
          split_ifs at h1 <;> cases h1 <;> rfl
        rw [← e1]
        unfold Disk.write at h2
        split_ifs at h2
        cases h2
        rfl

/-- The directory `data` beside the program can be used for reports with these names: the program's directory exists, and
there is nothing else called `data` or like the reports. -/
structure CanSave (d : Disk V) (here : List String) (names : List String) : Prop where
  sane : SaneDisk d
  names : ∀ n ∈ names, Reachable d (here ++ ["data"]) (n ++ ".json")

theorem saveOne_ok {enc : JsonEnc V} (he : TenDigits enc) {r : SimReport V} (hr : Exportable r.data) {d : Disk V}
    {here : List String} {name : String} {names : List String} (hd : CanSave d here (name :: names)) :
    ∃ d', saveOne enc (dataFile here name) r d = (.ok (), d') ∧ CanSave d' here names := by
  have hn := json_proper name
  have hre := hd.names name List.mem_cons_self
  obtain ⟨j, units, d', h1, -, -, h4, h5, h6⟩ := C86_saved_partial he hr (given := some "hours") (k := 3600000000)
    (by simp [acceptedUnits]) (by simp) (by norm_num) hd.sane hn hre
  have hp : ∀ x, d'.place x = d.place x := by
    intro x
    unfold Disk.place
    rw [exportFile_cwd h1]
  have e : dataFile here name = (here ++ ["data"]) ++ [name ++ ".json"] := by simp [dataFile]
  refine ⟨d', ?_, h4, fun n hnn => ⟨?_, ?_, ?_⟩⟩
  · unfold saveOne
    rw [e, h1]
  · rw [hp]
    exact (h5 _).2 (.inr hre.above)
  · rw [hp, h6 _ (place_ne hd.sane hn hre.target).symm]
    exact hre.free
  · have hr' := hd.names n (List.mem_cons_of_mem _ hnn)
    rw [hp, h5]
    rintro (h | h)
    · exact place_ne hd.sane (json_proper n) hr'.target h
    · exact hr'.target h

theorem saveAll_ok {enc : JsonEnc V} (he : TenDigits enc) {here : List String} {l : List (String × SimReport V)}
    (hl : ∀ x ∈ l, Exportable x.2.data) {d : Disk V}
    (hd : CanSave d here (l.map Prod.fst)) : ∃ d', saveAll enc here l d = (.ok (), d') := by
  induction l generalizing d with
  | nil => exact ⟨d, rfl⟩
  | cons x l ih =>
    obtain ⟨d1, h1, h2⟩ := saveOne_ok he (hl x List.mem_cons_self) hd
    obtain ⟨d2, h3⟩ := ih (fun y hy => hl y (List.mem_cons_of_mem _ hy)) h2
    refine ⟨d2, ?_⟩
    unfold saveAll
    rw [h1]
    exact h3

end save

/-! ## The checks -/

section one
variable {K : Type} [Field K] [LinearOrder K] [IsStrictOrderedRing K] [FloorRing K] [Pow10 K]
variable {W : Type} [Rng W (Ext K)]

/-- **C99** for the demonstration of erosion. -/
theorem C99_river_partial [LawfulRng W (Ext K)] (h : FiniteNormals W K) (ord : SetOrder) (enc : JsonEnc (Ext K))
    (here : List String) (save : Bool) (d : Disk (Ext K)) (w : W)
    (hs : save = true → TenDigits enc ∧ CanSave d here ["erosion_report"]) :
    (riverEntry ord enc here none save d w).1 = .ok 0 := by
  obtain ⟨r, w', h1, h2, h3⟩ := river_passes h ord w
  unfold riverEntry testEntry
  rw [h1]
  cases save with
  | false =>
    show exitCode (riverChecks r.obj) = _
    rw [h2]
    rfl
  | true =>
    obtain ⟨he, hd⟩ := hs rfl
    obtain ⟨d', h4, -⟩ := saveOne_ok he h3 hd
    simp only [Option.map_none, if_true, h4]
    rw [h2]
    rfl

end one

section several
variable {K : Type} [Field K] [LinearOrder K] [IsStrictOrderedRing K] [FloorRing K] [Pow10 K]
variable [PyTrans (Ext K)]
variable {W : Type} [Rng W (Ext K)]

theorem tddbRuns_good [LawfulRng W (Ext K)] (h : TddbDraws W K) (ord : SetOrder) (l : List ℚ) (w : W) :
    ∃ (rs : List (SimReport (Ext K))) (w' : W), tddbRuns ord (tddbSteps 100 104) l w = (.ok rs, w') ∧
      rs.length = l.length ∧ ∀ r ∈ rs, TddbGood r := by
  induction l generalizing w with
  | nil => exact ⟨[], w, rfl, rfl, by simp⟩
  | cons step l ih =>
    obtain ⟨r, w1, h1, h2⟩ := tddb_good (W := W) h (4 / 100000) step ord w
    obtain ⟨rs, w2, h3, h4, h5⟩ := ih w1
    refine ⟨r :: rs, w2, ?_, by simp [h4], ?_⟩
    · unfold tddbRuns
      rw [tddbEnv_eq, tddbDevice_eq, ofOk_bind, ofOk_bind, M.bind_ok h1, M.bind_ok h3]
      rfl
    · intro x hx
      rcases List.mem_cons.1 hx with rfl | hx
      · exact h2
      · exact h5 x hx

/-- **C99** for the demonstration of oxide breakdown. -/
theorem C99_tddb_partial [LawfulRng W (Ext K)] (h : TddbDraws W K) (ord : SetOrder) (enc : JsonEnc (Ext K))
    (here : List String) (save : Bool) (d : Disk (Ext K)) (w : W)
    (hs : save = true → TenDigits enc ∧ CanSave d here (tddbFiles.map Prod.snd)) :
    (tddbEntry ord enc here none save d w).1 = .ok 0 := by
  obtain ⟨rs, w', h1, h2, h3⟩ := tddbRuns_good (W := W) h ord (tddbFiles.map Prod.fst) w
  have hrun : tddbDemo ord w = (.ok rs, w') := by
    unfold tddbDemo
    rw [tddbTest_eq 100 (weeks := 104) (by norm_num) (by norm_num) (by norm_num), madeTest_bind]
    exact h1
  obtain ⟨a, b, c, e, f, rfl⟩ : ∃ a b c e f, rs = [a, b, c, e, f] := by
    match rs, h2 with
    | [a, b, c, e, f], _ => exact ⟨a, b, c, e, f, rfl⟩
  have hcheck : tddbChecks (Reports.dict ((tddbFiles.map Prod.fst).zip ([a, b, c, e, f].map SimReport.obj))) =
      .ok [true, true, true, true] := by
    have g1 : (Reports.dict ((tddbFiles.map Prod.fst).zip ([a, b, c, e, f].map SimReport.obj))).get (115 / 100) =
        .ok f.obj := by simp [Reports.get, tddbFiles, List.find?]; norm_num
    have g2 : (Reports.dict ((tddbFiles.map Prod.fst).zip ([a, b, c, e, f].map SimReport.obj))).get (1075 / 1000) =
        .ok b.obj := by simp [Reports.get, tddbFiles, List.find?]; norm_num
    have g3 : (Reports.dict ((tddbFiles.map Prod.fst).zip ([a, b, c, e, f].map SimReport.obj))).get (105 / 100) =
        .ok a.obj := by simp [Reports.get, tddbFiles]
    have g4 : (Reports.dict ((tddbFiles.map Prod.fst).zip ([a, b, c, e, f].map SimReport.obj))).get (110 / 100) =
        .ok c.obj := by simp [Reports.get, tddbFiles, List.find?]; norm_num
    unfold tddbChecks
    rw [g1, g2, g3, g4]
    show (f.obj.rowCount >>= fun n => b.obj.cellAt 339 "v_g" >>= fun vg => a.obj.hoursAt 31 "duration" >>= fun hours =>
      c.obj.countOf "tddb" >>= fun k => pure [n == 10500, cellIs vg (87 / 100), hours == 122, k == 100]) = _
    rw [(h3 f (by simp)).rows, (h3 b (by simp)).gate, (h3 a (by simp)).idle, (h3 c (by simp)).count]
    show Except.ok [_, cellIs _ _, _, _] = _
    rw [cellIs_self]
    rfl
  unfold tddbEntry testEntry
  rw [hrun]
  cases save with
  | false =>
    show exitCode (tddbChecks _) = _
    rw [hcheck]
    rfl
  | true =>
    obtain ⟨he, hd⟩ := hs rfl
    obtain ⟨d', h4⟩ := saveAll_ok he (l := (tddbFiles.map Prod.snd).zip [a, b, c, e, f])
      (fun x hx => (h3 _ (List.of_mem_zip hx).2).saves) hd
    simp only [Option.map_none, if_true, h4]
    rw [hcheck]
    rfl

/-- **C99** for the demonstration of process variability. -/
theorem C99_amp_partial [LawfulRng W (Ext K)] (h : FiniteNormals W K) (ord : SetOrder) (enc : JsonEnc (Ext K))
    (here : List String) (save : Bool) (d : Disk (Ext K)) (w : W)
    (hs : save = true → TenDigits enc ∧ CanSave d here (ampFiles.map Prod.snd)) :
    (ampEntry ord enc here none save d w).1 = .ok 0 := by
  obtain ⟨r1, w1, e1, f1⟩ := loop_good h (curInit_draws h) (curBti_draws h) (curHci_draws h) ord 125 "HTOL Stress"
    "HTOL Similar Test" w
  obtain ⟨r2, w2, e2, f2⟩ := loop_good h (curInit_draws h) (curBti_draws h) (curHci_draws h) ord (-10)
    "Low Temperature Stress" "LTOL Similar Test" w1
  obtain ⟨r0, w3, e0, f0⟩ := ramp_good h (curInit_draws h) (curBti_draws h) (curHci_draws h) ord w2
  obtain ⟨r4, w4, e4, f4⟩ := loop_good h (newInit_draws h) (newBti_draws h) (newHci_draws h) ord 125 "HTOL Stress"
    "HTOL Similar Test" w3
  obtain ⟨r5, w5, e5, f5⟩ := loop_good h (newInit_draws h) (newBti_draws h) (newHci_draws h) ord (-10)
    "Low Temperature Stress" "LTOL Similar Test" w4
  obtain ⟨r3, w6, e3, f3⟩ := ramp_good h (newInit_draws h) (newBti_draws h) (newHci_draws h) ord w5
  have hrun : ampDemo ord w = (.ok [r0, r1, r2, r3, r4, r5], w6) := by
    unfold ampDemo
    rw [ampLoopTest_eq 5 5 5 (cycles := 20) (by norm_num) (by norm_num) (by norm_num),
      ampLoopTest_eq 5 5 5 (cycles := 20) (by norm_num) (by norm_num) (by norm_num), ampRampTest_eq, ampEnv_eq,
      ampDevice_eq, madeTest_bind, madeTest_bind, ofOk_bind, ofOk_bind, ofOk_bind, ampNewProcess_eq]
    unfold curDev newDev
    rw [M.bind_ok e1, M.bind_ok e2, M.bind_ok e0, ofOk_bind, M.bind_ok e4, M.bind_ok e5, M.bind_ok e3]
    rfl
  have hcheck : ampChecks (Reports.dict ((ampFiles.map Prod.fst).zip ([r0, r1, r2, r3, r4, r5].map SimReport.obj))) =
      .ok [true, true, true, true] := by
    have g1 : (Reports.dict ((ampFiles.map Prod.fst).zip ([r0, r1, r2, r3, r4, r5].map SimReport.obj))).get
        "Current Process: LTOL" = .ok r2.obj := by simp [Reports.get, ampFiles, List.find?]
    have g2 : (Reports.dict ((ampFiles.map Prod.fst).zip ([r0, r1, r2, r3, r4, r5].map SimReport.obj))).get
        "New Process: Ramped Cycling" = .ok r3.obj := by simp [Reports.get, ampFiles, List.find?]
    have g3 : (Reports.dict ((ampFiles.map Prod.fst).zip ([r0, r1, r2, r3, r4, r5].map SimReport.obj))).get
        "Current Process: HTOL" = .ok r1.obj := by simp [Reports.get, ampFiles, List.find?]
    have g4 : (Reports.dict ((ampFiles.map Prod.fst).zip ([r0, r1, r2, r3, r4, r5].map SimReport.obj))).get
        "New Process: LTOL" = .ok r5.obj := by simp [Reports.get, ampFiles, List.find?]
    unfold ampChecks
    rw [g1, g2, g3, g4]
    show (r2.obj.rowCount >>= fun n => r3.obj.cellAt 29 "vdd" >>= fun vdd => r1.obj.hoursAt 13 "start time" >>=
      fun hours => r5.obj.countOf "v_th" >>= fun k =>
        pure [n == 2625, cellIs vdd (102 / 100), hours == 300, k == 5]) = _
    rw [f2.rows, f3.supply, f1.start, f5.count]
    show Except.ok [_, cellIs _ _, _, _] = _
    rw [cellIs_self]
    rfl
  unfold ampEntry testEntry
  rw [hrun]
  cases save with
  | false =>
    show exitCode (ampChecks _) = _
    rw [hcheck]
    rfl
  | true =>
    obtain ⟨he, hd⟩ := hs rfl
    obtain ⟨d', h4⟩ := saveAll_ok he (l := (ampFiles.map Prod.snd).zip [r0, r1, r2, r3, r4, r5])
      (fun x hx => by
        have := (List.of_mem_zip hx).2
        simp only [List.mem_cons, List.not_mem_nil, or_false] at this
        rcases this with h | h | h | h | h | h <;> rw [h]
        · exact f0.saves
        · exact f1.saves
        · exact f2.saves
        · exact f3.saves
        · exact f4.saves
        · exact f5.saves) hd
    simp only [Option.map_none, if_true, h4]
    rw [hcheck]
    rfl

end several

section basic
variable {W : Type} [Rng W (Ext ℝ)]

/-- The basic demonstration runs and its report passes the checks. -/
theorem basic_passes [LawfulRng W (Ext ℝ)] (hd : BasicDraws W (1 / 1000) (2 / 10000)) (ord : SetOrder) (w : W) :
    ∃ (r : SimReport (Ext ℝ)) (w' : W), basicDemo ord (1 / 1000) (2 / 10000) 5 (PyArith.ofRat (25 + 27315 / 100))
        (PyArith.ofRat (125 + 27315 / 100)) 100 w = (.ok r, w') ∧
      basicChecks r.obj = .ok [true, true, true, true] ∧ Exportable r.data := by
  let us : Int := 360000000000
  have hus : tdOfNum .hours 100 = .ok us := by decide +kernel
  have hv : tdValid us := by decide +kernel
  let cold : ℝ := ((25 + 27315 / 100 : ℚ) : ℝ)
  let hot : ℝ := ((125 + 27315 / 100 : ℚ) : ℝ)
  have hw := basicDev_works hd
  have hok := basic_testOk (W := W) (mu := 1 / 1000) (sigma := 2 / 10000) hv (n := 5) (cold := cold) (hot := hot)
  obtain ⟨r, w', h1⟩ := C53_generated ord hw (envDraws_empty (W := W) []) hok w
  have hlen : r.measurements.length = 10 := by
    rw [C80_size hw.unique (fun p d hp => (hw.deg p d hp).unique) (fun p d hp => (hw.deg p d hp).shapes) h1 ?_ ?_]
    · simp [stepSize, basicSteps, basicMeas]
    · intro m hm
      have : m = basicMeas 5 cold := by simpa [basicSteps] using hm
      subst this
      exact ⟨List.nodup_singleton _, List.nodup_singleton _⟩
    · intro m hm p n hp cm hcm
      obtain ⟨rfl, hd⟩ := basicDev_get hcm
      cases hd
  have hne : r.measurements ≠ [] := by
    intro h
    rw [h] at hlen
    cases hlen
  have hmem : ∀ x ∈ (basicSteps 5 cold hot us).steps, x = .meas (basicMeas 5 cold) ∨ x = .strs (basicStrs hot us) := by
    intro x hx
    simp only [basicSteps, List.mem_cons, List.not_mem_nil, or_false] at hx
    rcases hx with h | h | h
    · exact .inl h
    · exact .inr h
    · exact .inl h
  have hp : PlainTest (basicSteps 5 cold hot us) := by
    have hk : ∀ st ∈ (basicSteps 5 cold hot us).steps, (stepConditions st).keys = ["temp"] := by
      intro st hst
      rcases hmem st hst with rfl | rfl <;> rfl
    refine ⟨fun d hd => ?_, fun st hst => ?_, fun st hst k hkr => ?_, fun st hst => ?_⟩
    · rcases hmem _ hd with h | h <;> cases h
    · show (stepConditions st).keys.Nodup
      rw [hk st hst]
      decide
    · rw [hk st hst]
      revert k
      decide
    · rcases hmem _ hst with h | h
      · cases h
      · cases h
        exact ⟨us, rfl, by decide +kernel⟩
  have hcnt : r.devCounts.get? "example_prm" = some 5 := by
    refine one_count hw hok h1 (d := basicPrm (1 / 1000) (2 / 10000)) ?_ ⟨_, List.mem_cons_self⟩ rfl
    intro m hm
    rcases hmem _ hm with h | h <;> cases h
    rfl
  refine ⟨r, w', ?_, ?_, simulate_exportable h1 hp.nodup hp.free hp.times hne⟩
  · unfold basicDemo
    rw [show (PyArith.ofRat (25 + 27315 / 100) : Ext ℝ) = .fin cold from rfl,
      show (PyArith.ofRat (125 + 27315 / 100) : Ext ℝ) = .fin hot from rfl, basicTest_eq hus (by decide), basicDevice_eq,
      ofOk_bind, ofOk_bind]
    exact h1
  · have a1 := (C99_cells hp h1 hne (i := 2) (st := .meas (basicMeas 5 cold)) rfl).1 "temp" _ rfl
    have a2 := (C99_cells hp h1 hne (i := 1) (st := .strs (basicStrs hot us)) rfl).2.2.2.2
    have a3 : r.obj.hoursAt 1 "end time" = .ok 100 := by
      rw [a2]
      simp [basicSteps, stressLen, basicStrs, Spec.timeVal, us]
      norm_num
    unfold basicChecks
    rw [a1, a3]
    simp only [ReportObj.rowCount, ReportObj.countOf, SimReport.obj, hlen, hcnt]
    show Except.ok [_, cellIs (some (.val (PyArith.ofRat (25 + 27315 / 100) : Ext ℝ))) _, _, _] = _
    rw [show (25 + 27315 / 100 : ℚ) = 29815 / 100 by norm_num, cellIs_self]
    rfl

/-- **C99** for the basic demonstration. -/
theorem C99_basic_partial [LawfulRng W (Ext ℝ)] (h : BasicDraws W (1 / 1000) (2 / 10000)) (ord : SetOrder)
    (enc : JsonEnc (Ext ℝ)) (here : List String) (save : Bool) (d : Disk (Ext ℝ)) (w : W)
    (hs : save = true → TenDigits enc ∧ CanSave d here ["basic_report"]) :
    (basicEntry ord enc here none save d w).1 = .ok 0 := by
  obtain ⟨r, w', h1, h2, h3⟩ := basic_passes h ord w
  unfold basicEntry testEntry
  rw [h1]
  cases save with
  | false =>
    show exitCode (basicChecks r.obj) = _
    rw [h2]
    rfl
  | true =>
    obtain ⟨he, hd⟩ := hs rfl
    obtain ⟨d', h4, -⟩ := saveOne_ok he h3 hd
    simp only [Option.map_none, if_true, h4]
    rw [h2]
    rfl

end basic

/-! ## Saved reports -/

section loaded
variable {W V : Type} [PyNum V] [Rng W V]

omit [PyNum V] in
theorem loaded_count {d : Disk V} {f : List String} {o : ReportObj V} (h : newReport d none none none (some f) = .ok o)
    (prm : String) : ∃ e, o.countOf prm = .error e := by
  unfold newReport at h
  simp only at h
  split_ifs at h
  · cases h
    exact ⟨_, rfl⟩
  · split at h
    · cases h
    · cases h
      exact ⟨_, rfl⟩

/-- **C99** is violated for saved reports, one report: with `--data-file` the two demonstrations with one report end with
an exception on every file, also on those they saved themselves. -/
theorem C99_file_violated (ord : SetOrder) (enc : JsonEnc V) (here file : List String) (save : Bool) (d : Disk V) (w : W) :
    (∃ e, (basicEntry ord enc here (some file) save d w).1 = .error e) ∧
    ∃ e, (riverEntry ord enc here (some file) save d w).1 = .error e := by
  cases h : newReport d none none none (some file) with
  | error e =>
    refine ⟨⟨e, ?_⟩, e, ?_⟩
    · unfold basicEntry testEntry
      rw [Option.map_some, h]
    · unfold riverEntry testEntry
      rw [Option.map_some, h]
  | ok o =>
    have key : ∀ {α : Type} (x : Except Err α) (f : α → Except Err (List Bool)), (∀ a, ∃ e, f a = .error e) →
        ∃ e, (x >>= f) = .error e := by
      intro α x f hf
      cases x with
      | error e => exact ⟨e, rfl⟩
      | ok a => exact hf a
    constructor
    · obtain ⟨e, he⟩ : ∃ e, basicChecks o = .error e := by
        refine key _ _ fun n => key _ _ fun c => key _ _ fun q => ?_
        obtain ⟨e, he⟩ := loaded_count h "example_prm"
        exact ⟨e, by rw [he]; rfl⟩
      refine ⟨.py e, ?_⟩
      unfold basicEntry testEntry
      rw [Option.map_some, h]
      show exitCode (basicChecks o) = _
      rw [he]
      rfl
    · obtain ⟨e, he⟩ : ∃ e, riverChecks o = .error e := by
        refine key _ _ fun n => key _ _ fun c => key _ _ fun q => ?_
        obtain ⟨e, he⟩ := loaded_count h "riverbed_level"
        exact ⟨e, by rw [he]; rfl⟩
      refine ⟨.py e, ?_⟩
      unfold riverEntry testEntry
      rw [Option.map_some, h]
      show exitCode (riverChecks o) = _
      rw [he]
      rfl

/-- **C99** is violated for saved reports, several reports: with `--data-dir` the reports are in a set, so that even if
all files can be loaded the first check raises `TypeError`. -/
theorem C99_dir_violated [PyTrans V] (ord : SetOrder) (enc : JsonEnc V) (here dir : List String) (save : Bool)
    (d : Disk V) (w : W) :
    (∀ os, loadAll d ((ampFiles.map Prod.snd).map fun n => dir ++ [n ++ ".json"]) = .ok os →
      (ampEntry ord enc here (some dir) save d w).1 = .error (.py .typeError)) ∧
    (∀ os, loadAll d ((tddbFiles.map Prod.snd).map fun n => dir ++ [n ++ ".json"]) = .ok os →
      (tddbEntry ord enc here (some dir) save d w).1 = .error (.py .typeError)) := by
  constructor
  · intro os h
    unfold ampEntry testEntry loadDir
    rw [Option.map_some, h]
    rfl
  · intro os h
    unfold tddbEntry testEntry loadDir
    rw [Option.map_some, h]
    rfl

end loaded

/-! ## Concrete cases -/

/-- A disk with the programs in `/srv/demos`. -/
def srvDisk (V : Type) : Disk V where
  dirs := [["srv", "demos"], ["srv"], []]
  files := fun p => if p = ["srv", "demos", "data.txt"] then some ⟨"n", "d", "hours", [], []⟩ else none
  cwd := ["srv"]

theorem srvDisk_sane (V : Type) : SaneDisk (srvDisk V) where
  root := by simp [srvDisk]
  cwd := by simp [srvDisk]
  above := by
    intro p hp
    simp only [srvDisk, List.mem_cons, List.not_mem_nil, or_false] at hp
    rcases hp with rfl | rfl | rfl <;> simp [srvDisk]
  kinds := by
    intro p hp
    simp only [srvDisk, List.mem_cons, List.not_mem_nil, or_false] at hp
    rcases hp with rfl | rfl | rfl <;> rfl

/-- There is room for reports of any name. -/
theorem srvDisk_room (V : Type) (names : List String) : CanSave (srvDisk V) ["", "srv", "demos"] names where
  sane := srvDisk_sane V
  names := fun n _ => by
    have hp : (srvDisk V).place (["", "srv", "demos"] ++ ["data"] ++ [n ++ ".json"]) =
        ["srv", "demos", "data", n ++ ".json"] := by
      have := json_proper n
      unfold ProperName at this
      simp [Disk.place, this]
    refine ⟨by simp [Disk.place, srvDisk], by simp [Disk.place, srvDisk], ?_⟩
    rw [hp]
    simp [srvDisk]

/-- An encoding that writes whole numbers exactly and others with ten digits. -/
noncomputable def realDigits : JsonEnc (Ext ℝ) := ⟨tenDigits.num, id⟩

theorem realDigits_ok : TenDigits realDigits := ⟨tenDigits_ok.near, tenDigits_ok.digits, tenDigits_ok.fixed⟩

/-- All demonstrations with the counting generators, saving their reports. -/
example (ord : SetOrder) (save : Bool) (w : Counts) :
    (basicEntry ord realDigits ["", "srv", "demos"] none save (srvDisk (Ext ℝ)) w).1 = .ok 0 ∧
    (riverEntry ord realDigits ["", "srv", "demos"] none save (srvDisk (Ext ℝ)) w).1 = .ok 0 ∧
    (ampEntry ord realDigits ["", "srv", "demos"] none save (srvDisk (Ext ℝ)) w).1 = .ok 0 ∧
    (tddbEntry ord realDigits ["", "srv", "demos"] none save (srvDisk (Ext ℝ)) w).1 = .ok 0 :=
  ⟨C99_basic_partial (basic_counting _ _) ord _ _ save _ w fun _ => ⟨realDigits_ok, srvDisk_room _ _⟩,
    C99_river_partial counts_normals ord _ _ save _ w fun _ => ⟨realDigits_ok, srvDisk_room _ _⟩,
    C99_amp_partial counts_normals ord _ _ save _ w fun _ => ⟨realDigits_ok, srvDisk_room _ _⟩,
    C99_tddb_partial counts_tddb ord _ _ save _ w fun _ => ⟨realDigits_ok, srvDisk_room _ _⟩⟩

/-- A disk with a report in every file. -/
def fullDisk : Disk Ex.Q := { oneReport with files := fun _ => oneReport.files ["r.json"] }

/-- Reports in files are loaded, but the checks of the two demonstrations with several reports fail on them. -/
example : ∃ os, loadAll fullDisk ((tddbFiles.map Prod.snd).map fun n => ["data"] ++ [n ++ ".json"]) = .ok os ∧
    os.length = 5 := by
  have h : (match loadAll fullDisk ((tddbFiles.map Prod.snd).map fun n => ["data"] ++ [n ++ ".json"]) with
    | .ok os => os.length == 5 | .error _ => false) = true := by decide +kernel
  split at h
  · rename_i os e
    exact ⟨os, e, by simpa using h⟩
  · cases h

end Gerabaldi.Props
