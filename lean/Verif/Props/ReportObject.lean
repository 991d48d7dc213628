import Verif.Spec.ReportObject
import Verif.Props.TestSpec
import Verif.Props.ReportFile
import Verif.Props.Arguments

/-!
# Reports however they are made (C88)
-/

namespace Gerabaldi.Props

open Gerabaldi Gerabaldi.Spec

variable {V : Type}

theorem orElseName_is (x : Option String) (y : String) : NameIs x y (orElseName x y) := by
  refine ⟨?_, ?_⟩
  · rintro s rfl hs
    unfold orElseName
    simp only [if_neg hs]
  · rintro (rfl | rfl) <;> rfl

/-- **C88** for a test: the names, the documented sizes, empty tables. A file name given as well is not read. -/
theorem C88_test (d : Disk V) (t : TestSpec V) (name description : Option String) (file : Option (List String)) :
    ∃ o n s, newReport d (some t) name description file = .ok o ∧ o.name = some n ∧ NameIs name t.name n ∧
      o.description = some s ∧ NameIs description t.description s ∧ HasSizes o t ∧ o.measurements = some [] ∧
      o.summary = some [] :=
  ⟨_, _, _, rfl, rfl, orElseName_is _ _, rfl, orElseName_is _ _,
    ⟨⟨_, rfl, fun prm => C08_max t.steps prm⟩, rfl, rfl⟩, rfl, rfl⟩

/-- **C88** for a file: names and tables of the saved report. -/
theorem C88_file_partial {enc : JsonEnc V} (he : TenDigits enc) {r : ReportData V} (hr : Exportable r)
    {given : Option String} {k : ℚ} (hu : (given, k) ∈ acceptedUnits) (hg : given ≠ none) (hk : k ≠ 86400000000)
    {d : Disk V} (hs : SaneDisk d) {dir : List String} {name : String} (hn : ProperName name)
    (hd : Reachable d dir name) (name' description : Option String) :
    ∃ units o, newReport (r.exportFile enc d (dir ++ [name]) given).2 none name' description (some (dir ++ [name])) =
        .ok o ∧ o.name = some r.name ∧ o.description = some r.description ∧
      o.measurements = some (savedReport enc r units).measurements ∧ o.summary = some (savedReport enc r units).summary := by
  obtain ⟨j, units, d', h1, -, h3, -⟩ := C86_saved_partial he hr hu hg hk hs hn hd
  have hne : dir ++ [name] ≠ [""] := by
    intro h
    have := congrArg List.getLast? h
    simp at this
    exact hn.1 this
  refine ⟨units, .mk (some r.name) (some r.description) .unset .unset .unset
    (some (savedReport enc r units).measurements) (some (savedReport enc r units).summary)
    (savedReport enc r units).timeUnit, ?_, rfl, rfl, rfl, rfl⟩
  rw [h1]
  unfold newReport
  simp only [if_neg hne, h3]
  rfl

/-- **C88** is violated for every report loaded from a file: it does not have the documented sizes. -/
theorem C88_sizes_violated {d : Disk V} {name description : Option String} {f : List String} {r : ReportData V}
    (hl : d.load f = .ok r) (hf : f ≠ [""]) :
    ∃ o, newReport d none name description (some f) = .ok o ∧ o.devCounts = .unset ∧ ∀ t, ¬ HasSizes o t := by
  refine ⟨.mk (some r.name) (some r.description) .unset .unset .unset (some r.measurements) (some r.summary)
    r.timeUnit, ?_, rfl, ?_⟩
  · unfold newReport
    simp only [if_neg hf, hl]
  · rintro t ⟨⟨_, h, -⟩, -, -⟩
    cases h

/-- **C88** is violated: a loaded report cannot say how many devices to generate, for no device. -/
theorem C88_state_violated {W : Type} [PyNum V] [Rng W V] {d : Disk V} {name description : Option String}
    {f : List String} {r : ReportData V} (hl : d.load f = .ok r) (hf : f ≠ [""]) :
    ∃ o, newReport d none name description (some f) = .ok o ∧
      ∀ (dev : DeviceMdl W V) (e : TimeVal) (w : W), genInitOf dev o e w = (.error .attributeError, w) := by
  obtain ⟨o, h1, h2, -⟩ := C88_sizes_violated (name := name) (description := description) hl hf
  refine ⟨o, h1, fun dev e w => ?_⟩
  unfold genInitOf
  rw [h2]
  rfl

/-- **C88** without a test and without a file: the names as given, no sizes. -/
theorem C88_empty {W : Type} [PyNum V] [Rng W V] (d : Disk V) (name description : Option String)
    {file : Option (List String)} (hf : file = none ∨ file = some [""]) :
    ∃ o, newReport d none name description file = .ok o ∧ o.name = name ∧ o.description = description ∧
      o.measurements = none ∧ o.summary = none ∧
      ∀ (dev : DeviceMdl W V) (e : TimeVal) (w : W), genInitOf dev o e w = (.error .attributeError, w) := by
  rcases hf with rfl | rfl <;> exact ⟨_, rfl, rfl, rfl, rfl, rfl, fun _ _ _ => rfl⟩

/-- **C88**, growth: whatever is added to whatever report ends up in its tables in order, and nothing else changes. -/
theorem C88_grow (es : List (Added V)) (o : ReportObj V) :
    (es.foldl addTo o).measurements.getD [] = o.measurements.getD [] ++ measRows es ∧
    (es.foldl addTo o).summary.getD [] = o.summary.getD [] ++ summaryRows es ∧
    (es.foldl addTo o).name = o.name ∧ (es.foldl addTo o).description = o.description ∧
    (es.foldl addTo o).devCounts = o.devCounts ∧ (es.foldl addTo o).timeUnit = o.timeUnit := by
  induction es generalizing o with
  | nil => simp [measRows, summaryRows]
  | cons e es ih =>
    obtain ⟨h1, h2, h3, h4, h5, h6⟩ := ih (addTo o e)
    rw [List.foldl_cons]
    cases e with
    | meas rows =>
      refine ⟨?_, ?_, h3, h4, h5, h6⟩
      · rw [h1]
        simp [addTo, ReportObj.addMeasurements, measRows]
      · rw [h2]
        simp [addTo, ReportObj.addMeasurements, summaryRows]
    | summary rows =>
      refine ⟨?_, ?_, h3, h4, h5, h6⟩
      · rw [h1]
        simp [addTo, ReportObj.addSummary, measRows]
      · rw [h2]
        simp [addTo, ReportObj.addSummary, summaryRows]

/-- **C88**: the report a simulation starts with is the one of the constructor, and states generated from it are those
of the test. -/
theorem C88_simulated {W : Type} [PyNum V] [Rng W V] (d : Disk V) (t : TestSpec V) :
    ∃ o, newReport d (some t) none none none = .ok o ∧ o.name = some (SimReport.ofTest t).name ∧
      o.devCounts = .val (SimReport.ofTest t).devCounts ∧
      ∀ (dev : DeviceMdl W V), genInitOf dev o (.td 0) =
        genInitState dev none 1 1 (some (SimReport.ofTest t).info) (.td 0) :=
  ⟨_, rfl, rfl, rfl, fun _ => rfl⟩

/-! ## Concrete cases -/

/-- A saved report is loaded without its sizes. -/
example : ∃ o, newReport (smallReport.exportFile tenDigits homeDisk ["data", "report.json"] (some "h")).2 none none none
    (some ["data", "report.json"]) = .ok o ∧ o.devCounts = .unset ∧ ∀ t, ¬ HasSizes o t := by
  obtain ⟨j, units, d', h1, -, h3, -⟩ := C86_saved_partial tenDigits_ok smallReport_ok (k := 3600000000)
    (given := some "h") (by simp [acceptedUnits]) (by simp) (by norm_num) homeDisk_sane (dir := ["data"])
    (name := "report.json") (by unfold ProperName; decide)
    ⟨by decide +kernel, by decide +kernel, by decide +kernel⟩
  show ∃ o, newReport (smallReport.exportFile tenDigits homeDisk (["data"] ++ ["report.json"]) (some "h")).2 none none none
    (some (["data"] ++ ["report.json"])) = .ok o ∧ _
  rw [h1]
  exact C88_sizes_violated h3 (by simp)

/-- A disk with one report of one reading. -/
def oneReport : Disk Ex.Q where
  dirs := [[]]
  files := fun p => if p = ["r.json"] then some ⟨"n", "d", "hours",
    [⟨"vth", 0, some 0, some 0, some 0, .num 1, .fin 2⟩],
    [[("duration", .time (.num 0)), ("start time", .time (.num 1)), ("end time", .time (.num 1))]]⟩ else none
  cwd := []

example : ∃ o, newReport oneReport none none none (some ["r.json"]) = .ok o ∧
    ∀ (dev : DeviceMdl Counts Ex.Q) (e : TimeVal) (w : Counts), genInitOf dev o e w = (.error .attributeError, w) := by
  have h : (match oneReport.load ["r.json"] with | .ok _ => true | .error _ => false) = true := by decide +kernel
  cases hr : oneReport.load ["r.json"] with
  | ok r => exact C88_state_violated hr (by simp)
  | error e => rw [hr] at h; cases h

/-- The test of the next example. -/
def twoReadings : TestSpec ℚ where
  steps := [.meas ⟨[("vth", 3)], [], "m"⟩, .meas ⟨[("vth", 5)], [], "n"⟩]
  name := "burn-in"

/-- A report with its own name for a test of two steps. -/
example : ∃ o n, newReport homeDisk (some twoReadings) (some "first lot") none (some ["notes"]) = .ok o ∧
    o.name = some n ∧ n = "first lot" ∧ o.devCounts = .val [("vth", 5)] := by
  obtain ⟨o, n, s, h1, h2, h3, -⟩ := C88_test homeDisk twoReadings (some "first lot") none (some ["notes"])
  refine ⟨o, n, h1, h2, h3.1 _ rfl (by decide), ?_⟩
  cases h1
  decide +kernel

end Gerabaldi.Props
