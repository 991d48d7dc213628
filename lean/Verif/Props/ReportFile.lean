import Verif.Spec.ReportFile
import Verif.Props.ReportIO

/-!
# Reports in files (C86)
-/

namespace Gerabaldi.Props

open Gerabaldi Gerabaldi.Spec

variable {V : Type}

/-- A file is in the directory that the export makes, or in the root. -/
theorem place_name (d : Disk V) (dir : List String) {name : String} (hn : ProperName name) :
    d.place (dir ++ [name]) = d.place dir ++ [name] ∨
      d.place (dir ++ [name]) = [name] ∧ d.place dir = d.cwd := by
  have hf : ∀ l : List String, (l ++ [name]).filter (fun s => decide (s ≠ "" ∧ s ≠ ".")) =
      l.filter (fun s => decide (s ≠ "" ∧ s ≠ ".")) ++ [name] := by
    intro l
    rw [List.filter_append, List.filter_singleton]
    simp [hn.1, hn.2]
  unfold Disk.place
  simp only [hf]
  match dir with
  | [] =>
    left
    split
    · rename_i h
      simp at h
    · simp
  | [x] =>
    by_cases hx : x = ""
    · subst hx
      right
      simp
    · left
      split
      · rename_i h
        simp at h
        exact absurd h.1 hx
      · split
        · rename_i h
          simp at h
        · simp
  | x :: y :: rest =>
    left
    by_cases hx : x = ""
    · subst hx
      simp
    · split
      · rename_i h
        simp at h
        exact absurd h.1 hx
      · split
        · rename_i h
          simp at h
          exact absurd h.1 hx
        · simp

theorem mkdir_ok {d : Disk V} (hs : SaneDisk d) {p : Place} (ha : p.dropLast ∈ d.dirs) (hf : d.files p = none) :
    ∃ d1, d.mkdir p = .ok d1 ∧ p ∈ d1.dirs ∧ d1.files = d.files ∧ d1.cwd = d.cwd ∧
      (∀ q, q ∈ d1.dirs ↔ q = p ∨ q ∈ d.dirs) ∧ SaneDisk d1 := by
  unfold Disk.mkdir
  by_cases hp : p ∈ d.dirs
  · rw [if_pos hp]
    exact ⟨d, rfl, hp, rfl, rfl, fun q => ⟨.inr, fun h => h.elim (fun h => h ▸ hp) id⟩, hs⟩
  · rw [if_neg hp, if_neg (by simp [hf]), if_pos ha]
    refine ⟨_, rfl, List.mem_cons_self, rfl, rfl, fun q => List.mem_cons, ?_⟩
    refine ⟨List.mem_cons_of_mem _ hs.root, List.mem_cons_of_mem _ hs.cwd, ?_, ?_⟩
    · intro q hq
      rcases List.mem_cons.1 hq with rfl | hq
      · exact List.mem_cons_of_mem _ ha
      · exact List.mem_cons_of_mem _ (hs.above q hq)
    · intro q hq
      rcases List.mem_cons.1 hq with rfl | hq
      · exact hf
      · exact hs.kinds q hq

/-- **C86**: a report that can be exported is saved, together with the directory of the file if that is missing.
The result is the document that is exported without a file, loading the file gives the saved report, and nothing
else on the disk is changed. -/
theorem C86_saved_partial {enc : JsonEnc V} (he : TenDigits enc) {r : ReportData V} (hr : Exportable r)
    {given : Option String} {k : ℚ} (hu : (given, k) ∈ acceptedUnits) (hg : given ≠ none) (hk : k ≠ 86400000000)
    {d : Disk V} (hs : SaneDisk d) {dir : List String} {name : String} (hn : ProperName name)
    (hd : Reachable d dir name) :
    ∃ j units d', r.exportFile enc d (dir ++ [name]) given = (.ok j, d') ∧ r.exportJson enc given = .ok j ∧
      d'.load (dir ++ [name]) = .ok (savedReport enc r units) ∧ SaneDisk d' ∧
      (∀ q, q ∈ d'.dirs ↔ q = d.place dir ∨ q ∈ d.dirs) ∧
      ∀ q, q ≠ d.place (dir ++ [name]) → d'.files q = d.files q := by
  obtain ⟨j, units, h1, h2⟩ := C47_partial he hr hu hg hk
  obtain ⟨d1, m1, m2, m3, m4, m5, m6⟩ := mkdir_ok hs hd.above hd.free
  have hplace : ∀ x, d1.place x = d.place x := by
    intro x
    unfold Disk.place
    rw [m4]
  have hparent : (d.place (dir ++ [name])).dropLast ∈ d1.dirs := by
    rcases place_name d dir hn with h | ⟨h, -⟩
    · rw [h, List.dropLast_concat]; exact m2
    · rw [h]; exact m6.root
  have hne : d.place (dir ++ [name]) ≠ d.place dir := by
    intro h
    rcases place_name d dir hn with h' | ⟨-, h'⟩
    · rw [h'] at h
      exact absurd (congrArg List.length h) (by simp)
    · exact hd.target (by rw [h, h']; exact hs.cwd)
  have hnot : d.place (dir ++ [name]) ∉ d1.dirs := fun h => (m5 _).1 h |>.elim hne hd.target
  have hw : d1.write (d1.place (dir ++ [name])) j =
      .ok { d1 with files := fun q => if q = d.place (dir ++ [name]) then some j else d1.files q } := by
    rw [hplace]
    unfold Disk.write
    rw [if_neg hnot, if_pos hparent]
  refine ⟨j, units, { d1 with files := fun q => if q = d.place (dir ++ [name]) then some j else d1.files q },
    ?_, h1, ?_, ⟨m6.root, m6.cwd, m6.above, ?_⟩, m5, ?_⟩
  · unfold ReportData.exportFile
    rw [h1, List.dropLast_concat]
    simp only [m1, hw]
  · unfold Disk.load
    have : Disk.place { d1 with files := fun q => if q = d.place (dir ++ [name]) then some j else d1.files q }
        (dir ++ [name]) = d.place (dir ++ [name]) := hplace _
    rw [this]
    simp only [if_true, h2]
  · intro q hq
    have hq' : q ≠ d.place (dir ++ [name]) := fun h => hnot (h ▸ hq)
    simp only [if_neg hq']
    exact m6.kinds q hq
  · intro q hq
    simp only [if_neg hq, m3]

/-- **C86**, failures: an export that raises has not written to any file. -/
theorem C86_failed (enc : JsonEnc V) (r : ReportData V) (d : Disk V) (file : List String) (given : Option String)
    {e : FileErr} (h : (r.exportFile enc d file given).1 = .error e) :
    (r.exportFile enc d file given).2.files = d.files := by
  have hm : ∀ p d1, d.mkdir p = .ok d1 → d1.files = d.files := by
    intro p d1 h
    unfold Disk.mkdir at h
    split at h
    · cases h; rfl
    · split at h
      · cases h
      · split at h
        · cases h; rfl
        · split at h <;> cases h
  unfold ReportData.exportFile at h ⊢
  cases h0 : r.exportJson enc given with
  | error e => rfl
  | ok j =>
    simp only [h0] at h ⊢
    cases h1 : d.mkdir (d.place file.dropLast) with
    | error e => rfl
    | ok d1 =>
      simp only [h1] at h ⊢
      cases h2 : d1.write (d1.place file) j with
      | error e => exact hm _ _ h1
      | ok d2 =>
        rw [h2] at h
        cases h

/-- **C86** is violated for directories in directories that do not exist yet: every report fails. -/
theorem C86_nested_violated (enc : JsonEnc V) {r : ReportData V} {given : Option String} {j : ReportJson V}
    (hj : r.exportJson enc given = .ok j) {d : Disk V} {file : List String}
    (h1 : d.place file.dropLast ∉ d.dirs) (h2 : (d.place file.dropLast).dropLast ∉ d.dirs)
    (h3 : d.files (d.place file.dropLast) = none) (h4 : d.files (d.place file.dropLast).dropLast = none) :
    r.exportFile enc d file given = (.error (.py .fileNotFound), d) := by
  unfold ReportData.exportFile
  rw [hj]
  have : d.mkdir (d.place file.dropLast) = .error (.py .fileNotFound) := by
    unfold Disk.mkdir
    rw [if_neg h1, if_neg (by simp [h3]), if_neg h2, if_neg (by simp [h4])]
  simp only [this]

/-- **C86**, saving twice: the file has the second report. -/
theorem C86_overwrites_partial {enc : JsonEnc V} (he : TenDigits enc) {r r' : ReportData V} (hr : Exportable r)
    (hr' : Exportable r') {given : Option String} {k : ℚ} (hu : (given, k) ∈ acceptedUnits) (hg : given ≠ none)
    (hk : k ≠ 86400000000) {d : Disk V} (hs : SaneDisk d) {dir : List String} {name : String} (hn : ProperName name)
    (hd : Reachable d dir name) :
    ∃ j' units d', r'.exportFile enc (r.exportFile enc d (dir ++ [name]) given).2 (dir ++ [name]) given = (.ok j', d') ∧
      d'.load (dir ++ [name]) = .ok (savedReport enc r' units) ∧
      ∀ q, q ≠ d.place (dir ++ [name]) → d'.files q = d.files q := by
  obtain ⟨j, units, d1, a1, -, -, a4, a5, a6⟩ := C86_saved_partial he hr hu hg hk hs hn hd
  rw [a1]
  have hcwd : d1.cwd = d.cwd := by
    have := a1
    unfold ReportData.exportFile at this
    revert this
    cases r.exportJson enc given with
    | error e => intro h; cases h
    | ok j0 =>
      simp only
      unfold Disk.mkdir Disk.write
      intro h
      split at h
      · cases h
      · rename_i dd hdd
        have hc : dd.cwd = d.cwd := by
          split at hdd
          · cases hdd; rfl
          · split at hdd
            · cases hdd
            · split at hdd
              · cases hdd; rfl
              · split at hdd <;> cases hdd
        split at h
        · cases h
        · rename_i d2 hd2
          cases h
          split at hd2
          · cases hd2
          · split at hd2
            · cases hd2; exact hc
            · split at hd2 <;> cases hd2
  have hplace : ∀ x, d1.place x = d.place x := by
    intro x
    unfold Disk.place
    rw [hcwd]
  have hne : d.place dir ≠ d.place (dir ++ [name]) := by
    intro h
    rcases place_name d dir hn with h' | ⟨-, h'⟩
    · rw [h'] at h
      exact absurd (congrArg List.length h) (by simp)
    · exact hd.target (by rw [← h, h']; exact hs.cwd)
  obtain ⟨j', units', d', b1, -, b3, -, -, b6⟩ := C86_saved_partial he hr' hu hg hk a4 hn (dir := dir) ⟨by
    rw [hplace]; exact (a5 _).2 (.inr hd.above), by rw [hplace, a6 _ hne]; exact hd.free, by
    rw [hplace]
    exact fun h => (a5 _).1 h |>.elim (fun h => hne h.symm) hd.target⟩
  refine ⟨j', units', d', b1, b3, fun q hq => ?_⟩
  rw [b6 q (by rw [hplace]; exact hq), a6 q hq]

/-! ## Concrete cases -/

/-- A disk with a home directory. -/
def homeDisk : Disk ℚ where
  dirs := [["home"], []]
  files := fun p => if p = ["home", "notes"] then some ⟨"n", "d", "hours", [], []⟩ else none
  cwd := ["home"]

theorem homeDisk_sane : SaneDisk homeDisk := by
  refine ⟨by decide, by decide, ?_, ?_⟩ <;> intro p hp <;> simp [homeDisk] at hp <;> rcases hp with rfl | rfl <;>
    simp [homeDisk]

example : ∃ j units d', smallReport.exportFile tenDigits homeDisk ["data", "report.json"] (some "h") = (.ok j, d') ∧
    d'.load ["data", "report.json"] = .ok (savedReport tenDigits smallReport units) ∧ ["home", "data"] ∈ d'.dirs := by
  obtain ⟨j, units, d', h1, -, h3, -, h5, -⟩ := C86_saved_partial tenDigits_ok smallReport_ok (k := 3600000000)
    (given := some "h") (by simp [acceptedUnits]) (by simp) (by norm_num) homeDisk_sane (dir := ["data"])
    (name := "report.json") (by unfold ProperName; decide)
    ⟨by decide +kernel, by decide +kernel, by decide +kernel⟩
  exact ⟨j, units, d', h1, h3, (h5 _).2 (.inl (by decide +kernel))⟩

example {j : ReportJson ℚ} (hj : smallReport.exportJson tenDigits (some "h") = .ok j) :
    smallReport.exportFile tenDigits homeDisk ["data", "new", "report.json"] (some "h") =
      (.error (.py .fileNotFound), homeDisk) :=
  C86_nested_violated tenDigits hj (by decide +kernel) (by decide +kernel) (by decide +kernel) (by decide +kernel)

end Gerabaldi.Props
