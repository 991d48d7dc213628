import Verif.Props.Run
import Mathlib.Tactic.Linarith

/-!
# Properties of the test summary: C37, C50
-/

namespace Gerabaldi.Props

open Gerabaldi Gerabaldi.Spec

variable {W V : Type} [PyNum V] [Rng W V]

theorem timeVal_add {a b c : TimeVal} (h : a.add b = .ok c) : timeVal c = timeVal a + timeVal b := by
  unfold TimeVal.add tdAdd tdMk at h
  cases a <;> cases b <;> simp only at h
  case td.td a b =>
    split at h
    · rename_i c' h'
      split at h'
      · cases h'; cases h; simp [timeVal]
      · cases h'
    · cases h
  all_goals first | (cases h; simp [timeVal]) | cases h

theorem timeVal_sub {a b c : TimeVal} (h : a.sub b = .ok c) : timeVal c = timeVal a - timeVal b := by
  unfold TimeVal.sub tdMk at h
  cases a <;> cases b <;> simp only at h
  case td.td a b =>
    split at h
    · rename_i c' h'
      split at h'
      · cases h'; cases h; simp [timeVal]
      · cases h'
    · cases h
  all_goals first | (cases h; simp [timeVal]) | cases h

omit [PyNum V] in
theorem conds_nodup {conds : Dict V} (h : conds.Nodup) :
    Dict.Nodup (conds.map fun kv => (kv.1, (Cell.val kv.2 : Cell V))) := by
  unfold Dict.Nodup Dict.keys at *
  rw [List.map_map]
  exact h

omit [PyNum V] in
/-- The cells of a summary row. -/
theorem summaryRow_get? {name type : String} {i : Nat} {d a b : TimeVal} {conds : Dict V}
    (hn : conds.Nodup) (k : String) :
    (summaryRow name type i d a b conds).get? k = ((conds.get? k).map Cell.val).or
      (Dict.get? [("step name", .str name), ("step type", .str type), ("step number", .nat i),
      ("duration", .time d), ("start time", .time a), ("end time", .time b)] k) := by
  unfold summaryRow
  rw [Dict.get?_update _ _ _ (conds_nodup hn), Dict.get?_map (fun _ => Cell.val)]

omit [PyNum V] in
theorem summaryRow_says {name type : String} {i : Nat} {d a b : TimeVal} {conds : Dict V}
    (hn : conds.Nodup) (hr : ∀ k ∈ reserved, k ∉ conds.keys) :
    Says (summaryRow name type i d a b conds) ⟨name, type, i, timeVal d, timeVal a, timeVal b⟩ := by
  have hk : ∀ k ∈ reserved, conds.get? k = none := fun k hk => (Dict.get?_eq_none_iff _ _).2 (hr k hk)
  have e : ∀ k ∈ reserved, (summaryRow name type i d a b conds).get? k =
      Dict.get? [("step name", .str name), ("step type", .str type), ("step number", .nat i),
      ("duration", .time d), ("start time", .time a), ("end time", .time b)] k := by
    intro k h
    rw [summaryRow_get? hn, hk k h]; rfl
  exact ⟨e _ (by simp [reserved]), e _ (by simp [reserved]), e _ (by simp [reserved]),
    ⟨d, e _ (by simp [reserved]), rfl⟩, ⟨a, e _ (by simp [reserved]), rfl⟩,
    ⟨b, e _ (by simp [reserved]), rfl⟩⟩

theorem runDelta_timeline {ord : SetOrder} {dev : DeviceMdl W V} {env : PhysTestEnv V} {q : Quantities}
    {i : Nat} {steps : List (Step V)} {s s' : SimState V} {rows : List (MeasRow V)}
    {lines : List (SumRow V)} {w w' : W}
    (h : runDelta ord dev env q i steps s w = (.ok (s', rows, lines), w'))
    (hn : ∀ st ∈ steps, (stepConditions st).Nodup)
    (hr : ∀ st ∈ steps, ∀ k ∈ reserved, k ∉ (stepConditions st).keys) :
    List.Forall₂ Says lines (timeline i (timeVal s.elapsed) steps) ∧
      timeVal s'.elapsed = timeVal s.elapsed + (steps.map stressLen).sum := by
  induction steps generalizing i s rows lines w with
  | nil => cases h; exact ⟨.nil, by simp⟩
  | cons st rest ih =>
    obtain ⟨s1, rows1, lines1, rows2, lines2, w1, h1, h2, rfl, rfl⟩ := runDelta_cons_ok.1 h
    obtain ⟨k1, k2⟩ := ih h2 (fun st hst => hn st (List.mem_cons_of_mem _ hst))
      fun st hst => hr st (List.mem_cons_of_mem _ hst)
    have hn := hn st List.mem_cons_self
    have hr := hr st List.mem_cons_self
    cases st with
    | strs st =>
      obtain ⟨conds, s3, e, b, w3, -, hf, ha, hs, rfl, -, rfl⟩ := strsDelta_ok h1
      obtain ⟨f1, -⟩ := stress_frame hf
      have ha' := timeVal_add ha
      have hs' := timeVal_sub hs
      rw [f1] at ha'
      have hb : timeVal b = timeVal s.elapsed := by linarith
      have hsay := summaryRow_says (name := st.name) (type := "stress") (i := i) (d := st.duration)
        (a := b) (b := e) hn hr
      rw [hb, ha'] at hsay
      refine ⟨.cons hsay ?_, ?_⟩
      · rw [← ha']; exact k1
      · rw [k2, List.map_cons, List.sum_cons]
        show timeVal e + _ = _
        rw [ha', show stressLen (Step.strs st) = timeVal st.duration from rfl]
        ring
    | meas m =>
      obtain ⟨conds, w3, -, -, rfl, rfl⟩ := measDelta_ok h1
      have hsay := summaryRow_says (name := m.name) (type := "measure") (i := i) (d := .td 0)
        (a := s1.elapsed) (b := s1.elapsed) hn hr
      refine ⟨.cons ?_ k1, ?_⟩
      · rw [show timeVal (.td 0) = 0 from by simp [timeVal]] at hsay
        exact hsay
      · rw [k2, List.map_cons, List.sum_cons]
        rw [show stressLen (Step.meas m) = 0 from rfl, zero_add]
    | other t =>
      cases h1
      refine ⟨k1, ?_⟩
      rw [k2, List.map_cons, List.sum_cons]
      rw [show stressLen (Step.other t : Step V) = 0 from rfl, zero_add]

/-- The elapsed time at the start of a simulation. -/
theorem simStart_elapsed {dev : DeviceMdl W V} {test : TestSpec V} {init : Option (SimState V)}
    {s : SimState V} {r : SimReport V} {w w' : W} (h : simStart dev test init w = (.ok (s, r), w')) :
    timeVal s.elapsed = init.elim 0 (fun s => timeVal s.elapsed) ∧ r.summary = [] ∧
      r.measurements = [] := by
  cases init with
  | some s0 => cases h; exact ⟨rfl, rfl, rfl⟩
  | none =>
    unfold simStart at h
    obtain ⟨r0, w1, h1, h⟩ := M.bind_eq_ok.1 h
    obtain ⟨q, h2, h⟩ := M.ofExcept_bind_ok.1 h
    obtain ⟨hp, rfl⟩ := M.pure_eq_ok.1 h
    cases hp
    refine ⟨?_, rfl, rfl⟩
    unfold genInitState at h1
    simp only [Option.filter_none] at h1
    obtain ⟨s1, h3, rfl⟩ := M.bind_pure_ok.1 h1
    unfold genInitFrom at h3
    obtain ⟨s2, h4, rfl⟩ := M.bind_pure_ok.1 h3
    simp [withElapsed, timeVal]

/-- **C37**: when no condition bears the name of a summary column, the summary of a finished simulation says
exactly what the timeline of the test says, line by line and in order, starting at the elapsed time of the
initial state (0 without one). -/
theorem C37_timeline_partial {ord : SetOrder} {test : TestSpec V} {dev : DeviceMdl W V}
    {env : PhysTestEnv V} {init : Option (SimState V)} {r : SimReport V} {w w' : W}
    (h : simulate ord test dev env init w = (.ok r, w'))
    (hn : ∀ st ∈ test.steps, (stepConditions st).Nodup)
    (hr : ∀ st ∈ test.steps, ∀ k ∈ reserved, k ∉ (stepConditions st).keys) :
    List.Forall₂ Says r.summary
      (timeline 0 (init.elim 0 fun s => timeVal s.elapsed) test.steps) := by
  unfold simulate at h
  obtain ⟨⟨s1, r1⟩, hf, rfl⟩ := M.bind_pure_ok.1 h
  clear h
  unfold simulateFull at hf
  obtain ⟨⟨s0, r0⟩, w0, h0, hf⟩ := M.bind_eq_ok.1 hf
  obtain ⟨rows, lines, h, rfl⟩ := runSteps_ok.1 hf
  obtain ⟨e1, e2, -⟩ := simStart_elapsed h0
  have := (runDelta_timeline h hn hr).1
  rw [e1] at this
  show List.Forall₂ Says (r0.summary ++ lines) _
  rw [e2, List.nil_append]
  exact this

/-- The elapsed time after any run of steps is the time before plus all stress durations. -/
theorem C37_elapsed {ord : SetOrder} {dev : DeviceMdl W V} {env : PhysTestEnv V} {i : Nat}
    {steps : List (Step V)} {s s' : SimState V} {r r' : SimReport V} {w w' : W}
    (h : runSteps ord dev env i steps (s, r) w = (.ok (s', r'), w')) :
    timeVal s'.elapsed = timeVal s.elapsed + (steps.map stressLen).sum := by
  obtain ⟨rows, lines, hd, -⟩ := runSteps_ok.1 h
  clear h
  revert hd
  generalize r.info = q
  intro h
  induction steps generalizing i s rows lines w with
  | nil => cases h; simp
  | cons st rest ih =>
    obtain ⟨s1, rows1, lines1, rows2, lines2, w1, h1, h2, rfl, rfl⟩ := runDelta_cons_ok.1 h
    rw [ih _ _ h2, List.map_cons, List.sum_cons]
    cases st with
    | strs st =>
      obtain ⟨conds, s3, e, b, w3, -, hf, ha, hs, rfl, -, rfl⟩ := strsDelta_ok h1
      obtain ⟨f1, -⟩ := stress_frame hf
      have ha' := timeVal_add ha
      rw [f1] at ha'
      show timeVal e + _ = _
      rw [ha', show stressLen (Step.strs st) = timeVal st.duration from rfl]
      ring
    | meas m =>
      obtain ⟨conds, w3, -, -, rfl, rfl⟩ := measDelta_ok h1
      rw [show stressLen (Step.meas m) = 0 from rfl, zero_add]
    | other t =>
      cases h1
      rw [show stressLen (Step.other t : Step V) = 0 from rfl, zero_add]

/-! What the timeline of a test looks like. -/

omit [PyNum V] in
/-- Each line of a timeline ends its duration after its start. -/
theorem C37_durations_partial (i : Nat) (t : ℚ) (steps : List (Step V)) :
    ∀ l ∈ timeline i t steps, l.stop - l.start = l.duration ∧ (l.type = "measure" → l.duration = 0) := by
  induction steps generalizing i t with
  | nil => intro l hl; exact absurd hl List.not_mem_nil
  | cons st rest ih =>
    intro l hl
    cases st with
    | strs s =>
      rcases List.mem_cons.1 hl with rfl | hl
      · exact ⟨by simp, fun h => absurd h (by simp)⟩
      · exact ih _ _ l hl
    | meas m =>
      rcases List.mem_cons.1 hl with rfl | hl
      · exact ⟨by simp, fun _ => rfl⟩
      · exact ih _ _ l hl
    | other d => exact ih _ _ l hl

/-- The lines follow each other without a gap from `t` to `t'`. -/
def Contiguous : ℚ → List Line → ℚ → Prop
  | t, [], t' => t = t'
  | t, l :: ls, t' => l.start = t ∧ Contiguous l.stop ls t'

omit [PyNum V] in
/-- A timeline is contiguous from the first start to the first start plus the sum of the stress times. -/
theorem C37_contiguous_partial (i : Nat) (t : ℚ) (steps : List (Step V)) :
    Contiguous t (timeline i t steps) (t + (steps.map stressLen).sum) := by
  induction steps generalizing i t with
  | nil => simp [timeline, Contiguous]
  | cons st rest ih =>
    rw [List.map_cons, List.sum_cons, ← add_assoc]
    cases st with
    | strs s => exact ⟨rfl, ih _ _⟩
    | meas m =>
      rw [show stressLen (Step.meas m) = 0 from rfl, add_zero]
      exact ⟨rfl, ih _ _⟩
    | other d =>
      rw [show stressLen (Step.other d : Step V) = 0 from rfl, add_zero]
      exact ih _ _

omit [PyNum V] in
/-- When all steps are stress and measurement steps there is one line per step, numbered by position and
with its name. -/
theorem C37_numbering_partial (i : Nat) (t : ℚ) (steps : List (Step V))
    (hs : ∀ d, Step.other d ∉ steps) :
    (timeline i t steps).length = steps.length ∧
      ∀ k (h : k < (timeline i t steps).length), (timeline i t steps)[k].number = i + k := by
  induction steps generalizing i t with
  | nil => exact ⟨rfl, fun k h => absurd h (Nat.not_lt_zero k)⟩
  | cons st rest ih =>
    have hs' : ∀ d, Step.other d ∉ rest := fun d hd => hs d (List.mem_cons_of_mem _ hd)
    cases st with
    | strs s =>
      obtain ⟨h1, h2⟩ := ih (i + 1) (t + timeVal s.duration) hs'
      refine ⟨by simp [timeline, h1], ?_⟩
      intro k hk
      cases k with
      | zero => rfl
      | succ k => 
        have := h2 k (by simpa [timeline] using hk)
        simp only [timeline, List.getElem_cons_succ, this]
        omega
    | meas m =>
      obtain ⟨h1, h2⟩ := ih (i + 1) t hs'
      refine ⟨by simp [timeline, h1], ?_⟩
      intro k hk
      cases k with
      | zero => rfl
      | succ k => 
        have := h2 k (by simpa [timeline] using hk)
        simp only [timeline, List.getElem_cons_succ, this]
        omega
    | other d => exact absurd List.mem_cons_self (hs d)

/-! ## C50 -/

/-- The name of a step. -/
def stepName : Step V → Option String
  | .strs s => some s.name
  | .meas m => some m.name
  | .other _ => none

theorem runDelta_conditions {ord : SetOrder} {dev : DeviceMdl W V} {env : PhysTestEnv V} {q : Quantities}
    {i : Nat} {steps : List (Step V)} {s0 s' : SimState V} {rows : List (MeasRow V)}
    {lines : List (SumRow V)} {w0 w' : W}
    (h : runDelta ord dev env q i steps s0 w0 = (.ok (s', rows, lines), w'))
    (hn : ∀ st ∈ steps, (stepConditions st).Nodup) :
    List.Forall₂ (fun (row : SumRow V) st =>
        ∀ c v, (stepConditions st).get? c = some v → row.get? c = some (.val v))
      lines (steps.filter fun st => (stepName st).isSome) := by
  induction steps generalizing i s0 rows lines w0 with
  | nil => cases h; exact .nil
  | cons st rest ih =>
    obtain ⟨s1, rows1, lines1, rows2, lines2, w1, h1, h2, rfl, rfl⟩ := runDelta_cons_ok.1 h
    have k := ih h2 (fun st hst => hn st (List.mem_cons_of_mem _ hst))
    have hn := hn st List.mem_cons_self
    cases st with
    | strs st =>
      obtain ⟨conds, s3, e, b, w3, -, hf, ha, hs, rfl, -, rfl⟩ := strsDelta_ok h1
      refine .cons ?_ k
      intro c v hc
      rw [summaryRow_get? (conds := st.conditions) hn, show st.conditions.get? c = some v from hc]
      rfl
    | meas m =>
      obtain ⟨conds, w3, -, -, rfl, rfl⟩ := measDelta_ok h1
      refine .cons ?_ k
      intro c v hc
      rw [summaryRow_get? (conds := m.conditions) hn, show m.conditions.get? c = some v from hc]
      rfl
    | other t => cases h1; exact k

/-- **C50**: the summary has, in order, one row for each stress or measurement step, showing every condition
of this step with its value. -/
theorem C50_conditions {ord : SetOrder} {test : TestSpec V} {dev : DeviceMdl W V}
    {env : PhysTestEnv V} {init : Option (SimState V)} {r : SimReport V} {w w' : W}
    (h : simulate ord test dev env init w = (.ok r, w'))
    (hn : ∀ st ∈ test.steps, (stepConditions st).Nodup) :
    List.Forall₂ (fun (row : SumRow V) st =>
        ∀ c v, (stepConditions st).get? c = some v → row.get? c = some (.val v))
      r.summary (test.steps.filter fun st => (stepName st).isSome) := by
  unfold simulate at h
  obtain ⟨⟨s1, r1⟩, hf, rfl⟩ := M.bind_pure_ok.1 h
  clear h
  unfold simulateFull at hf
  obtain ⟨⟨s0, r0⟩, w0, h0, hf⟩ := M.bind_eq_ok.1 hf
  obtain ⟨rows, lines, h, rfl⟩ := runSteps_ok.1 hf
  obtain ⟨-, e2, -⟩ := simStart_elapsed h0
  show List.Forall₂ _ (r0.summary ++ lines) _
  rw [e2, List.nil_append]
  exact runDelta_conditions h hn

/-- **C50**: the other cells of the row are the step's own, as long as no condition bears their name: see
`C37_timeline_partial`. Here for one column at a time: a condition hides exactly the column of its name. -/
theorem C50_columns_partial {ord : SetOrder} {dev : DeviceMdl W V} {env : PhysTestEnv V}
    {i : Nat} {st : StrsSpec V} {s s' : SimState V} {r r' : SimReport V} {w w' : W}
    (h : runSteps ord dev env i [.strs st] (s, r) w = (.ok (s', r'), w')) (hn : st.conditions.Nodup) :
    ∃ row, r'.summary = r.summary ++ [row] ∧
      ("step name" ∉ st.conditions.keys → row.get? "step name" = some (.str st.name)) ∧
      ("step type" ∉ st.conditions.keys → row.get? "step type" = some (.str "stress")) ∧
      ("step number" ∉ st.conditions.keys → row.get? "step number" = some (.nat i)) ∧
      ("duration" ∉ st.conditions.keys → row.get? "duration" = some (.time st.duration)) ∧
      ("start time" ∉ st.conditions.keys → holdsTime row "start time" (timeVal s.elapsed)) ∧
      ("end time" ∉ st.conditions.keys → row.get? "end time" = some (.time s'.elapsed)) := by
  obtain ⟨rows, lines, hd, rfl⟩ := runSteps_ok.1 h
  obtain ⟨s1, rows1, lines1, rows2, lines2, w1, h1, h2, rfl, rfl⟩ := runDelta_cons_ok.1 hd
  cases h2
  obtain ⟨conds, s3, e, b, w3, -, hf, ha, hs, rfl, -, rfl⟩ := strsDelta_ok h1
  obtain ⟨f1, -⟩ := stress_frame hf
  have ha' := timeVal_add ha
  have hs' := timeVal_sub hs
  rw [f1] at ha'
  refine ⟨summaryRow st.name "stress" i st.duration b e st.conditions, rfl, ?_, ?_, ?_, ?_, ?_, ?_⟩
  all_goals intro hk
  case refine_5 =>
    refine ⟨b, ?_, by linarith⟩
    rw [summaryRow_get? hn, (Dict.get?_eq_none_iff _ _).2 hk]; rfl
  all_goals rw [summaryRow_get? hn, (Dict.get?_eq_none_iff _ _).2 hk]; rfl

open Ex in
example : (∀ st ∈ twoSteps.steps, (stepConditions st).Nodup) ∧
    (∀ st ∈ twoSteps.steps, ∀ k ∈ reserved, k ∉ (stepConditions st).keys) ∧
    ∃ r, (simulate orderA twoSteps dev {} none Counts.start).1 = .ok r ∧
      (r.summary.length == 3) = true :=
  ⟨by decide +kernel, by decide +kernel, exists_ok (by decide +kernel)⟩

example : timeline 0 0 twoSteps.steps =
    [⟨"heat", "stress", 0, 3600000000, 0, 3600000000⟩, ⟨"read", "measure", 1, 0, 3600000000, 3600000000⟩,
      ⟨"warm", "stress", 2, 7200000000, 3600000000, 10800000000⟩] := by decide +kernel

open Ex in
/-- **C37, C50 violated**: a condition named like a column replaces it. Here the row has no end time: the
condition "end time" of the user is shown instead. -/
theorem C37_reserved_name_violated :
    ∃ (test : TestSpec Q) (r : SimReport Q), (∀ st ∈ test.steps, (stepConditions st).Nodup) ∧
      (simulate orderA test dev {} none Counts.start).1 = .ok r ∧
      ¬ List.Forall₂ Says r.summary (timeline 0 0 test.steps) := by
  let test : TestSpec Q :=
    { steps := [.strs ⟨[("temp", .fin 110), ("end time", .fin 2)], .td 3600000000, "heat"⟩,
        .meas ⟨[("vth", 1), ("delay", 1)], [("temp", .fin 20), ("vdd", .fin 2)], "read"⟩],
      numChps := 1, numLots := 1, name := "bad", description := "" }
  refine ⟨test, ?_⟩
  cases h : (simulate orderA test dev {} none Counts.start).1 with
  | error e =>
    have : (match (simulate orderA test dev {} none Counts.start).1 with
      | .ok r => true | .error _ => false) = true := by decide +kernel
    rw [h] at this
    cases this
  | ok r =>
    refine ⟨r, by decide +kernel, rfl, ?_⟩
    have e : (match (simulate orderA test dev {} none Counts.start).1 with
      | .ok r => r.summary.map (Dict.get? · "end time") | .error _ => []) =
        [some (.val (.fin 2)), some (.time (.td 3600000000))] := by decide +kernel
    rw [h] at e
    simp only at e
    intro hf
    change List.Forall₂ Says r.summary [_, _] at hf
    obtain ⟨row, l, hsay, -, hrow⟩ := List.forall₂_cons_right_iff.1 hf
    rw [hrow] at e
    obtain ⟨v, hv, -⟩ := hsay.stop
    rw [List.map_cons, hv] at e
    cases e

open Ex in
/-- **C50 violated**: the row does not show the step's name. -/
theorem C50_reserved_name_violated :
    ∃ (test : TestSpec Q) (st : StrsSpec Q) (r : SimReport Q), st ∈ test.steps.filterMap (fun | .strs s => some s | _ => none) ∧
      (simulate orderA test dev {} none Counts.start).1 = .ok r ∧
      ∀ row ∈ r.summary, row.get? "step name" ≠ some (.str st.name) := by
  let st : StrsSpec Q := ⟨[("temp", .fin 110), ("step name", .fin 2)], .td 3600000000, "heat"⟩
  let test : TestSpec Q :=
    { steps := [.strs st,
      .meas ⟨[("vth", 1), ("delay", 1)], [("temp", .fin 20), ("vdd", .fin 2)], "read"⟩], numChps := 1, numLots := 1, name := "bad", description := "" }
  refine ⟨test, st, ?_⟩
  cases h : (simulate orderA test dev {} none Counts.start).1 with
  | error e =>
    have : (match (simulate orderA test dev {} none Counts.start).1 with
      | .ok r => true | .error _ => false) = true := by decide +kernel
    rw [h] at this
    cases this
  | ok r =>
    refine ⟨r, by decide +kernel, rfl, ?_⟩
    have e : (match (simulate orderA test dev {} none Counts.start).1 with
      | .ok r => r.summary.map (Dict.get? · "step name") | .error _ => []) =
        [some (.val (.fin 2)), some (.str "read")] := by decide +kernel
    rw [h] at e
    simp only at e
    intro row hrow hs
    have : row.get? "step name" ∈ r.summary.map (Dict.get? · "step name") := List.mem_map_of_mem hrow
    rw [e, hs] at this
    revert this
    decide +kernel

end Gerabaldi.Props
