import Verif.Lemmas.TestSpec

/-!
# C03–C09: building and iterating tests
-/

namespace Gerabaldi.Props
open Gerabaldi Spec
variable {V : Type}

/-! ## C03 -/

/-- Appending without looping adds exactly the given step(s) at the end. -/
theorem C03_append (fuel : Nat) (steps : List (Step V)) (u : Option String) :
    (∀ s, appendSteps fuel steps (.one s) none u = some (.ok (), steps ++ [s])) ∧
    (∀ l, appendSteps fuel steps (.many l) none u = some (.ok (), steps ++ l)) ∧
    appendSteps fuel steps .own none u = some (.ok (), steps ++ steps) :=
  ⟨fun _ => rfl, fun _ => rfl, rfl⟩

/-- A history of plain appends: the outcomes are all normal and the final steps are the initial
steps followed by everything that was appended, in order. -/
theorem C03_append_history (fuel : Nat) (u : Option String) (hist : List (List (Step V)))
    (steps : List (Step V)) :
    hist.foldlM (fun st l => (appendSteps fuel st (.many l) none u).bind
      (fun r => match r with | (.ok (), st') => some st' | _ => none)) steps
      = some (steps ++ hist.flatten) := by
  induction hist generalizing steps with
  | nil => simp
  | cons l hist ih =>
    simp only [List.foldlM_cons, (C03_append fuel steps u).2.1 l, Option.bind_eq_bind,
      Option.bind_some, List.flatten_cons]
    rw [ih]; simp

example : appendSteps (V := Nat) 0 [.other "a"] (.many [.other "b", .other "c"]) none none
    = some (.ok (), [.other "a", .other "b", .other "c"]) := rfl

/-! ## C04, C05, C06 -/

/-- The loop duration argument `lf` (with unit `u`) denotes `D` microseconds. -/
def denotes (lf : TimeVal) (u : Option String) (D : Int) : Prop :=
  lf = .td D ∨ ∃ q, lf = .num q ∧ convertTime (.num q) u = .ok (.td D)

theorem hasNonMeas_of_stress {l : List (Step V)} (h : stressTime l ≠ 0) : hasNonMeas l := by
  by_contra hc
  apply h
  clear h
  induction l with
  | nil => rfl
  | cons s l ih =>
    cases s with
    | meas m => exact ih (fun ⟨s, hs, hh⟩ => hc ⟨s, List.mem_cons_of_mem _ hs, hh⟩)
    | strs x => exact absurd ⟨_, List.mem_cons_self, by simp⟩ hc
    | other x => exact absurd ⟨_, List.mem_cons_self, by simp⟩ hc

theorem appendSteps_denotes {lf : TimeVal} {u : Option String} {D : Int} (h : denotes lf u D)
    (hD : D ≠ 0) (fuel : Nat) (steps l : List (Step V)) (hne : hasNonMeas l) :
    appendSteps fuel steps (.many l) (some lf) u =
      match appendLoop (.many l) D fuel steps 0 with
        | none => none
        | some (.error e, st) => some (.error e, st)
        | some (.ok t, st) =>
          if t % D = 0 then some (.ok (), st) else some (.error .userWarning, st) := by
  have ho := onlyMeas_many_false hne steps
  rcases h with rfl | ⟨q, rfl, hq⟩
  · simp only [appendSteps, hD, ho, if_false, Bool.false_eq_true]
    generalize appendLoop (.many l) D fuel steps 0 = r
    rcases r with _ | ⟨_ | _, _⟩ <;> rfl
  · simp only [appendSteps, hq, hD, ho, if_false, Bool.false_eq_true]
    generalize appendLoop (.many l) D fuel steps 0 = r
    rcases r with _ | ⟨_ | _, _⟩ <;> rfl

/-- Exact outcome of a looped append with positive stress time per repetition. -/
theorem looped_append_outcome {lf : TimeVal} {u : Option String} {D : Int} (hlf : denotes lf u D)
    (hD : 0 < D) {l : List (Step V)} (htd : allTimedelta l) (hP : 0 < stressTime l)
    (hr : D + absStressTime l ≤ 86399999913600000000) (steps : List (Step V)) :
    ∃ n : Nat, ((n : Int) - 1) * stressTime l < D ∧ D ≤ n * stressTime l ∧
      ∀ fuel, n < fuel → appendSteps fuel steps (.many l) (some lf) u =
        some (if (n * stressTime l) % D = 0 then .ok () else .error .userWarning,
          steps ++ copies n l) := by
  set P := stressTime l with hPdef
  -- n = ceil(D/P)
  have hq1 : P * (D / P) + D % P = D := Int.mul_ediv_add_emod D P
  have hm0 := Int.emod_nonneg D hP.ne'
  have hm1 := Int.emod_lt_of_pos D hP
  have hdiv0 : 0 ≤ D / P := Int.ediv_nonneg hD.le hP.le
  obtain ⟨n, hn1, hn2⟩ : ∃ n : Nat, ((n : Int) - 1) * P < D ∧ D ≤ n * P := by
    by_cases hz : D % P = 0
    · refine ⟨(D / P).toNat, ?_, ?_⟩ <;> rw [Int.toNat_of_nonneg hdiv0] <;> nlinarith
    · refine ⟨(D / P).toNat + 1, ?_, ?_⟩ <;> push_cast <;> rw [Int.toNat_of_nonneg hdiv0]
      · have : 0 < D % P := lt_of_le_of_ne hm0 (Ne.symm hz)
        nlinarith
      · nlinarith
  refine ⟨n, hn1, hn2, ?_⟩
  intro fuel hf
  rw [appendSteps_denotes hlf hD.ne' fuel steps l (hasNonMeas_of_stress hP.ne')]
  rw [appendLoop_pos htd hP (D := D) (by norm_num [tdMin]; exact hr) n steps 0 le_rfl
    (by rintro rfl; simp at hn2; omega)
    (by rintro m rfl; push_cast at hn1; linarith)
    (by rw [zero_add]; exact hn2) fuel hf]
  simp only [zero_add]
  split <;> rfl

/-- A looped append with positive stress time `P` per repetition terminates (for every sufficiently
large fuel) having appended exactly `ceil(D/P)` whole copies, normally or with the warning; the added
stress time is at least `D` and less than `D + P`. -/
theorem C04_loop_minimal {lf : TimeVal} {u : Option String} {D : Int} (hlf : denotes lf u D)
    (hD : 0 < D) {l : List (Step V)} (htd : allTimedelta l) (hP : 0 < stressTime l)
    (hr : D + absStressTime l ≤ 86399999913600000000) (steps : List (Step V)) :
    ∃ n : Nat, ((n : Int) - 1) * stressTime l < D ∧ D ≤ n * stressTime l ∧
      ∀ fuel, n < fuel → ∃ out new, appendSteps fuel steps (.many l) (some lf) u = some (out, new) ∧
        (out = .ok () ∨ out = .error .userWarning) ∧ new = steps ++ copies n l ∧
        D ≤ stressTime new - stressTime steps ∧
        stressTime new - stressTime steps < D + stressTime l := by
  obtain ⟨n, h1, h2, h3⟩ := looped_append_outcome hlf hD htd hP hr steps
  refine ⟨n, h1, h2, fun fuel hf => ⟨_, _, h3 fuel hf, ?_, rfl, ?_, ?_⟩⟩
  · split <;> simp
  · rw [stressTime_append, stressTime_copies]; omega
  · rw [stressTime_append, stressTime_copies]; linarith

/-- A single stress step given instead of a list behaves like the one-element list. -/
theorem C04_single_step (s : StrsSpec V) (fuel : Nat) (steps : List (Step V)) (lf : Option TimeVal)
    (u : Option String) :
    appendSteps fuel steps (.one (.strs s)) lf u = appendSteps fuel steps (.many [.strs s]) lf u :=
  appendSteps_one s fuel steps lf u

/-- Nothing is appended for a negative loop duration. -/
theorem C04_negative {lf : TimeVal} {u : Option String} {D : Int} (hlf : denotes lf u D)
    (hD : D < 0) {l : List (Step V)} (hne : hasNonMeas l) (steps : List (Step V)) (fuel : Nat)
    (hf : 0 < fuel) : appendSteps fuel steps (.many l) (some lf) u = some (.ok (), steps) := by
  rw [appendSteps_denotes hlf hD.ne fuel steps l hne]
  obtain ⟨f, rfl⟩ : ∃ f, fuel = f + 1 := ⟨fuel - 1, by omega⟩
  simp [appendLoop, not_lt.mpr hD.le]

/-- Zero loop durations, measurement-only step lists and unknown units are rejected and leave the
test unchanged. -/
theorem C04_rejections (steps l : List (Step V)) (fuel : Nat) (u : Option String) :
    (∀ lf, denotes lf u 0 → appendSteps fuel steps (.many l) (some lf) u
        = some (.error .userConfig, steps)) ∧
    (∀ lf D, denotes lf u D → ¬ hasNonMeas l → appendSteps fuel steps (.many l) (some lf) u
        = some (.error .userConfig, steps)) ∧
    (∀ q, (∀ k, (u, k) ∉ acceptedUnits) → appendSteps fuel steps (.many l) (some (.num q)) u
        = some (.error .userConfig, steps)) := by
  refine ⟨?_, ?_, ?_⟩
  · rintro lf (rfl | ⟨q, rfl, hq⟩)
    · simp [appendSteps]
    · simp [appendSteps, hq]
  · rintro lf D hd hne
    have ho := onlyMeas_many_true hne steps
    rcases hd with rfl | ⟨q, rfl, hq⟩
    · simp [appendSteps, ho]
    · simp [appendSteps, hq, ho]
  · intro q hu
    simp [appendSteps, convertTime, timeUnitMap_none_of_not_accepted hu]

-- Non-vacuity: 1 h of stress plus a measurement, looped for 2.5 h: three copies and a warning.
def exStrs : StrsSpec Nat := ⟨[("temp", 400)], .td 3600000000, "s"⟩
def exMeas : MeasSpec Nat := ⟨[("p", 2)], [("temp", 300)], "m"⟩
example : appendSteps 5 [.meas exMeas] (.many [.strs exStrs, .meas exMeas]) (some (.td 9000000000)) none
    = some (.error .userWarning, [.meas exMeas, .strs exStrs, .meas exMeas, .strs exStrs, .meas exMeas,
        .strs exStrs, .meas exMeas]) := by decide
example : allTimedelta [Step.strs exStrs, .meas exMeas] ∧ 0 < stressTime [Step.strs exStrs, .meas exMeas] ∧
    9000000000 + absStressTime [Step.strs exStrs, .meas exMeas] ≤ 86399999913600000000 := by
  refine ⟨?_, by decide, by decide⟩
  intro s hs; simp at hs; subst hs; exact ⟨_, rfl⟩

/-- Part of C05: when one repetition is not longer than the requested duration, or its stress time
is no multiple of it, the warning is raised exactly when the appended stress time differs from the
request. Missing: repetitions whose stress time is a proper multiple of the request
(`C05_silent_overshoot_violated`). -/
theorem C05_warning_partial {lf : TimeVal} {u : Option String} {D : Int} (hlf : denotes lf u D)
    (hD : 0 < D) {l : List (Step V)} (htd : allTimedelta l) (hP : 0 < stressTime l)
    (hr : D + absStressTime l ≤ 86399999913600000000) (steps : List (Step V))
    (hcase : stressTime l ≤ D ∨ ¬ D ∣ stressTime l) :
    ∃ N, ∀ fuel, N < fuel → ∃ out new,
      appendSteps fuel steps (.many l) (some lf) u = some (out, new) ∧
      (out = .error .userWarning ↔ stressTime new - stressTime steps ≠ D) ∧
      (out = .ok () ↔ stressTime new - stressTime steps = D) := by
  obtain ⟨n, h1, h2, h3⟩ := looped_append_outcome hlf hD htd hP hr steps
  refine ⟨n, fun fuel hf => ⟨_, _, h3 fuel hf, ?_⟩⟩
  have key : (n * stressTime l) % D = 0 ↔ n * stressTime l = D := by
    constructor
    · intro h
      obtain ⟨c, hc⟩ := Int.dvd_of_emod_eq_zero h
      rcases hcase with hle | hnd
      · have hc1 : 1 ≤ c := by nlinarith
        have hc2 : c < 2 := by nlinarith
        have : c = 1 := by omega
        rw [hc, this, mul_one]
      · -- P > D impossible unless n = 1
        by_cases hle : stressTime l ≤ D
        · have hc1 : 1 ≤ c := by nlinarith
          have hc2 : c < 2 := by nlinarith
          have : c = 1 := by omega
          rw [hc, this, mul_one]
        · exfalso
          have hn1 : n = 1 := by
            rcases Nat.lt_or_ge n 1 with h0 | h0
            · have : n = 0 := by omega
              subst this; simp at h2; omega
            · by_contra hne
              have : (2 : Int) ≤ n := by omega
              nlinarith
          subst hn1
          exact hnd ⟨c, by simpa using hc⟩
    · intro h; rw [h]; simp
  rw [stressTime_append, stressTime_copies]
  have e : stressTime steps + ↑n * stressTime l - stressTime steps = n * stressTime l := by ring
  rw [e]
  by_cases h : (n * stressTime l) % D = 0
  · simp [key.1 h]
  · have : ¬ (n * stressTime l = D) := fun h' => h (key.2 h')
    simp [h, this]

/-- Violation of C05: whenever one repetition has `c ≥ 2` times the requested stress time, the loop
appends `c` times too much stress and reports success. -/
theorem C05_silent_overshoot_violated {lf : TimeVal} {u : Option String} {D : Int}
    (hlf : denotes lf u D) (hD : 0 < D) {l : List (Step V)} (htd : allTimedelta l) {c : Int}
    (hc : 2 ≤ c) (hP : stressTime l = c * D)
    (hr : D + absStressTime l ≤ 86399999913600000000) (steps : List (Step V)) :
    ∃ N, ∀ fuel, N < fuel → ∃ new,
      appendSteps fuel steps (.many l) (some lf) u = some (.ok (), new) ∧
      stressTime new - stressTime steps = c * D ∧ D < c * D := by
  have hP0 : 0 < stressTime l := by rw [hP]; nlinarith
  obtain ⟨n, h1, h2, h3⟩ := looped_append_outcome hlf hD htd hP0 hr steps
  have hn1 : n = 1 := by
    rcases Nat.lt_or_ge n 1 with h0 | h0
    · have : n = 0 := by omega
      subst this; simp at h2; omega
    · by_contra hne
      have : (2 : Int) ≤ n := by omega
      rw [hP] at h1; nlinarith
  subst hn1
  refine ⟨1, fun fuel hf => ⟨steps ++ copies 1 l, (h3 fuel hf).trans ?_, ?_, ?_⟩⟩
  · rw [hP]; simp
  swap
  · nlinarith
  · rw [stressTime_append, stressTime_copies, hP]; push_cast; ring

-- Non-vacuity / witness: a 1 h step looped for 30 min.
example : appendSteps 5 [] (.one (.strs exStrs)) (some (.td 1800000000)) none
    = some (.ok (), [.strs exStrs]) := by decide

/-- Part of C06: with a nonzero net stress time per repetition the looped append always ends (if it is
negative, by `OverflowError`). Missing: net stress time zero (`C06_nontermination_violated`). -/
theorem C06_terminates_partial {lf : TimeVal} {u : Option String} {D : Int} (hlf : denotes lf u D)
    (hD : inTimedeltaRange D) {l : List (Step V)} (hP : stressTime l ≠ 0) (steps : List (Step V)) :
    ∃ fuel r, appendSteps fuel steps (.many l) (some lf) u = some r := by
  by_cases hD0 : D = 0
  · subst hD0; exact ⟨0, _, (C04_rejections steps l 0 u).1 lf hlf⟩
  · have h0 : tdValid 0 := by decide
    obtain ⟨fuel, r, hr⟩ := appendLoop_terminates hP ((tdValid_iff D).2 hD)
      (max D 0 + max (-tdMin) 0).toNat steps 0 h0
      (by intro _; simp [tdMin]; omega) (by intro _; simp [tdMin])
    refine ⟨fuel, ?_⟩
    rw [appendSteps_denotes hlf hD0 fuel steps l (hasNonMeas_of_stress hP), hr]
    rcases r with ⟨r | r, st⟩
    · exact ⟨_, rfl⟩
    · simp only; split <;> exact ⟨_, rfl⟩

/-- Violation of C06: a list that contains something other than a measurement and whose stress times
cancel passes the guard and is appended forever. -/
theorem C06_nontermination_violated {lf : TimeVal} {u : Option String} {D : Int}
    (hlf : denotes lf u D) (hD : 0 < D) {l : List (Step V)} (htd : allTimedelta l)
    (hne : hasNonMeas l) (hP : stressTime l = 0) (hr : absStressTime l ≤ 86399999913600000000)
    (steps : List (Step V)) :
    ∀ fuel, appendSteps fuel steps (.many l) (some lf) u = none := by
  intro fuel
  rw [appendSteps_denotes hlf hD.ne' fuel steps l hne,
    appendLoop_zero htd hP (by norm_num [tdMin]; exact hr) hD]

/-- The witness can be built through the public constructors: `StrsSpec` accepts negative durations. -/
theorem C06_witness_constructible :
    ∃ a b : StrsSpec ℚ, StrsSpec.mk' [] (.num 1) "a" (some "h") = .ok a ∧
      StrsSpec.mk' [] (.num (-1)) "b" (some "h") = .ok b ∧
      ∀ fuel, appendSteps fuel [] (.many [.strs a, .strs b]) (some (.num 5)) (some "h") = none := by
  have hu : ((some "h" : Option String), (3600000000 : ℚ)) ∈ acceptedUnits := by simp [acceptedUnits]
  have e1 : roundHalfEven (1 * 3600000000) = 3600000000 := by
    exact_mod_cast roundHalfEven_intCast 3600000000
  have e2 : roundHalfEven (-1 * 3600000000) = -3600000000 := by
    have := roundHalfEven_intCast (-3600000000); rw [← this]; norm_num
  have e3 : roundHalfEven (5 * 3600000000) = 18000000000 := by
    have := roundHalfEven_intCast (18000000000); rw [← this]; norm_num
  refine ⟨⟨[], .td 3600000000, "a"⟩, ⟨[], .td (-3600000000), "b"⟩, ?_, ?_, ?_⟩
  · simp only [StrsSpec.mk', convertTime_num hu, e1]; decide
  · simp only [StrsSpec.mk', convertTime_num hu, e2]; decide
  · refine C06_nontermination_violated (D := 18000000000) (Or.inr ⟨5, rfl, ?_⟩) (by norm_num) ?_ ?_ ?_ ?_ []
    · rw [convertTime_num hu, e3]; decide
    · intro s hs; simp at hs; rcases hs with rfl | rfl <;> exact ⟨_, rfl⟩
    · exact ⟨_, List.mem_cons_self, by simp⟩
    · simp [stressTime]
    · simp [absStressTime]

/-! ## C07 -/

/-- An observer's calls on the iterator object. -/
inductive IterOp | iter | next
  deriving DecidableEq, Repr

/-- Effect of a history of `iter()`/`next()` calls on the object. -/
def runOps (o : IterObj V) : List IterOp → IterObj V
  | [] => o
  | .iter :: ops => runOps o.iter ops
  | .next :: ops => runOps o.next.2 ops

/-- The results of `k` consecutive `next()` calls. -/
def nexts (o : IterObj V) : Nat → List (Except Err (Step V))
  | 0 => []
  | k + 1 => o.next.1 :: nexts o.next.2 k

theorem nexts_from (steps : List (Step V)) : ∀ (k i : Nat), i + k ≤ steps.length + 1 →
    nexts { steps := steps, cursor := some i } k
      = ((steps.drop i).map Except.ok ++ [Except.error Err.stopIteration]).take k
  | 0, i, _ => by simp [nexts]
  | k + 1, i, h => by
    by_cases hi : i < steps.length
    · simp only [nexts, IterObj.next, List.getElem?_eq_getElem hi]
      rw [nexts_from steps k (i + 1) (by omega)]
      rw [List.drop_eq_getElem_cons hi, List.map_cons, List.cons_append, List.take_succ_cons]
    · have hk : k = 0 := by omega
      subst hk
      have : steps[i]? = none := List.getElem?_eq_none (by omega)
      simp [nexts, IterObj.next, this, List.drop_eq_nil_of_le (show steps.length ≤ i by omega)]

/-- After any history of calls, a fresh loop over the test yields all steps in order and then stops;
no history changes the steps. -/
theorem C07_fresh_loop_partial (o : IterObj V) (hist : List IterOp) :
    (runOps o hist).steps = o.steps ∧
    nexts (runOps o hist).iter (o.steps.length + 1) = o.steps.map Except.ok ++ [Except.error Err.stopIteration] ∧
    ∀ k ≤ o.steps.length, nexts (runOps o hist).iter k = (o.steps.take k).map Except.ok := by
  have hst : (runOps o hist).steps = o.steps := by
    induction hist generalizing o with
    | nil => rfl
    | cons op ops ih =>
      cases op with
      | iter => exact ih o.iter
      | next =>
        simp only [runOps]; rw [ih o.next.2]
        unfold IterObj.next; split <;> (try split) <;> rfl
  have hcur : (runOps o hist).iter = { steps := o.steps, cursor := some 0 } := by
    simp [IterObj.iter, hst]
  refine ⟨hst, ?_, ?_⟩
  · rw [hcur, nexts_from _ _ _ (by omega)]
    simp only [List.drop_zero]
    exact List.take_of_length_le (by simp)
  · intro k hk
    rw [hcur, nexts_from _ _ _ (by omega)]
    simp only [List.drop_zero]
    rw [List.take_append_of_le_length (by simpa using hk), List.map_take]

/-- Violation of C07 (overlapping loops): in a nested loop over the same test, after the first pass
of the inner loop the outer loop fails with `AttributeError` instead of yielding the second step or
stopping — for every test. -/
theorem C07_nested_violated (steps : List (Step V)) :
    let o : IterObj V := { steps := steps }
    let outerBody := runOps o.iter [.next]
    let afterInner := runOps outerBody (.iter :: List.replicate (steps.length + 1) .next)
    afterInner.next.1 = .error .attributeError := by
  intro o outerBody afterInner
  have hrun : ∀ (k i : Nat), i + k = steps.length →
      runOps { steps := steps, cursor := some i } (List.replicate (k + 1) .next)
        = { steps := steps, cursor := none } := by
    intro k
    induction k with
    | zero =>
      intro i hi
      have : steps[i]? = none := List.getElem?_eq_none (by omega)
      simp [runOps, IterObj.next, this]
    | succ k ih =>
      intro i hi
      have hlt : i < steps.length := by omega
      rw [List.replicate_succ]
      simp only [runOps, IterObj.next, List.getElem?_eq_getElem hlt]
      exact ih (i + 1) (by omega)
  have hob : outerBody.steps = steps := (C07_fresh_loop_partial o [.iter, .next]).1
  have h2 : afterInner = { steps := steps, cursor := none } := by
    show runOps outerBody.iter _ = _
    have : outerBody.iter = { steps := steps, cursor := some 0 } := by simp [IterObj.iter, hob]
    rw [this]
    exact hrun steps.length 0 (by omega)
  rw [h2]; rfl

example : nexts (IterObj.iter { steps := [Step.meas exMeas, .strs exStrs] }) 3
    = [.ok (.meas exMeas), .ok (.strs exStrs), .error .stopIteration] := rfl

/-! ## C08 -/

theorem samplesUpdate_get (acc : Dict Nat) (p : String) (n : Nat) (prm : String) :
    (samplesUpdate acc p n).get? prm =
      if p = prm then some (max ((acc.get? prm).getD 0) n) else acc.get? prm := by
  unfold samplesUpdate
  split
  · rename_i h
    rw [Dict.get?_set]
    split
    · subst_vars; simp [h]
    · rfl
  · rename_i m h
    split
    · rename_i hlt
      rw [Dict.get?_set]
      split
      · subst_vars; simp [h, Nat.max_eq_right hlt.le]
      · rfl
    · rename_i hlt
      split
      · subst_vars; simp [h, Nat.max_eq_left (not_lt.mp hlt)]
      · rfl

/-- Greatest element description of an optional natural. -/
def IsMaxOpt (r : Option Nat) (S : Nat → Prop) : Prop :=
  match r with
  | none => ∀ n, ¬ S n
  | some m => S m ∧ ∀ n, S n → n ≤ m

theorem isMaxOpt_insert {r : Option Nat} {S : Nat → Prop} (h : IsMaxOpt r S) (n : Nat) :
    IsMaxOpt (some (max (r.getD 0) n)) (fun k => S k ∨ k = n) := by
  cases r with
  | none =>
    simp only [IsMaxOpt] at *
    refine ⟨by simp, ?_⟩
    rintro k (hk | rfl)
    · exact absurd hk (h k)
    · simp
  | some m =>
    simp only [IsMaxOpt] at *
    refine ⟨?_, ?_⟩
    · simp only [Option.getD_some]
      rcases Nat.le_total m n with hmn | hmn
      · right; exact Nat.max_eq_right hmn
      · left; rw [Nat.max_eq_left hmn]; exact h.1
    · rintro k (hk | rfl)
      · exact (h.2 k hk).trans (Nat.le_max_left _ _)
      · exact Nat.le_max_right _ _

theorem IsMaxOpt.congr {r : Option Nat} {S T : Nat → Prop} (h : IsMaxOpt r S) (hst : ∀ n, S n ↔ T n) :
    IsMaxOpt r T := by
  have : S = T := funext fun n => propext (hst n)
  exact this ▸ h

theorem IsMaxOpt.unique {r r' : Option Nat} {S : Nat → Prop} (h : IsMaxOpt r S) (h' : IsMaxOpt r' S) :
    r = r' := by
  cases r <;> cases r' <;> simp only [IsMaxOpt] at *
  · exact absurd h'.1 (h _)
  · exact absurd h.1 (h' _)
  · exact congrArg some (Nat.le_antisymm (h'.2 _ h.1) (h.2 _ h'.1))

theorem samples_inner (prm : String) : ∀ (l : List (String × Nat)) (acc : Dict Nat) (S : Nat → Prop),
    IsMaxOpt (acc.get? prm) S →
    IsMaxOpt ((l.foldl (fun acc kv => samplesUpdate acc kv.1 kv.2) acc).get? prm)
      (fun n => S n ∨ (prm, n) ∈ l)
  | [], acc, S, h => h.congr (by simp)
  | (p, n) :: l, acc, S, h => by
    simp only [List.foldl_cons]
    by_cases hp : p = prm
    · subst hp
      have h1 := isMaxOpt_insert h n
      refine (samples_inner p l _ (fun k => S k ∨ k = n) ?_).congr ?_
      · rw [samplesUpdate_get, if_pos rfl]; exact h1
      · intro k; simp [or_assoc]
    · refine (samples_inner prm l _ S ?_).congr ?_
      · rw [samplesUpdate_get, if_neg hp]; exact h
      · intro k; simp [Ne.symm hp]

theorem samples_outer (prm : String) : ∀ (steps : List (Step V)) (acc : Dict Nat) (S : Nat → Prop),
    IsMaxOpt (acc.get? prm) S →
    IsMaxOpt ((steps.foldl (fun acc step =>
        match step with
        | .meas m => m.measurements.foldl (fun acc kv => samplesUpdate acc kv.1 kv.2) acc
        | _ => acc) acc).get? prm)
      (fun n => S n ∨ requests steps prm n)
  | [], acc, S, h => h.congr (by simp [requests])
  | .meas m :: steps, acc, S, h => by
    simp only [List.foldl_cons]
    refine (samples_outer prm steps _ _ (samples_inner prm m.measurements acc S h)).congr ?_
    intro n
    simp only [requests, List.mem_cons, Step.meas.injEq, or_assoc]
    constructor
    · rintro (h | h | ⟨m', h1, h2⟩)
      · exact Or.inl h
      · exact Or.inr ⟨m, Or.inl rfl, h⟩
      · exact Or.inr ⟨m', Or.inr h1, h2⟩
    · rintro (h | ⟨m', rfl | h1, h2⟩)
      · exact Or.inl h
      · exact Or.inr (Or.inl h2)
      · exact Or.inr (Or.inr ⟨m', h1, h2⟩)
  | .strs x :: steps, acc, S, h => by
    simp only [List.foldl_cons]
    refine (samples_outer prm steps acc S h).congr ?_
    intro n; simp [requests]
  | .other x :: steps, acc, S, h => by
    simp only [List.foldl_cons]
    refine (samples_outer prm steps acc S h).congr ?_
    intro n; simp [requests]

/-- `calc_samples_needed` maps a parameter to `n` iff `n` is requested by some measurement and no
measurement requests more; parameters that nobody measures are absent. -/
theorem C08_max (steps : List (Step V)) (prm : String) :
    (∀ n, (calcSamplesNeeded steps).get? prm = some n ↔
      requests steps prm n ∧ ∀ m, requests steps prm m → m ≤ n) ∧
    ((calcSamplesNeeded steps).get? prm = none ↔ ∀ n, ¬ requests steps prm n) := by
  have h : IsMaxOpt ((calcSamplesNeeded steps).get? prm) (requests steps prm) :=
    (samples_outer prm steps [] (fun _ => False) (by simp [IsMaxOpt])).congr (by simp)
  refine ⟨fun n => ⟨fun hn => ?_, fun hn => ?_⟩, ⟨fun hn => ?_, fun hn => ?_⟩⟩
  · rw [hn] at h; exact h
  · exact h.unique (r' := some n) hn
  · rw [hn] at h; exact h
  · exact h.unique (r' := none) hn

/-- Neither stress steps nor the order of the steps matter. -/
theorem C08_order_independent {s1 s2 : List (Step V)}
    (h : ∀ m : MeasSpec V, Step.meas m ∈ s1 ↔ Step.meas m ∈ s2) (prm : String) :
    (calcSamplesNeeded s1).get? prm = (calcSamplesNeeded s2).get? prm := by
  have hreq : ∀ n, requests s1 prm n ↔ requests s2 prm n := by
    intro n; simp only [requests, h]
  cases h1 : (calcSamplesNeeded s1).get? prm with
  | none =>
    symm
    rw [(C08_max s2 prm).2]
    intro n hn
    exact ((C08_max s1 prm).2.1 h1) n ((hreq n).2 hn)
  | some n =>
    symm
    rw [(C08_max s2 prm).1]
    obtain ⟨ha, hb⟩ := ((C08_max s1 prm).1 n).1 h1
    exact ⟨(hreq n).1 ha, fun m hm => hb m ((hreq m).2 hm)⟩

example : calcSamplesNeeded (V := Nat)
    [.meas ⟨[("a", 2), ("b", 1)], [], ""⟩, .other "x", .meas ⟨[("b", 7), ("a", 1)], [], ""⟩]
    = [("a", 2), ("b", 7)] := rfl

end Gerabaldi.Props
