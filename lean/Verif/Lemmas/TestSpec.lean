import Verif.Lemmas.Time
import Mathlib.Tactic.Abel

namespace Gerabaldi
open Spec

variable {V : Type}

theorem tdAdd_ok {a b : Int} (h : tdValid (a + b)) : tdAdd a b = .ok (a + b) := by
  simp [tdAdd, tdMk, h]

theorem absStressTime_nonneg : ∀ l : List (Step V), 0 ≤ absStressTime l
  | [] => le_refl _
  | .strs s :: rest => by
    have := absStressTime_nonneg rest
    simp only [absStressTime]
    cases s.duration <;> (simp only; first | (have := abs_nonneg ‹Int›; omega) | omega)
  | .meas _ :: rest => absStressTime_nonneg rest
  | .other _ :: rest => absStressTime_nonneg rest

theorem stressTime_abs_le : ∀ l : List (Step V), |stressTime l| ≤ absStressTime l
  | [] => by simp [stressTime, absStressTime]
  | .strs s :: rest => by
    have := stressTime_abs_le rest
    simp only [stressTime, absStressTime]
    cases s.duration <;> simp only
    · exact (abs_add_le _ _).trans (by omega)
    · simpa using this
    · simpa using this
  | .meas _ :: rest => stressTime_abs_le rest
  | .other _ :: rest => stressTime_abs_le rest

theorem allTimedelta_tail {s : Step V} {l : List (Step V)} (h : allTimedelta (s :: l)) :
    allTimedelta l := fun x hx => h x (List.mem_cons_of_mem _ hx)

/-- Adding up one repetition, when no intermediate sum leaves the timedelta range. -/
theorem addStrsTimes_ok : ∀ (l : List (Step V)) (t : Int), allTimedelta l →
    tdMin ≤ t - absStressTime l → t + absStressTime l ≤ tdMax →
    addStrsTimes l t = .ok (t + stressTime l)
  | [], t, _, _, _ => by simp [addStrsTimes, stressTime]
  | .meas _ :: rest, t, h, h1, h2 => by
    simp only [addStrsTimes, stressTime]
    exact addStrsTimes_ok rest t (allTimedelta_tail h) h1 h2
  | .other _ :: rest, t, h, h1, h2 => by
    simp only [addStrsTimes, stressTime]
    exact addStrsTimes_ok rest t (allTimedelta_tail h) h1 h2
  | .strs s :: rest, t, h, h1, h2 => by
    obtain ⟨us, hus⟩ := h s (by simp)
    simp only [addStrsTimes, stressTime, absStressTime, hus] at *
    have hn := absStressTime_nonneg rest
    have hv : tdValid (t + us) := by
      unfold tdValid
      have := neg_abs_le us; have := le_abs_self us
      omega
    rw [tdAdd_ok hv]
    simp only
    rw [addStrsTimes_ok rest (t + us) (allTimedelta_tail h)
      (by have := neg_abs_le us; omega) (by have := le_abs_self us; omega)]
    congr 1; omega

theorem stressTime_append (l l' : List (Step V)) :
    stressTime (l ++ l') = stressTime l + stressTime l' := by
  induction l with
  | nil => simp [stressTime]
  | cons s l ih => cases s <;> (simp only [List.cons_append, stressTime, ih]; try omega)

theorem stressTime_copies (n : Nat) (l : List (Step V)) :
    stressTime (copies n l) = n * stressTime l := by
  induction n with
  | zero => simp [copies, stressTime]
  | succ n ih =>
    simp only [copies, List.replicate_succ, List.flatten_cons, stressTime_append] at *
    rw [ih]; push_cast; ring

theorem copies_succ (n : Nat) (l : List (Step V)) : copies (n + 1) l = l ++ copies n l := by
  simp [copies, List.replicate_succ]

theorem onlyMeas_many_false {l : List (Step V)} (h : hasNonMeas l) (st : List (Step V)) :
    (AppendArg.many l).onlyMeas st = false := by
  obtain ⟨s, hs, hne⟩ := h
  simp only [AppendArg.onlyMeas, List.all_eq_false]
  refine ⟨s, hs, ?_⟩
  cases s with
  | meas m => exact absurd rfl (hne m)
  | strs _ => simp
  | other _ => simp

theorem onlyMeas_many_true {l : List (Step V)} (h : ¬ hasNonMeas l) (st : List (Step V)) :
    (AppendArg.many l).onlyMeas st = true := by
  simp only [AppendArg.onlyMeas, List.all_eq_true]
  intro s hs
  cases s with
  | meas m => rfl
  | strs x => exact absurd ⟨_, hs, by simp⟩ h
  | other x => exact absurd ⟨_, hs, by simp⟩ h

/-- The loop with positive stress time per repetition: from accumulated time `t`, with `n` the least
number of repetitions that reaches `D`. -/
theorem appendLoop_pos {l : List (Step V)} (htd : allTimedelta l) (hP : 0 < stressTime l) {D : Int}
    (hr : D + absStressTime l ≤ -tdMin) :
    ∀ (n : Nat) (steps : List (Step V)) (t : Int), 0 ≤ t →
      (n = 0 → D ≤ t) → (∀ m, n = m + 1 → t + m * stressTime l < D) → D ≤ t + n * stressTime l →
      ∀ fuel, n < fuel →
      appendLoop (.many l) D fuel steps t = some (.ok (t + n * stressTime l), steps ++ copies n l)
  | 0, steps, t, h0, hz, _, _, fuel, hf => by
    obtain ⟨f, rfl⟩ : ∃ f, fuel = f + 1 := ⟨fuel - 1, by omega⟩
    simp only [appendLoop, if_neg (not_lt.mpr (hz rfl))]
    simp [copies]
  | n + 1, steps, t, h0, _, hs, hle, fuel, hf => by
    obtain ⟨f, rfl⟩ : ∃ f, fuel = f + 1 := ⟨fuel - 1, by omega⟩
    have hlt := hs n rfl
    have hnP : 0 ≤ (n : Int) * stressTime l := by positivity
    have htD : t < D := by omega
    have hn := absStressTime_nonneg l
    have h1 : tdMin ≤ t - absStressTime l := by omega
    have h2 : t + absStressTime l ≤ tdMax := by
      have : -tdMin ≤ tdMax := by norm_num [tdMin, tdMax]
      omega
    simp only [appendLoop, if_pos htD, AppendArg.countTime, AppendArg.addTo]
    rw [addStrsTimes_ok l t htd h1 h2]
    simp only
    push_cast at hle
    rw [appendLoop_pos htd hP hr n (steps ++ l) (t + stressTime l) (by omega)
      (by rintro rfl; simpa using hle)
      (by rintro m rfl; push_cast at hlt; linarith)
      (by linarith) f (by omega)]
    rw [copies_succ]
    simp only [List.append_assoc]
    congr 3
    push_cast; ring

/-- The loop never ends when a repetition adds no net stress time. -/
theorem appendLoop_zero {l : List (Step V)} (htd : allTimedelta l) (hP : stressTime l = 0)
    (hr : absStressTime l ≤ -tdMin) {D : Int} (hD : 0 < D) :
    ∀ (fuel : Nat) (steps : List (Step V)), appendLoop (.many l) D fuel steps 0 = none
  | 0, _ => rfl
  | fuel + 1, steps => by
    simp only [appendLoop, if_pos hD, AppendArg.countTime, AppendArg.addTo]
    rw [addStrsTimes_ok l 0 htd (by omega) (by
      have : -tdMin ≤ tdMax := by norm_num [tdMin, tdMax]
      omega), hP]
    simpa using appendLoop_zero htd hP hr hD fuel (steps ++ l)

/-- Adding up the durations either gives the sum or raises. -/
theorem addStrsTimes_cases : ∀ (l : List (Step V)) (t : Int),
    addStrsTimes l t = .ok (t + stressTime l) ∨ ∃ e, addStrsTimes l t = .error e
  | [], t => by simp [addStrsTimes, stressTime]
  | .meas _ :: rest, t => by simpa only [addStrsTimes, stressTime] using addStrsTimes_cases rest t
  | .other _ :: rest, t => by simpa only [addStrsTimes, stressTime] using addStrsTimes_cases rest t
  | .strs s :: rest, t => by
    simp only [addStrsTimes, stressTime]
    cases hd : s.duration with
    | td us =>
      simp only [tdAdd, tdMk]
      by_cases hv : tdValid (t + us)
      · simp only [if_pos hv]
        have := addStrsTimes_cases rest (t + us)
        rwa [add_assoc] at this
      · simp [if_neg hv]
    | pdtd us => simp
    | num q => simp

theorem addStrsTimes_valid : ∀ (l : List (Step V)) (t t' : Int), tdValid t →
    addStrsTimes l t = .ok t' → tdValid t'
  | [], t, t', h, he => by simp [addStrsTimes] at he; subst he; exact h
  | .meas _ :: rest, t, t', h, he => addStrsTimes_valid rest t t' h (by simpa [addStrsTimes] using he)
  | .other _ :: rest, t, t', h, he => addStrsTimes_valid rest t t' h (by simpa [addStrsTimes] using he)
  | .strs s :: rest, t, t', h, he => by
    simp only [addStrsTimes] at he
    cases hd : s.duration with
    | td us =>
      simp only [hd, tdAdd, tdMk] at he
      by_cases hv : tdValid (t + us)
      · simp only [if_pos hv] at he
        exact addStrsTimes_valid rest _ t' hv he
      · simp [if_neg hv] at he
    | pdtd us => simp [hd] at he
    | num q => simp [hd] at he

/-- With a nonzero net stress time per repetition the loop always ends. -/
theorem appendLoop_terminates {l : List (Step V)} (hP : stressTime l ≠ 0) {D : Int}
    (hD : tdValid D) : ∀ (n : Nat) (steps : List (Step V)) (t : Int), tdValid t →
    (0 < stressTime l → D - t ≤ n) → (stressTime l < 0 → t - tdMin ≤ n) →
    ∃ fuel r, appendLoop (.many l) D fuel steps t = some r
  | 0, steps, t, ht, h1, h2 => by
    refine ⟨2, ?_⟩
    by_cases htD : t < D
    · simp only [appendLoop, if_pos htD, AppendArg.countTime]
      rcases addStrsTimes_cases l t with h | ⟨e, h⟩
      · rcases lt_or_gt_of_ne hP with hneg | hpos
        · have := addStrsTimes_valid l t _ ht h
          have := h2 hneg
          unfold tdValid at *; omega
        · have := h1 hpos; omega
      · rw [h]; exact ⟨_, rfl⟩
    · exact ⟨(.ok t, steps), by simp only [appendLoop, if_neg htD]⟩
  | n + 1, steps, t, ht, h1, h2 => by
    by_cases htD : t < D
    · rcases addStrsTimes_cases l t with h | ⟨e, h⟩
      · obtain ⟨fuel, r, hr⟩ := appendLoop_terminates hP hD n (steps ++ l) (t + stressTime l)
          (addStrsTimes_valid l t _ ht h)
          (by intro hp; have := h1 hp; push_cast at this; omega)
          (by intro hp; have := h2 hp; push_cast at this; omega)
        refine ⟨fuel + 1, r, ?_⟩
        simp only [appendLoop, if_pos htD, AppendArg.countTime, AppendArg.addTo, h]
        exact hr
      · refine ⟨1, ?_⟩
        simp only [appendLoop, if_pos htD, AppendArg.countTime, h]
        exact ⟨_, rfl⟩
    · exact ⟨1, (.ok t, steps), by simp only [appendLoop, if_neg htD]⟩

/-- A single stress step behaves like the one-element list. -/
theorem appendLoop_one (s : StrsSpec V) (D : Int) : ∀ (fuel : Nat) (steps : List (Step V)) (t : Int),
    appendLoop (.one (.strs s)) D fuel steps t = appendLoop (.many [.strs s]) D fuel steps t
  | 0, _, _ => rfl
  | fuel + 1, steps, t => by
    simp only [appendLoop, AppendArg.addTo, AppendArg.countTime]
    split
    · cases addStrsTimes [Step.strs s] t with
      | ok t' => exact appendLoop_one s D fuel _ _
      | error e => rfl
    · rfl

theorem appendSteps_one (s : StrsSpec V) (fuel : Nat) (steps : List (Step V)) (lf : Option TimeVal)
    (u : Option String) :
    appendSteps fuel steps (.one (.strs s)) lf u = appendSteps fuel steps (.many [.strs s]) lf u := by
  unfold appendSteps
  have : (AppendArg.one (.strs s)).onlyMeas steps = (AppendArg.many [.strs s]).onlyMeas steps := by
    simp [AppendArg.onlyMeas]
  simp only [appendLoop_one, this]
  cases lf <;> rfl

end Gerabaldi
