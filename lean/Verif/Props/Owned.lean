import Verif.Spec.Owned
import Verif.Props.TestSpec
import Mathlib.Data.List.Nodup

/-!
# Tests that own their steps (C84)
-/

namespace Gerabaldi.Props

open Gerabaldi Gerabaldi.Spec

variable {V : Type}

theorem set_get (h : ListStore V) (a b : Nat) (l : List (Step V)) :
    (h.set a l).lists b = if b = a then l else h.lists b := by
  unfold ListStore.set
  by_cases hb : b = a
  · subst hb; simp
  · simp [hb]

/-- Appending a step or another list object works as with values. -/
theorem addTo_distinct {t : Nat} {arg : StepsArg V} (ha : ∀ a, arg = .list a → a ≠ t) (h : ListStore V) :
    arg.addTo t h = h.set t ((plainArg h.lists arg).addTo (h.lists t)) := by
  cases arg <;> rfl

theorem set_set (h : ListStore V) (t : Nat) (l l' : List (Step V)) : (h.set t l).set t l' = h.set t l' := by
  unfold ListStore.set
  simp

theorem set_self (h : ListStore V) (t : Nat) : h.set t (h.lists t) = h := by
  unfold ListStore.set
  simp

theorem plainArg_set {t : Nat} {arg : StepsArg V} (ha : ∀ a, arg = .list a → a ≠ t) (h : ListStore V)
    (l : List (Step V)) : plainArg (h.set t l).lists arg = plainArg h.lists arg := by
  cases arg with
  | one s => rfl
  | list a => simp [plainArg, set_get, ha a rfl]

theorem loop_distinct {t : Nat} {arg : StepsArg V} (ha : ∀ a, arg = .list a → a ≠ t) (D : Int) (fuel : Nat)
    (h : ListStore V) (time : Int) : loopOn arg t D fuel h time =
      (appendLoop (plainArg h.lists arg) D fuel (h.lists t) time).map fun r => (r.1, h.set t r.2) := by
  induction fuel generalizing h time with
  | zero => rfl
  | succ fuel ih =>
    unfold loopOn appendLoop
    by_cases hlt : time < D
    · rw [if_pos hlt, if_pos hlt, addTo_distinct ha]
      have hc : arg.countTime (h.set t ((plainArg h.lists arg).addTo (h.lists t))) time =
          (plainArg h.lists arg).countTime ((plainArg h.lists arg).addTo (h.lists t)) time := by
        cases arg with
        | one s => cases s <;> rfl
        | list a => simp [StepsArg.countTime, plainArg, AppendArg.countTime, set_get, ha a rfl]
      rw [hc]
      dsimp only
      cases (plainArg h.lists arg).countTime ((plainArg h.lists arg).addTo (h.lists t)) time with
      | error e => rfl
      | ok time' =>
        simp only
        rw [ih, plainArg_set ha, set_get, if_pos rfl]
        simp only [set_set]
    · rw [if_neg hlt, if_neg hlt]
      simp [set_self]

/-- **C84**, one call: appending a step or a list object other than the test's own has exactly the effect of
appending a value, on that test alone. -/
theorem C84_append_partial {t : Nat} {arg : StepsArg V} (ha : ∀ a, arg = .list a → a ≠ t) (fuel : Nat)
    (h : ListStore V) (lf : Option TimeVal) (u : Option String) : appendOn fuel t h arg lf u =
      (appendSteps fuel (h.lists t) (plainArg h.lists arg) lf u).map fun r => (r.1, h.set t r.2) := by
  have hm : arg.onlyMeas h = (plainArg h.lists arg).onlyMeas (h.lists t) := by cases arg <;> rfl
  unfold appendOn appendSteps
  cases lf with
  | none => simp only [addTo_distinct ha, Option.map_some]
  | some lf =>
    have key : ∀ x : Except Err TimeVal, (match x with
        | .error e => some (.error e, h)
        | .ok (.td duration) =>
          if duration = 0 then some (.error .userConfig, h)
          else if arg.onlyMeas h then some (.error .userConfig, h)
          else
            match loopOn arg t duration fuel h 0 with
            | none => none
            | some (.error e, h') => some (.error e, h')
            | some (.ok time, h') =>
              if time % duration = 0 then some (.ok (), h') else some (.error .userWarning, h')
        | .ok _ =>
          if arg.onlyMeas h then some (.error .userConfig, h) else some (.error .typeError, h) :
          Option (Except Err Unit × ListStore V)) = (match x with
        | .error e => some (.error e, h.lists t)
        | .ok (.td duration) =>
          if duration = 0 then some (.error .userConfig, h.lists t)
          else if (plainArg h.lists arg).onlyMeas (h.lists t) then some (.error .userConfig, h.lists t)
          else
            match appendLoop (plainArg h.lists arg) duration fuel (h.lists t) 0 with
            | none => none
            | some (.error e, st) => some (.error e, st)
            | some (.ok t, st) =>
              if t % duration = 0 then some (.ok (), st) else some (.error .userWarning, st)
        | .ok _ =>
          if (plainArg h.lists arg).onlyMeas (h.lists t) then some (.error .userConfig, h.lists t)
          else some (.error .typeError, h.lists t) :
          Option (Except Err Unit × List (Step V))).map fun r => (r.1, h.set t r.2) := by
      intro x
      cases x with
      | error e => simp [set_self]
      | ok x =>
        cases x with
        | td D =>
          simp only [hm]
          by_cases hD : D = 0
          · simp [hD, set_self]
          · rw [if_neg hD, if_neg hD]
            by_cases ho : (plainArg h.lists arg).onlyMeas (h.lists t) = true
            · simp [ho, set_self]
            · rw [if_neg ho, if_neg ho, loop_distinct ha]
              cases appendLoop (plainArg h.lists arg) D fuel (h.lists t) 0 with
              | none => rfl
              | some r =>
                obtain ⟨o, l⟩ := r
                cases o with
                | error e => rfl
                | ok time =>
                  simp only [Option.map_some]
                  by_cases hz : time % D = 0
                  · simp [hz]
                  · simp [hz]
        | num q =>
          simp only [hm]
          split <;> simp [set_self]
        | pdtd q =>
          simp only [hm]
          split <;> simp [set_self]
    cases lf with
    | td us => exact key (.ok (.td us))
    | num q => exact key (convertTime (.num q) u)
    | pdtd q => exact key (convertTime (.pdtd q) u)

/-- What holds in between: the tests have different list objects, none of them among the free ones, and all contents
are as with plain values. -/
structure Agree (free : List Nat) (p : Program V) (q : Plain V) : Prop where
  next : p.store.next = q.next
  nodup : p.tests.Nodup
  apart : ∀ a ∈ free, a ∉ p.tests
  used : ∀ a, a ∈ p.tests ∨ a ∈ free → a < q.next
  same : Program.contents p = q.tests
  lists : ∀ a ∈ free, p.store.lists a = q.lists a

theorem update_contents {tests : List Nat} (hn : tests.Nodup) {i t : Nat} (ht : tests[i]? = some t) (h : ListStore V)
    (l : List (Step V)) : tests.map (h.set t l).lists = (tests.map h.lists).set i l := by
  apply List.ext_getElem?
  intro j
  obtain ⟨hi, rfl⟩ := List.getElem?_eq_some_iff.1 ht
  rw [List.getElem?_map, List.getElem?_set]
  by_cases hij : i = j
  · subst hij
    rw [if_pos rfl, ht]
    simp [set_get, hi]
  · rw [if_neg hij, List.getElem?_map]
    cases hj : tests[j]? with
    | none => rfl
    | some b =>
      obtain ⟨hj', rfl⟩ := List.getElem?_eq_some_iff.1 hj
      have : tests[j] ≠ tests[i] := fun he => hij ((List.Nodup.getElem_inj_iff hn).1 he).symm
      simp [set_get, this]

theorem step_agree {free : List Nat} {p : Program V} {q : Plain V} (h : Agree free p q) (fuel : Nat)
    {op : TestOp V} {rest : List (TestOp V)} (hg : GivenOnce q.next free (op :: rest)) :
    (p.step fuel op = none ∧ q.step fuel op = none) ∨ ∃ p' q' free', p.step fuel op = some p' ∧
      q.step fuel op = some q' ∧ Agree free' p' q' ∧ GivenOnce q'.next free' rest := by
  cases op with
  | list l =>
    refine .inr ⟨_, _, q.next :: free, rfl, rfl, ?_, hg⟩
    have hlt : ∀ a, a ∈ p.tests ∨ a ∈ free → a ≠ q.next := fun a ha => (h.used a ha).ne
    refine ⟨by simp [ListStore.alloc, h.next], h.nodup, ?_, ?_, ?_, ?_⟩
    · intro a ha
      rcases List.mem_cons.1 ha with rfl | ha
      · exact fun hm => hlt _ (.inl hm) rfl
      · exact h.apart a ha
    · intro a ha
      show a < q.next + 1
      rcases ha with ha | ha
      · exact (h.used a (.inl ha)).trans (Nat.lt_succ_self _)
      · rcases List.mem_cons.1 ha with rfl | ha
        · exact Nat.lt_succ_self _
        · exact (h.used a (.inr ha)).trans (Nat.lt_succ_self _)
    · show p.tests.map _ = q.tests
      rw [← h.same]
      refine List.map_congr_left fun a ha => ?_
      simp [ListStore.alloc, h.next, hlt a (.inl ha)]
    · intro a ha
      show (p.store.alloc l).2.lists a = Function.update q.lists q.next l a
      rcases List.mem_cons.1 ha with rfl | ha
      · simp [ListStore.alloc, h.next]
      · simp [ListStore.alloc, h.next, hlt a (.inr ha), h.lists a ha]
  | make arg =>
    cases arg with
    | none =>
      refine .inr ⟨_, _, free, rfl, rfl, ?_, hg⟩
      have hlt : ∀ a, a ∈ p.tests ∨ a ∈ free → a ≠ q.next := fun a ha => (h.used a ha).ne
      have hfst : (p.store.newTest none).1 = q.next := h.next
      refine ⟨by simp [ListStore.newTest, ListStore.alloc, h.next], ?_, ?_, ?_, ?_, ?_⟩
      · show (p.tests ++ [(p.store.newTest none).1]).Nodup
        rw [hfst, List.nodup_append]
        refine ⟨h.nodup, by simp, ?_⟩
        intro a ha b hb
        rw [List.mem_singleton.1 hb]
        exact hlt a (.inl ha)
      · intro a ha hm
        change a ∈ p.tests ++ [(p.store.newTest none).1] at hm
        rw [hfst] at hm
        rcases List.mem_append.1 hm with hm | hm
        · exact h.apart a ha hm
        · exact hlt a (.inr ha) (List.mem_singleton.1 hm)
      · intro a ha
        show a < q.next + 1
        rcases ha with ha | ha
        · change a ∈ p.tests ++ [(p.store.newTest none).1] at ha
          rw [hfst] at ha
          rcases List.mem_append.1 ha with ha | ha
          · exact (h.used a (.inl ha)).trans (Nat.lt_succ_self _)
          · rw [List.mem_singleton.1 ha]; exact Nat.lt_succ_self _
        · exact (h.used a (.inr ha)).trans (Nat.lt_succ_self _)
      · show (p.tests ++ [(p.store.newTest none).1]).map _ = q.tests ++ [[]]
        rw [← h.same, List.map_append]
        congr 1
        · refine List.map_congr_left fun a ha => ?_
          simp [ListStore.newTest, ListStore.alloc, h.next, hlt a (.inl ha)]
        · simp [ListStore.newTest, ListStore.alloc]
      · intro a ha
        show (p.store.newTest none).2.lists a = q.lists a
        simp [ListStore.newTest, ListStore.alloc, h.next, hlt a (.inr ha), h.lists a ha]
    | some b =>
      obtain ⟨hb, hg'⟩ := hg
      refine .inr ⟨_, _, free.filter (· ≠ b), rfl, rfl, ?_, hg'⟩
      refine ⟨h.next, ?_, ?_, ?_, ?_, ?_⟩
      · show (p.tests ++ [b]).Nodup
        rw [List.nodup_append]
        refine ⟨h.nodup, by simp, ?_⟩
        intro a ha c hc he
        rw [List.mem_singleton.1 hc] at he
        exact h.apart b hb (he ▸ ha)
      · intro a ha hm
        have ha' := List.mem_filter.1 ha
        rcases List.mem_append.1 hm with hm | hm
        · exact h.apart a ha'.1 hm
        · exact absurd (List.mem_singleton.1 hm) (of_decide_eq_true ha'.2)
      · intro a ha
        rcases ha with ha | ha
        · rcases List.mem_append.1 ha with ha | ha
          · exact h.used a (.inl ha)
          · rw [List.mem_singleton.1 ha]; exact h.used b (.inr hb)
        · exact h.used a (.inr (List.mem_filter.1 ha).1)
      · show (p.tests ++ [b]).map p.store.lists = q.tests ++ [q.lists b]
        rw [← h.same, List.map_append]
        simp [Program.contents, h.lists b hb]
      · intro a ha
        exact h.lists a (List.mem_filter.1 ha).1
  | append i arg lf u =>
    obtain ⟨ha, hg'⟩ := hg
    have hget : q.tests[i]? = (p.tests[i]?).map p.store.lists := by rw [← h.same, Program.contents, List.getElem?_map]
    cases ht : p.tests[i]? with
    | none =>
      rw [ht] at hget
      refine .inr ⟨p, q, free, ?_, ?_, h, hg'⟩
      · simp [Program.step, ht]
      · simp [Plain.step, hget]
    | some t =>
      have htm : t ∈ p.tests := List.mem_of_getElem? ht
      have hne : ∀ a, arg = .list a → a ≠ t := fun a he hat => h.apart a (ha a he) (hat ▸ htm)
      have harg : plainArg p.store.lists arg = plainArg q.lists arg := by
        cases arg with
        | one s => rfl
        | list a => simp [plainArg, h.lists a (ha a rfl)]
      rw [ht] at hget
      have hp : p.step fuel (.append i arg lf u) = ((appendSteps fuel (p.store.lists t) (plainArg q.lists arg) lf u).map
          fun r => (r.1, p.store.set t r.2)).map fun r => { p with store := r.2 } := by
        simp only [Program.step, ht]
        rw [C84_append_partial hne, harg]
      have hq : q.step fuel (.append i arg lf u) = (appendSteps fuel (p.store.lists t) (plainArg q.lists arg) lf u).map
          fun r => { q with tests := q.tests.set i r.2 } := by
        simp only [Plain.step, hget, Option.map_some]
      rw [hp, hq]
      cases appendSteps fuel (p.store.lists t) (plainArg q.lists arg) lf u with
      | none => exact .inl ⟨rfl, rfl⟩
      | some r =>
        refine .inr ⟨_, _, free, rfl, rfl, ⟨h.next, h.nodup, h.apart, h.used, ?_, ?_⟩, hg'⟩
        · show p.tests.map (p.store.set t r.2).lists = q.tests.set i r.2
          rw [update_contents h.nodup ht, ← h.same]
          rfl
        · intro a hfr
          have : a ≠ t := fun he => h.apart a hfr (he ▸ htm)
          simp [set_get, this, h.lists a hfr]

theorem run_agree (fuel : Nat) (ops : List (TestOp V)) {free : List Nat} {p : Program V} {q : Plain V}
    (h : Agree free p q) (hg : GivenOnce q.next free ops) :
    (ops.foldlM (Program.step fuel) p).map Program.contents = (ops.foldlM (Plain.step fuel) q).map (·.tests) := by
  induction ops generalizing free p q with
  | nil => simp [h.same]
  | cons op rest ih =>
    rw [List.foldlM_cons, List.foldlM_cons]
    rcases step_agree h fuel hg with ⟨h1, h2⟩ | ⟨p', q', free', h1, h2, h3, h4⟩
    · rw [h1, h2]; rfl
    · rw [h1, h2]
      exact ih h3 h4

/-- **C84**: in a program that gives every list to at most one test and does not use it afterwards, every test has
exactly the steps that were put into it, whatever happens to the other tests. -/
theorem C84_owned_partial (fuel : Nat) (ops : List (TestOp V)) (hg : GivenOnce 0 [] ops) :
    (ops.foldlM (Program.step fuel) Program.start).map Program.contents =
      (ops.foldlM (Plain.step fuel) Plain.start).map (·.tests) :=
  run_agree fuel ops (free := []) ⟨rfl, List.nodup_nil, by simp, by simp [Program.start], rfl, by simp⟩ hg

/-- **C84** is violated when two tests are made from the same list: appending to one appends to the other, and to the
list of the caller. -/
theorem C84_shared_violated (l : List (Step V)) (s : Step V) (fuel : Nat) :
    ∃ p q, [TestOp.list l, .make (some 0), .make (some 0), .append 0 (.one s) none none].foldlM (Program.step fuel)
        Program.start = some p ∧ Program.contents p = [l ++ [s], l ++ [s]] ∧ p.store.lists 0 = l ++ [s] ∧
      [TestOp.list l, .make (some 0), .make (some 0), .append 0 (.one s) none none].foldlM (Plain.step fuel)
        Plain.start = some q ∧ q.tests = [l ++ [s], l] ∧ q.lists 0 = l := by
  refine ⟨_, _, rfl, ?_, ?_, rfl, ?_, ?_⟩
  · simp [Program.contents, ListStore.newTest, Program.start, ListStore.alloc, StepsArg.addTo, ListStore.set]
  · simp [ListStore.newTest, Program.start, ListStore.alloc, StepsArg.addTo, ListStore.set]
  · simp [Plain.start, plainArg, AppendArg.addTo]
  · simp [Plain.start]

/-! ## The test's own list -/

theorem absStressTime_append (l l' : List (Step V)) :
    absStressTime (l ++ l') = absStressTime l + absStressTime l' := by
  induction l with
  | nil => simp [absStressTime]
  | cons s l ih => cases s <;> (simp only [List.cons_append, absStressTime, ih]; try omega)

theorem copies_double (n : Nat) (l : List (Step V)) : copies n (l ++ l) = copies (n * 2) l := by
  induction n with
  | zero => rfl
  | succ n ih =>
    rw [copies_succ, ih, show (n + 1) * 2 = n * 2 + 1 + 1 by ring, copies_succ, copies_succ, List.append_assoc]

/-- The loop with the test's own list: the list doubles in every round, and the time of the doubled list is
counted. -/
theorem loop_own {D : Int} {t : Nat} (fuel : Nat) {h : ListStore V} (hD : D ≤ 20000000000000000000)
    (htd : allTimedelta (h.lists t)) (hn : noNegative (h.lists t)) (hpos : 0 < stressTime (h.lists t)) {time : Int}
    (htime : 0 ≤ time) (hrel : time = 0 ∧ stressTime (h.lists t) ≤ 10000000000000000000 ∨ time < D ∧
      stressTime (h.lists t) ≤ time ∨ D ≤ time) (hfuel : D - time ≤ fuel) :
    ∃ k : Nat, loopOn (.list t) t D (fuel + 1) h time =
        some (.ok (time + (2 * 2 ^ k - 2) * stressTime (h.lists t)), h.set t (copies (2 ^ k) (h.lists t))) ∧
      D ≤ time + (2 * 2 ^ k - 2) * stressTime (h.lists t) ∧
      (k = 0 ∨ time + (2 ^ k - 2) * stressTime (h.lists t) < D) := by
  induction fuel generalizing h time with
  | zero =>
    refine ⟨0, ?_, by simp; omega, .inl rfl⟩
    unfold loopOn
    rw [if_neg (by omega)]
    simp [copies, set_self]
  | succ fuel ih =>
    by_cases hlt : time < D
    · have hadd : (StepsArg.list t : StepsArg V).addTo t h = h.set t (h.lists t ++ h.lists t) := rfl
      have hst : stressTime (h.lists t ++ h.lists t) = 2 * stressTime (h.lists t) := by
        rw [stressTime_append]; ring
      have hab : absStressTime (h.lists t ++ h.lists t) = 2 * stressTime (h.lists t) := by
        rw [absStressTime_append, hn]; ring
      have htd2 : allTimedelta (h.lists t ++ h.lists t) := by
        intro s hs
        rcases List.mem_append.1 hs with hs | hs <;> exact htd s hs
      have hb : stressTime (h.lists t) ≤ 20000000000000000000 := by omega
      have hcount : (StepsArg.list t : StepsArg V).countTime (h.set t (h.lists t ++ h.lists t)) time =
          .ok (time + 2 * stressTime (h.lists t)) := by
        simp only [StepsArg.countTime, set_get, if_true]
        rw [addStrsTimes_ok _ _ htd2 (by rw [hab]; norm_num [tdMin]; omega) (by rw [hab]; norm_num [tdMax]; omega),
          hst]
      obtain ⟨k, h1, h2, h3⟩ := ih (h := h.set t (h.lists t ++ h.lists t))
        (time := time + 2 * stressTime (h.lists t)) (by simpa [set_get] using htd2)
        (by simp only [set_get, if_true]; exact hab.trans hst.symm)
        (by simp only [set_get, if_true]; omega) (by omega)
        (by
          simp only [set_get, if_true, hst]
          by_cases hc : time + 2 * stressTime (h.lists t) < D
          · exact .inr (.inl ⟨hc, by omega⟩)
          · exact .inr (.inr (by omega))) (by push_cast at hfuel; omega)
      simp only [set_get, if_true, hst, set_set] at h1 h2 h3
      refine ⟨k + 1, ?_, ?_, .inr ?_⟩
      · rw [loopOn, if_pos hlt, hadd, hcount]
        simp only
        rw [h1]
        have e1 : time + 2 * stressTime (h.lists t) + (2 * 2 ^ k - 2) * (2 * stressTime (h.lists t)) =
            time + (2 * 2 ^ (k + 1) - 2) * stressTime (h.lists t) := by rw [pow_succ]; ring
        have e2 : copies (2 ^ k) (h.lists t ++ h.lists t) = copies (2 ^ (k + 1)) (h.lists t) := by
          rw [pow_succ]
          exact copies_double _ _
        rw [e1, e2]
      · rw [pow_succ]; linarith
      · rcases h3 with rfl | h3
        · simp; omega
        · rw [pow_succ]; linarith
    · refine ⟨0, ?_, by simp; omega, .inl rfl⟩
      rw [loopOn, if_neg hlt]
      simp [copies, set_self]

/-- **C84**, looping over the test's own list: the test is doubled `k` times, where `k` is the least number for which
twice the stress time appended reaches the requested time. -/
theorem C84_own_partial {lf : TimeVal} {u : Option String} {D : Int} (hlf : denotes lf u D) (hD : 0 < D)
    (hD' : D ≤ 20000000000000000000) {t : Nat} {h : ListStore V} (htd : allTimedelta (h.lists t))
    (hn : noNegative (h.lists t)) (hpos : 0 < stressTime (h.lists t))
    (hmax : stressTime (h.lists t) ≤ 10000000000000000000) :
    ∃ k : Nat, 0 < k ∧ D ≤ 2 * ((2 ^ k - 1) * stressTime (h.lists t)) ∧
      (2 ^ k - 2) * stressTime (h.lists t) < D ∧
      ∀ fuel : Nat, D < fuel → appendOn fuel t h (.list t) (some lf) u =
        some (if 2 * ((2 ^ k - 1) * stressTime (h.lists t)) % D = 0 then .ok () else .error .userWarning,
          h.set t (copies (2 ^ k) (h.lists t))) := by
  have hrun : ∀ fuel : Nat, D < fuel → ∃ k : Nat, loopOn (.list t) t D fuel h 0 =
        some (.ok (0 + (2 * 2 ^ k - 2) * stressTime (h.lists t)), h.set t (copies (2 ^ k) (h.lists t))) ∧
      D ≤ 0 + (2 * 2 ^ k - 2) * stressTime (h.lists t) ∧
      (k = 0 ∨ 0 + (2 ^ k - 2) * stressTime (h.lists t) < D) := by
    intro fuel hf
    obtain ⟨f, rfl⟩ : ∃ f, fuel = f + 1 := ⟨fuel - 1, by omega⟩
    exact loop_own f hD' htd hn hpos le_rfl (.inl ⟨rfl, hmax⟩) (by push_cast at hf; omega)
  have hpos' : ∀ k : Nat, D ≤ 0 + (2 * 2 ^ k - 2) * stressTime (h.lists t) → 0 < k := by
    intro k hk
    rcases Nat.eq_zero_or_pos k with rfl | hk0
    · simp at hk; omega
    · exact hk0
  have huniq : ∀ k k' : Nat, D ≤ 0 + (2 * 2 ^ k - 2) * stressTime (h.lists t) →
      (k' = 0 ∨ 0 + (2 ^ k' - 2) * stressTime (h.lists t) < D) → k' ≤ k := by
    intro k k' h1 h2
    by_contra hc
    have hc : k + 1 ≤ k' := by omega
    rcases h2 with rfl | h2
    · omega
    · have : (2 : Int) ^ (k + 1) ≤ 2 ^ k' := pow_le_pow_right₀ (by norm_num) hc
      rw [pow_succ] at this
      have := mul_le_mul_of_nonneg_right (sub_le_sub_right this 2) hpos.le
      rw [mul_comm ((2 : Int) ^ k) 2] at this
      linarith
  obtain ⟨k, -, k2, k3⟩ := hrun (D.toNat + 1) (by push_cast; omega)
  have hk := hpos' k k2
  refine ⟨k, hk, by linarith, ?_, fun fuel hf => ?_⟩
  · rcases k3 with rfl | k3
    · omega
    · linarith
  · obtain ⟨k', r1, r2, r3⟩ := hrun fuel hf
    obtain rfl : k' = k := le_antisymm (huniq k k' k2 r3) (huniq k' k r2 k3)
    have hmeas : (StepsArg.list t : StepsArg V).onlyMeas h = false :=
      onlyMeas_many_false (hasNonMeas_of_stress hpos.ne') []
    have e : (0 : Int) + (2 * 2 ^ k' - 2) * stressTime (h.lists t) =
        2 * ((2 ^ k' - 1) * stressTime (h.lists t)) := by ring
    rw [e] at r1
    unfold appendOn
    rcases hlf with rfl | ⟨q, rfl, hq⟩
    · simp only [if_neg hD.ne', hmeas, r1, Bool.false_eq_true, if_false]
      split <;> rfl
    · simp only [hq, if_neg hD.ne', hmeas, r1, Bool.false_eq_true, if_false]
      split <;> rfl

/-- **C84** is violated when the test's own list is appended in a loop: whenever the requested time is twice the stress
time of `2 ^ k - 1` copies, only half of it is appended, and no warning is given. -/
theorem C84_own_violated {t : Nat} {h : ListStore V} (htd : allTimedelta (h.lists t)) (hn : noNegative (h.lists t))
    (hpos : 0 < stressTime (h.lists t)) {k : Nat} (hk : 0 < k)
    (hmax : 2 * ((2 ^ k - 1) * stressTime (h.lists t)) ≤ 20000000000000000000) :
    ∃ fuel h', appendOn fuel t h (.list t) (some (.td (2 * ((2 ^ k - 1) * stressTime (h.lists t))))) none =
        some (.ok (), h') ∧
      2 * (stressTime (h'.lists t) - stressTime (h.lists t)) = 2 * ((2 ^ k - 1) * stressTime (h.lists t)) ∧
      stressTime (h'.lists t) - stressTime (h.lists t) < 2 * ((2 ^ k - 1) * stressTime (h.lists t)) := by
  have h2k : (2 : Int) ≤ 2 ^ k := by
    calc (2 : Int) = 2 ^ 1 := by norm_num
      _ ≤ 2 ^ k := pow_le_pow_right₀ (by norm_num) hk
  have hge : stressTime (h.lists t) ≤ (2 ^ k - 1) * stressTime (h.lists t) := by nlinarith
  obtain ⟨k', a1, a2, a3, a4⟩ := C84_own_partial (lf := .td (2 * ((2 ^ k - 1) * stressTime (h.lists t)))) (u := none)
    (.inl rfl) (by linarith) hmax htd hn hpos (by linarith)
  have h1 : (2 : Int) ^ k ≤ 2 ^ k' := by
    by_contra hc
    have hc := not_le.1 hc
    nlinarith
  have h2 : k' ≤ k := by
    by_contra hc
    have : (2 : Int) ^ (k + 1) ≤ 2 ^ k' := pow_le_pow_right₀ (by norm_num) (by omega)
    rw [pow_succ] at this
    nlinarith
  have h3 : k ≤ k' := (Nat.pow_le_pow_iff_right (a := 2) (by norm_num)).1 (by exact_mod_cast h1)
  obtain rfl : k' = k := le_antisymm h2 h3
  refine ⟨(2 * ((2 ^ k' - 1) * stressTime (h.lists t))).toNat + 1, h.set t (copies (2 ^ k') (h.lists t)), ?_, ?_⟩
  · rw [a4 _ (by push_cast; omega), if_pos (Int.emod_self)]
  · rw [set_get, if_pos rfl, stressTime_copies]
    push_cast
    constructor
    · ring
    · linarith

/-! ## Concrete cases -/

/-- Two tests, one from a list and one from nothing, with a looped append of another list. -/
def twoTests : List (TestOp Nat) :=
  [.list [.strs exStrs], .list [.meas exMeas], .make (some 1), .make none, .append 1 (.list 0) (some (.num 3)) none,
    .append 0 (.one (.strs exStrs)) none none]

example : GivenOnce 0 [] twoTests ∧
    (twoTests.foldlM (Program.step 10) Program.start).map Program.contents =
      some [[.meas exMeas, .strs exStrs], [.strs exStrs, .strs exStrs, .strs exStrs]] := by
  have hg : GivenOnce 0 [] twoTests := by simp [GivenOnce, twoTests]
  refine ⟨hg, ?_⟩
  rw [C84_owned_partial 10 twoTests hg]
  decide +kernel

/-- An hour of stress, looped for 14 hours: the test gets 7 hours more and no warning. -/
example : ∃ fuel h', appendOn fuel 0 (⟨fun _ => [.strs exStrs], 1⟩ : ListStore Nat) (.list 0)
      (some (.td (14 * 3600000000))) none = some (.ok (), h') ∧
    stressTime (h'.lists 0) - stressTime [Step.strs exStrs] = 7 * 3600000000 := by
  obtain ⟨fuel, h', h1, h2, -⟩ := C84_own_violated (t := 0) (h := (⟨fun _ => [.strs exStrs], 1⟩ : ListStore Nat)) (k := 3)
    (by intro s hs; cases List.mem_singleton.1 hs; exact ⟨_, rfl⟩) (by unfold noNegative; decide) (by decide) (by norm_num) (by decide)
  exact ⟨fuel, h', h1, by have : stressTime [Step.strs exStrs] = 3600000000 := rfl; simp only [this] at h2 ⊢; omega⟩

end Gerabaldi.Props
