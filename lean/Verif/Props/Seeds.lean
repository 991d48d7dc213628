import Verif.Spec.Seeds
import Verif.Model.Ext
import Verif.Model.Field

/-! # C52: seeds -/

set_option linter.unusedSectionVars false

namespace Gerabaldi.Props
open Gerabaldi Gerabaldi.Spec

variable {S V : Type} [PyArith V] [BitGen S V]

/-- Every variable has its own generator, and the generators exist. -/
structure Distinct (st : RvState S V) : Prop where
  inj : ∀ i j (hi : i < st.vars.length) (hj : j < st.vars.length),
    (st.vars[i]).id = (st.vars[j]).id → i = j
  bound : ∀ r ∈ st.vars, r.id < st.gens.count

/-- Variable `i` of the state has the generator state and distribution `x`. -/
def At (st : RvState S V) (i : Nat) (x : S × Dist V) : Prop :=
  ∃ r, st.vars[i]? = some r ∧ st.gens.states r.id = x.1 ∧ r.dist = x.2

theorem newVar_cases (d : Dist V) (name : Option String) (seed : Option Int) (g : Gens S) :
    (newVar d name seed g = (.error .valueError, g)) ∨
    ∃ s used, newVar d name seed g = (.ok ⟨g.count, d, name⟩,
      { states := fun j => if j = g.count then s else g.states j, count := g.count + 1,
        entropy := g.entropy, used := used }) ∧
      (∀ k, seed = some k → k ≠ 0 → s = BitGen.ofSeed V k.toNat) ∧
      ((seed = none ∨ seed = some 0) → s = g.entropy g.used) := by
  cases seed with
  | none => exact .inr ⟨_, _, rfl, fun k h => (nomatch h), fun _ => rfl⟩
  | some k =>
    by_cases hk : k = 0
    · subst hk
      exact .inr ⟨_, _, rfl, fun k h h0 => absurd (Option.some.inj h).symm h0, fun _ => rfl⟩
    · by_cases hn : k < 0
      · refine .inl ?_
        simp [newVar, newGenerator, newSeeded, hk, hn, bind, M.bind]
      · refine .inr ⟨BitGen.ofSeed V k.toNat, g.used, ?_, ?_, ?_⟩
        · simp [newVar, newGenerator, newSeeded, hk, hn, bind, M.bind, pure, M.pure]
        · intro k' h _
          cases h
          rfl
        · rintro (h | h)
          · cases h
          · cases h
            exact absurd rfl hk

/-- Sampling changes the variable's own generator only, in the same way as on its own. -/
theorem sample_own (r : RVar V) (n : Nat) (g : Gens S) :
    ∃ s, r.sample n g = ((ownStep (g.states r.id, r.dist) (.sample n)).1,
      { g with states := fun j => if j = r.id then s else g.states j }) ∧
      (ownStep (g.states r.id, r.dist) (.sample n)).2 = (s, r.dist) := by
  have hself : (fun j => if j = r.id then g.states r.id else g.states j) = g.states := by
    funext j
    split
    · rename_i h; rw [h]
    · rfl
  obtain ⟨id, d, name⟩ := r
  cases d with
  | deterministic v =>
    refine ⟨g.states id, ?_, rfl⟩
    show (Except.ok _, g) = _
    simp only at hself
    rw [hself]
    rfl
  | normal mu sigma => exact ⟨_, rfl, rfl⟩
  | uniform a b => exact ⟨_, rfl, rfl⟩
  | gamma a b =>
    by_cases h0 : PyArith.eq b (PyArith.ofRat 0) = true
    · refine ⟨g.states id, ?_, ?_⟩
      · simp only at hself
        rw [hself]
        simp [RVar.sample, Dist.getDistParams, Dist.paramsForNumpy, ownStep, h0, bind, M.bind, M.ofExcept]
      · simp [Dist.paramsForNumpy, ownStep, h0]
    · refine ⟨(BitGen.draw (g.states id) (Dist.gamma a b).typeName
        [("shape", a), ("scale", PyArith.div (PyArith.ofRat 1) b)] n).2, ?_, ?_⟩
      · simp [RVar.sample, Dist.getDistParams, Dist.paramsForNumpy, ownStep, h0, bind, M.bind, M.ofExcept,
          Rng.draw]
      · simp [Dist.paramsForNumpy, ownStep, h0]

theorem useVar_own {st : RvState S V} (hd : Distinct st) {i : Nat} {r : RVar V}
    (hr : st.vars[i]? = some r) (op : VarOp V) :
    Distinct (useVar st i r op).2 ∧
    (useVar st i r op).1 = (ownStep (st.gens.states r.id, r.dist) op).1 ∧
    At (useVar st i r op).2 i (ownStep (st.gens.states r.id, r.dist) op).2 ∧
    ∀ j x, j ≠ i → At st j x → At (useVar st i r op).2 j x := by
  obtain ⟨hi, hri⟩ := List.getElem?_eq_some_iff.1 hr
  cases op with
  | sample n =>
    obtain ⟨s, h1, h2⟩ := sample_own r n st.gens
    unfold useVar
    simp only
    rw [h1, h2]
    refine ⟨⟨hd.inj, hd.bound⟩, rfl, ⟨r, hr, by simp, rfl⟩, ?_⟩
    rintro j x hj ⟨r', hr', g1, g2⟩
    refine ⟨r', hr', ?_, g2⟩
    have hne : r'.id ≠ r.id := by
      intro he
      obtain ⟨hj', hrj⟩ := List.getElem?_eq_some_iff.1 hr'
      exact hj (hd.inj j i hj' hi (by rw [hri, hrj]; exact he))
    simpa [hne] using g1
  | setCentre v =>
    obtain ⟨id, d, name⟩ := r
    cases d with
    | normal mu sigma =>
      show Distinct { st with vars := st.vars.set i ⟨id, .normal v sigma, name⟩ } ∧ _
      have hids : ∀ j (hj : j < (st.vars.set i ⟨id, .normal v sigma, name⟩).length),
          ((st.vars.set i ⟨id, .normal v sigma, name⟩)[j]).id =
            (st.vars[j]'(by simpa using hj)).id := by
        intro j hj
        rw [List.getElem_set]
        split
        · rename_i hij
          subst hij
          rw [hri]
        · rfl
      refine ⟨⟨?_, ?_⟩, rfl, ⟨⟨id, .normal v sigma, name⟩, ?_, rfl, rfl⟩, ?_⟩
      · intro a b ha hb h
        simp only [hids] at h
        exact hd.inj a b _ _ h
      · intro x hx
        obtain ⟨j, hj, rfl⟩ := List.getElem_of_mem hx
        rw [hids]
        exact hd.bound _ (List.getElem_mem _)
      · simp [useVar, RVar.setCentre, hi]
      · rintro j x hj ⟨r', hr', g1, g2⟩
        refine ⟨r', ?_, g1, g2⟩
        simp [useVar, RVar.setCentre, Ne.symm hj, hr']
    | deterministic c => exact ⟨hd, rfl, ⟨_, hr, rfl, rfl⟩, fun j x _ h => h⟩
    | gamma a b => exact ⟨hd, rfl, ⟨_, hr, rfl, rfl⟩, fun j x _ h => h⟩
    | uniform a b => exact ⟨hd, rfl, ⟨_, hr, rfl, rfl⟩, fun j x _ h => h⟩

theorem create_distinct {st : RvState S V} (hd : Distinct st) (d : Dist V) (name : Option String)
    (seed : Option Int) :
    Distinct (rvStep st (.create d name seed)).2 ∧
    (∀ j x, At st j x → At (rvStep st (.create d name seed)).2 j x) ∧
    (rvStep st (.create d name seed)).1 = [] := by
  rcases newVar_cases d name seed st.gens with h | ⟨s, used, h, _⟩
  · simp only [rvStep, h]
    exact ⟨hd, fun _ _ h => h, trivial⟩
  · simp only [rvStep, h]
    refine ⟨⟨?_, ?_⟩, ?_, trivial⟩
    · intro a b ha hb he
      simp only [List.length_append, List.length_singleton] at ha hb
      have hlt : ∀ k (hk : k < st.vars.length), (st.vars[k]).id < st.gens.count :=
        fun k hk => hd.bound _ (List.getElem_mem _)
      by_cases ha' : a < st.vars.length
      · by_cases hb' : b < st.vars.length
        · rw [List.getElem_append_left ha', List.getElem_append_left hb'] at he
          exact hd.inj a b ha' hb' he
        · rw [List.getElem_append_left ha', List.getElem_append_right (by omega)] at he
          simp only [List.getElem_singleton] at he
          have := hlt a ha'
          omega
      · by_cases hb' : b < st.vars.length
        · rw [List.getElem_append_right (by omega), List.getElem_append_left hb'] at he
          simp only [List.getElem_singleton] at he
          have := hlt b hb'
          omega
        · omega
    · intro r hr
      rcases List.mem_append.1 hr with hr | hr
      · have := hd.bound r hr
        show r.id < st.gens.count + 1
        omega
      · cases List.mem_singleton.1 hr
        exact Nat.lt_succ_self _
    · rintro j x ⟨r, hr, g1, g2⟩
      have hlt := hd.bound r (List.mem_of_getElem? hr)
      refine ⟨r, ?_, ?_, g2⟩
      · show (st.vars ++ [_])[j]? = _
        rw [List.getElem?_append_left (List.getElem?_eq_some_iff.1 hr).1]
        exact hr
      · show (if r.id = st.gens.count then s else st.gens.states r.id) = _
        rw [if_neg (Nat.ne_of_lt hlt)]
        exact g1

theorem rvStep_none {st : RvState S V} {i : Nat} (h : st.vars[i]? = none) (op : VarOp V) :
    rvStep st (.use i op) = ([], st) := by simp [rvStep, h]

theorem rvStep_some {st : RvState S V} {i : Nat} {r : RVar V} (h : st.vars[i]? = some r) (op : VarOp V) :
    rvStep st (.use i op) = ([(i, (useVar st i r op).1)], (useVar st i r op).2) := by simp [rvStep, h]

theorem rvStep_distinct {st : RvState S V} (hd : Distinct st) (op : RvOp V) :
    Distinct (rvStep st op).2 := by
  cases op with
  | create d name seed => exact (create_distinct hd d name seed).1
  | use i op =>
    cases hr : st.vars[i]? with
    | none => rw [rvStep_none hr]; exact hd
    | some r => rw [rvStep_some hr]; exact (useVar_own hd hr op).1

theorem rvRun_distinct {st : RvState S V} (hd : Distinct st) (ops : List (RvOp V)) :
    Distinct (rvRun st ops).2 := by
  induction ops generalizing st with
  | nil => exact hd
  | cons op rest ih => exact ih (rvStep_distinct hd op)

theorem start_distinct (entropy : Nat → S) : Distinct (RvState.start entropy : RvState S V) :=
  ⟨fun _ _ hi => absurd hi (Nat.not_lt_zero _), fun _ hr => absurd hr List.not_mem_nil⟩

/-- Whatever happens to other variables, a variable yields what it would yield on its own. -/
theorem rvRun_own {st : RvState S V} (hd : Distinct st) {i : Nat} {x : S × Dist V} (hx : At st i x)
    (ops : List (RvOp V)) : outputsOf i (rvRun st ops).1 = ownRun x (opsOn i ops) := by
  induction ops generalizing st x with
  | nil => rfl
  | cons op rest ih =>
    have hd' := rvStep_distinct hd op
    show outputsOf i ((rvStep st op).1 ++ (rvRun (rvStep st op).2 rest).1) = _
    rw [outputsOf, List.filterMap_append]
    cases op with
    | create d name seed =>
      obtain ⟨_, h2, h3⟩ := create_distinct hd d name seed
      rw [h3]
      exact ih hd' (h2 i x hx)
    | use j op =>
      cases hr : st.vars[j]? with
      | none =>
        have hji : j ≠ i := by
          rintro rfl
          obtain ⟨r, h, _⟩ := hx
          rw [hr] at h
          cases h
        have e := rvStep_none hr op
        have e2 : opsOn i (.use j op :: rest) = opsOn i rest := by simp [opsOn, hji]
        rw [e, e2]
        exact ih hd hx
      | some r =>
        obtain ⟨h1, h2, h3, h4⟩ := useVar_own hd hr op
        have e := rvStep_some hr op
        rw [e] at hd' ⊢
        by_cases hji : j = i
        · subst hji
          obtain ⟨r', g1, g2, g3⟩ := hx
          rw [hr] at g1
          cases g1
          have e2 : opsOn j (.use j op :: rest) = op :: opsOn j rest := by simp [opsOn]
          have e3 : x = (st.gens.states r.id, r.dist) := Prod.ext g2.symm g3.symm
          rw [e2, ownRun, e3, ← h2]
          simp only [List.filterMap_cons, if_true, List.filterMap_nil, List.cons_append, List.nil_append]
          rw [← ih hd' h3]
          rfl
        · have e2 : opsOn i (.use j op :: rest) = opsOn i rest := by simp [opsOn, hji]
          rw [e2, ← ih hd' (h4 i x (Ne.symm hji) hx)]
          simp only [List.filterMap_cons, hji, if_false, List.filterMap_nil, List.nil_append]
          rfl

/-- A variable that is created in a history yields what it would on its own, from the state its seed
stands for. -/
theorem created_own (entropy : Nat → S) (before after : List (RvOp V)) (d : Dist V)
    (name : Option String) (seed : Option Int) (hs : ∀ k, seed = some k → 0 ≤ k) :
    ∃ s, (∀ k, seed = some k → k ≠ 0 → s = BitGen.ofSeed V k.toNat) ∧
      ((seed = none ∨ seed = some 0) → s = entropy (rvRun (RvState.start (V := V) entropy) before).2.gens.used) ∧
      outputsOf (rvRun (RvState.start (V := V) entropy) before).2.vars.length
        (rvRun (rvRun (RvState.start entropy) before).2 (.create d name seed :: after)).1 =
        ownRun (s, d) (opsOn (rvRun (RvState.start (V := V) entropy) before).2.vars.length after) := by
  have hent : ∀ (ops : List (RvOp V)) (st : RvState S V), (rvRun st ops).2.gens.entropy = st.gens.entropy := by
    intro ops
    induction ops with
    | nil => exact fun st => rfl
    | cons op rest ih =>
      intro st
      refine (ih _).trans ?_
      cases op with
      | create d name seed =>
        rcases newVar_cases d name seed st.gens with h | ⟨s, used, h, _⟩ <;> simp only [rvStep, h]
      | use i op =>
        cases hr : st.vars[i]? with
        | none => rw [rvStep_none hr]
        | some r =>
          rw [rvStep_some hr]
          cases op with
          | sample n =>
            obtain ⟨s, h1, _⟩ := sample_own r n st.gens
            simp only [useVar, h1]
          | setCentre v =>
            simp only [useVar]
            cases r.setCentre v none <;> rfl
  have hd := rvRun_distinct (start_distinct (V := V) entropy) before
  generalize hst : (rvRun (RvState.start (V := V) entropy) before).2 = st at hd
  have he : st.gens.entropy = entropy := by rw [← hst]; exact hent before _
  rcases newVar_cases d name seed st.gens with h | ⟨s, used, h, h1, h2⟩
  · exfalso
    cases seed with
    | none => cases h
    | some k =>
      by_cases hk : k = 0
      · subst hk; cases h
      · have : ¬ k < 0 := not_lt.2 (hs k rfl)
        simp [newVar, newGenerator, newSeeded, hk, this, bind, M.bind, pure, M.pure] at h
  · refine ⟨s, h1, fun h => (h2 h).trans (congrFun he _), ?_⟩
    have hc := create_distinct hd d name seed
    have hat : At (rvStep st (.create d name seed)).2 st.vars.length (s, d) := by
      simp only [rvStep, h]
      exact ⟨⟨st.gens.count, d, name⟩, List.getElem?_concat_length .., if_pos rfl, rfl⟩
    have := rvRun_own hc.1 hat after
    show outputsOf _ ((rvStep st (.create d name seed)).1 ++
      (rvRun (rvStep st (.create d name seed)).2 after).1) = _
    rw [hc.2.2]
    exact this

/-- **C52** for positive seeds: two variables with the same distribution and seed, created anywhere in two
histories (or at two places of one history), yield the same when the same is asked of them. Seed 0 is
missing (`C52_zero_violated`), negative seeds raise an exception. -/
theorem C52_partial (entropy entropy' : Nat → S) (before after before' after' : List (RvOp V)) (d : Dist V)
    (name name' : Option String) {seed : Int} (hs : 0 < seed) {i i' : Nat}
    (hi : i = (rvRun (RvState.start (V := V) entropy) before).2.vars.length)
    (hi' : i' = (rvRun (RvState.start (V := V) entropy') before').2.vars.length)
    (hsame : opsOn i after = opsOn i' after') :
    outputsOf i (rvRun (rvRun (RvState.start entropy) before).2 (.create d name (some seed) :: after)).1 =
    outputsOf i' (rvRun (rvRun (RvState.start entropy') before').2
      (.create d name' (some seed) :: after')).1 := by
  subst hi hi'
  obtain ⟨s, h1, _, h2⟩ := created_own entropy before after d name (some seed)
    (fun k h => by cases h; exact Int.le_of_lt hs)
  obtain ⟨s', h1', _, h2'⟩ := created_own entropy' before' after' d name' (some seed)
    (fun k h => by cases h; exact Int.le_of_lt hs)
  rw [h2, h2', hsame, h1 seed rfl (Int.ne_of_gt hs), h1' seed rfl (Int.ne_of_gt hs)]

/-- **C52** is violated for seed 0: the variable yields what entropy gives, exactly as without a seed. -/
theorem C52_zero_violated (entropy : Nat → S) (before after : List (RvOp V)) (d : Dist V)
    (name : Option String) {i : Nat}
    (hi : i = (rvRun (RvState.start (V := V) entropy) before).2.vars.length) {seed : Option Int}
    (hs : seed = some 0 ∨ seed = none) :
    outputsOf i (rvRun (rvRun (RvState.start entropy) before).2 (.create d name seed :: after)).1 =
      ownRun (entropy (rvRun (RvState.start (V := V) entropy) before).2.gens.used, d) (opsOn i after) := by
  subst hi
  obtain ⟨s, _, h1, h2⟩ := created_own entropy before after d name seed
    (fun k h => by rcases hs with hs | hs <;> rw [hs] at h <;> cases h; exact Int.le_refl _)
  rw [h2, h1 (by rcases hs with h | h <;> simp [h])]

/-- The generators of different variables do not influence each other: this world satisfies what the
other theorems assume of numpy. -/
theorem gens_lawful (hlen : ∀ (s : S) m ps n (xs : List V) s',
    BitGen.draw s m ps n = (.ok xs, s') → xs.length = n) : LawfulRng (Gens S) V where
  length := by
    intro id m ps n w w' xs h
    cases hd : BitGen.draw (V := V) (w.states id) m ps n with
    | mk r s =>
      have h' := congrArg Prod.fst h
      have : r = .ok xs := by
        refine Eq.trans ?_ h'
        show r = (BitGen.draw (w.states id) m ps n).1
        rw [hd]
      subst this
      exact hlen _ _ _ _ _ _ hd
  commute := by
    intro i j m m' ps ps' n n' w w1 w2 xs ys hij h1 h2
    have a1 := congrArg Prod.fst h1
    have a2 := congrArg Prod.snd h1
    have b1 := congrArg Prod.fst h2
    have b2 := congrArg Prod.snd h2
    simp only [Rng.draw] at a1 a2 b1 b2
    subst a2
    simp only [Ne.symm hij, if_false] at b1 b2
    refine ⟨_, Prod.ext b1 rfl, Prod.ext ?_ ?_⟩
    · simp only [Rng.draw, hij, if_false]
      exact a1
    · rw [← b2]
      simp only [Rng.draw, hij, if_false]
      congr 1
      funext k
      by_cases hk : k = i
      · subst hk; simp [hij]
      · simp [hk]

/-! ## Example -/

section example_

/-- A linear congruential generator over the rationals. -/
local instance lcg : BitGen Nat ℚ where
  ofSeed := fun s => s
  draw := fun s _ _ n => (.ok ((List.range n).map fun i => ((7 * (s + i) % 11 : Nat) : ℚ)), s + n)

attribute [local instance] fieldArith

/-- Two variables with seed 3, one with seed 0. -/
def seedOps : List (RvOp ℚ) :=
  [.create (.normal 0 1) none (some 3), .create (.normal 0 1) none (some 0), .use 0 (.sample 2),
   .create (.normal 0 1) none (some 3), .use 1 (.sample 2), .use 2 (.sample 2), .use 0 (.sample 1),
   .use 2 (.setCentre 4), .use 2 (.sample 1)]

example : (rvRun (RvState.start (fun k => 100 + k)) seedOps).1 =
    [(0, .ok [10, 6]), (1, .ok [7, 3]), (2, .ok [10, 6]), (0, .ok [2]), (2, .ok []), (2, .ok [2])] := by
  decide +kernel

/-- With other entropy, the variable with seed 0 yields something else. -/
example : (rvRun (RvState.start (fun k => 200 + k)) seedOps).1 =
    [(0, .ok [10, 6]), (1, .ok [3, 10]), (2, .ok [10, 6]), (0, .ok [2]), (2, .ok []), (2, .ok [2])] := by
  decide +kernel

example : LawfulRng (Gens Nat) ℚ := gens_lawful fun s m ps n xs s' h => by cases h; simp

end example_

end Gerabaldi.Props
