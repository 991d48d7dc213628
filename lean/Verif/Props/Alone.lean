import Verif.Props.DoneMech

/-!
# C105: a sample alone never takes longer than in an array
-/

namespace Gerabaldi.Props

open Gerabaldi Gerabaldi.Spec

section
variable {V : Type} [PyArith V]

theorem lone_short {c : MinCfg V} {G : V → V} {s s1 : BState V} {us : List (V × V)} (h : Trace c s us s1)
    (hu : ∀ e ∈ us, e.2 = G e.1) (hd : s1.done c = true) {es : List (List V × List V)} {ss' : List (BState V)}
    (h' : VTrace c [s] es ss') (he : ∀ e ∈ es, e.2 = e.1.map G) : es.length ≤ us.length := by
  induction h generalizing es with
  | nil s =>
    cases h' with
    | nil => simp
    | cons hnd => simp [hd] at hnd
  | @cons s s' fu us h ih =>
    cases h' with
    | nil => simp
    | @cons _ _ fus es hnd hl h' =>
      have e1 := hu _ List.mem_cons_self
      have e2 := he _ List.mem_cons_self
      simp only at e1 e2
      have e3 : updateAll c [s] fus = [s.update (s.step c) fu] := by
        rw [e2, e1]
        rfl
      rw [e3] at h'
      have := ih (fun e he => hu e (List.mem_cons_of_mem _ he)) hd h' (fun e hm => he e (List.mem_cons_of_mem _ hm))
      simpa using this

/-- C105, the number of evaluations: the search of a sample alone makes at most as many evaluations as any search over
an array with the sample in it. This is for any numbers, also doubles. -/
theorem C105_no_longer {W : Type} {c : MinCfg V} {func : List V → M W (List V)} {n : Nat} {w w' : W}
    {log : List (Call V)} {out : List V} (h : minimize c (logged func) n (w, []) = (.ok out, (w', log))) {i : Nat}
    (hi : i < n) {G : V → V} (hg : ∀ k x y, evalAt log i k x y → y = G x) {out₁ : List V} {log₁ : List (Call V)}
    (h₁ : minimize c (logged (elementwise (W := Unit) G)) 1 ((), []) = (.ok out₁, ((), log₁))) :
    log₁.length ≤ log.length := by
  rcases minimize_run c func n w w' log _ h with ⟨o, e, h0, _⟩ | ⟨f0s, es, ss', tail, a1, a2, a3, a4, a5, a6⟩
  · cases h0
  obtain ⟨-, rfl, a9⟩ := a6 out rfl
  rcases minimize_run c _ 1 () () log₁ _ h₁ with ⟨o, e, h0, _⟩ | ⟨f0s₁, es₁, ss₁, tail₁, b1, b2, b3, b4, b5, b6⟩
  · cases h0
  obtain ⟨-, rfl, -⟩ := b6 out₁ rfl
  simp only [List.append_nil, List.length_nil, Nat.add_zero] at a2 b2 a4 b4
  have hla : log.length = es.length + 1 := by rw [a2]; simp [okCalls_length]
  have hlb : log₁.length = es₁.length + 1 := by rw [b2]; simp [okCalls_length]
  by_cases hm : es.length < c.maxiter
  swap
  · omega
  have hall := a9 hm
  obtain ⟨f0, hf0⟩ : ∃ f0, f0s[i]? = some f0 := ⟨f0s[i]'(by omega), by simp [a1, hi]⟩
  have hf0g : f0 = G (c.xf c.x0) := hg 0 _ _ ⟨_, f0s, by rw [a2]; rfl, by simp [hi], hf0⟩
  have hs : (f0s.map c.init)[i]? = some (c.init (G (c.xf c.x0))) := by simp [hf0, hf0g]
  obtain ⟨es', s', c1, c2, c3⟩ := a3.proj hs
  have hev : ∀ e ∈ es', e.2 = G e.1 := by
    intro e he
    obtain ⟨j, hj⟩ := List.mem_iff_getElem?.mp he
    obtain ⟨xs, fs, ha, hb, hc⟩ := (evalAt_iff c3 j e.1 e.2).2 hj
    exact hg (j + 1) _ _ ⟨xs, fs, by rw [a2, List.getElem?_cons_succ, ha], hb, hc⟩
  have hlog := minimize_elementwise_log h₁
  have hf1 : f0s₁ = [G (c.xf c.x0)] := by
    have := hlog _ (by rw [b2]; exact List.mem_cons_self)
    simpa using this
  subst hf1
  have := lone_short c2 hev (List.all_eq_true.1 hall s' (List.mem_of_getElem? c1)) b3 (by
    intro e he
    have := hlog (e.1, .ok e.2) (by
      rw [b2]
      refine List.mem_cons_of_mem _ ?_
      unfold okCalls
      exact List.mem_map.2 ⟨e, he, rfl⟩)
    simpa using this)
  have := c3.length_eq
  omega

end

/-- When the search of a mechanism over all samples stops by itself, so does the search of every sample alone: C105 for
mechanisms asks for less than C29. -/
theorem C105_converges_alone {W : Type} {m : MechMdl W (Ext ℝ)} {g : Dict (PyVal (Ext ℝ)) → Ext ℝ}
    {conds lat : Dict (Arr3 (Ext ℝ))} {L C D : Nat} (hs : SampleWise m g conds lat L C D)
    {cur : Arr3 (Ext ℝ)} (hcur : cur.HasDims L C D) {l c d : Nat} (hl : l < L) (hc : c < C) (hd : d < D) (w : W)
    (hconv : Converges m cur conds lat L C D) :
    ConvergesAlone (curve m g conds lat L C D l c d) (cur.at' l c d) := by
  obtain ⟨ts, w1, hmin, -⟩ := Gerabaldi.minimize_total (c := equivTimeCfg (Ext ℝ)) (n := cur.data.length)
    (f := m.residue cur conds lat L C D) (fun xs hx w => by
      obtain ⟨ys, c1, c2, -⟩ := residue_sample hs hcur hx w
      exact ⟨ys, w, c1, c2⟩) w
  have hobs := minimize_observed (equivTimeCfg (Ext ℝ)) (m.residue cur conds lat L C D) cur.data.length w
  have hout := minimize_outcomes (equivTimeCfg (Ext ℝ)) (m.residue cur conds lat L C D) cur.data.length w
  have hcv := hconv w
  obtain ⟨out₁, log₁, k1, -⟩ := Props.minimize_total (equivTimeCfg (Ext ℝ))
    (fun xs => xs.map fun x => PyArith.abs (PyArith.sub (cur.at' l c d) (curve m g conds lat L C D l c d x)))
    (fun xs => by simp) 1
  have k2 : minimize (equivTimeCfg (Ext ℝ)) (logged (elementwise (W := Unit) fun x =>
    PyArith.abs (PyArith.sub (cur.at' l c d) (curve m g conds lat L C D l c d x)))) 1 ((), []) =
      (.ok out₁, ((), log₁)) := k1
  unfold ConvergesAlone
  rw [k2]
  rw [hmin] at hobs
  cases hrun : minimize (equivTimeCfg (Ext ℝ)) (logged (m.residue cur conds lat L C D)) cur.data.length (w, []) with
  | mk r wl =>
    obtain ⟨w3, log⟩ := wl
    rw [hrun] at hobs hout hcv
    simp only [Prod.mk.injEq] at hobs
    obtain ⟨rfl, rfl⟩ := hobs
    obtain ⟨-, -, hlen⟩ := C26_bounded_work _ _ _ _ _ _ _ hrun
    refine lt_of_le_of_lt (C105_no_longer hrun (i := (l * C + c) * D + d) ?_ ?_ k2) hcv
    · rw [cur.wf, hcur.1, hcur.2.1, hcur.2.2]
      exact Arr3.index_lt hl hc hd
    · rintro k x y ⟨xs, fs, b1, b2, b3⟩
      have hmem := List.mem_of_getElem? b1
      obtain ⟨w4, hw4⟩ := hout _ hmem
      obtain ⟨ys, c1, -, c3⟩ := residue_sample hs hcur (hlen _ hmem) w4
      simp only at hw4 c1
      rw [c1] at hw4
      simp only [Except.ok.injEq] at hw4
      subst hw4
      rw [c3 l hl c hc d hd x b2] at b3
      exact (Option.some.inj b3).symm

/-- The two devices of C29 that have seen 100 s. -/
example : ConvergesAlone (curve (timeMech .deg "s" exMech) (timeVal exMech) [] [] 1 1 2 0 0 1)
    ((Arr3.full 1 1 2 (Ext.fin (exMech 100))).at' 0 0 1) :=
  C105_converges_alone (time_sampleWise _ _ _ 1 1 2) ⟨rfl, rfl, rfl⟩ Nat.one_pos Nat.one_pos Nat.one_lt_two
    Counts.start (exMech_converges .deg)

end Gerabaldi.Props
