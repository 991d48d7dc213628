import Mathlib.Analysis.Convex.Slope
import Verif.Lemmas.BrentRun
import Verif.Props.Degrade

/-!
# The search for the equivalent time of a fresh array stops by itself
-/

namespace Gerabaldi.Spec

/-- A sample that has not started to degrade on its curve `f`, where the curve is fastest at the beginning:
it increases with falling slope from `y` or above, or decreases with falling steepness from `y` or below. -/
def FreshCurve (f : ℝ → ℝ) (y : ℝ) : Prop :=
  (StrictMonoOn f (Set.Ioi 0) ∧ ConcaveOn ℝ (Set.Ioi 0) f ∧ ∀ t, 0 < t → y ≤ f t) ∨
    (StrictAntiOn f (Set.Ioi 0) ∧ ConvexOn ℝ (Set.Ioi 0) f ∧ ∀ t, 0 < t → f t ≤ y)

/-- Every sample of the array is finite and fresh on its own curve. -/
def FreshArray {W : Type} (m : MechMdl W (Ext ℝ)) (g : Dict (PyVal (Ext ℝ)) → Ext ℝ)
    (cur : Arr3 (Ext ℝ)) (conds lat : Dict (Arr3 (Ext ℝ))) (L C D : Nat) : Prop :=
  ∀ l < L, ∀ c < C, ∀ d < D, ∃ (y : ℝ) (f : ℝ → ℝ), cur.at' l c d = .fin y ∧
    (∀ t : ℝ, 0 < t → curve m g conds lat L C D l c d (.fin t) = .fin (f t)) ∧ FreshCurve f y

end Gerabaldi.Spec

namespace Gerabaldi

open Spec Props

theorem Spec.FreshCurve.strict {f : ℝ → ℝ} {y : ℝ} (h : FreshCurve f y) :
    (StrictMonoOn f (Set.Ioi 0) ∧ ∀ t, 0 < t → y ≤ f t) ∨
      (StrictAntiOn f (Set.Ioi 0) ∧ ∀ t, 0 < t → f t ≤ y) :=
  h.imp (fun h => ⟨h.1, h.2.2⟩) fun h => ⟨h.1, h.2.2⟩

/-- The residue of a fresh sample grows no faster than the time itself. -/
theorem Spec.FreshCurve.gentle {f : ℝ → ℝ} {y : ℝ} (h : FreshCurve f y) :
    Gentle fun u => |y - f (10 ^ u)| where
  mono := residue_grows h.strict
  slow := by
    intro x w v hxw hwv
    have hp : ∀ u : ℝ, (0 : ℝ) < 10 ^ u := fun u => Real.rpow_pos_of_pos (by norm_num) u
    have hlt : ∀ a b : ℝ, a < b → (10 : ℝ) ^ a < 10 ^ b := fun a b hab =>
      Real.rpow_lt_rpow_of_exponent_lt (by norm_num) hab
    have h1 := hlt _ _ hxw
    have h2 := hlt _ _ hwv
    have hd1 : (0 : ℝ) < 10 ^ w - 10 ^ x := by linarith
    have hd2 : (0 : ℝ) < 10 ^ v - 10 ^ w := by linarith
    rcases h with ⟨-, hc, hy⟩ | ⟨-, hc, hy⟩
    · have := hc.slope_anti_adjacent (hp x) (hp v) h1 h2
      rw [div_le_div_iff₀ hd2 hd1] at this
      simp only [abs_of_nonpos (show y - f (10 ^ x) ≤ 0 by linarith [hy _ (hp x)]),
        abs_of_nonpos (show y - f (10 ^ w) ≤ 0 by linarith [hy _ (hp w)]),
        abs_of_nonpos (show y - f (10 ^ v) ≤ 0 by linarith [hy _ (hp v)])]
      linarith
    · have := hc.slope_mono_adjacent (hp x) (hp v) h1 h2
      rw [div_le_div_iff₀ hd1 hd2] at this
      simp only [abs_of_nonneg (show 0 ≤ y - f (10 ^ x) by linarith [hy _ (hp x)]),
        abs_of_nonneg (show 0 ≤ y - f (10 ^ w) by linarith [hy _ (hp w)]),
        abs_of_nonneg (show 0 ≤ y - f (10 ^ v) by linarith [hy _ (hp v)])]
      linarith

/-- A vector trace cut after `n` iterations; if it goes on, not all elements were finished. -/
theorem VTrace.cut {V : Type} [PyArith V] {c : MinCfg V} {ss ss' : List (BState V)} {es}
    (h : VTrace c ss es ss') {n : Nat} (hn : n ≤ es.length) :
    ∃ mid, VTrace c ss (es.take n) mid ∧ VTrace c mid (es.drop n) ss' := by
  induction h generalizing n with
  | nil ss =>
    simp only [List.length_nil, Nat.le_zero] at hn
    subst hn
    exact ⟨_, .nil _, .nil _⟩
  | @cons ss ss' fus es hnd hl h ih =>
    cases n with
    | zero => exact ⟨ss, .nil _, .cons hnd hl h⟩
    | succ n =>
      obtain ⟨mid, h1, h2⟩ := ih (Nat.le_of_succ_le_succ hn)
      exact ⟨mid, .cons hnd hl h1, h2⟩

theorem VTrace.not_done {V : Type} [PyArith V] {c : MinCfg V} {ss ss' : List (BState V)} {es}
    (h : VTrace c ss es ss') (hne : es ≠ []) : ss.all (BState.done c) = false := by
  cases h with
  | nil => exact absurd rfl hne
  | cons hnd => exact hnd

theorem index_exists {L C D i : Nat} (h : i < L * C * D) :
    ∃ l, l < L ∧ ∃ c, c < C ∧ ∃ d, d < D ∧ i = (l * C + c) * D + d := by
  have hD : 0 < D := by
    rcases Nat.eq_zero_or_pos D with rfl | h0
    · simp at h
    · exact h0
  have hC : 0 < C := by
    rcases Nat.eq_zero_or_pos C with rfl | h0
    · simp at h
    · exact h0
  refine ⟨i / D / C, ?_, i / D % C, Nat.mod_lt _ hC, i % D, Nat.mod_lt _ hD, ?_⟩
  · rw [Nat.div_lt_iff_lt_mul hC, Nat.div_lt_iff_lt_mul hD]
    exact h
  · rw [Nat.mul_comm (i / D / C) C, Nat.div_add_mod, Nat.mul_comm, Nat.div_add_mod]

attribute [local instance] fieldArith in
/-- The search for an array of fresh samples stops by itself. -/
theorem Spec.FreshArray.converges {W : Type} {m : MechMdl W (Ext ℝ)}
    {g : Dict (PyVal (Ext ℝ)) → Ext ℝ} {conds lat : Dict (Arr3 (Ext ℝ))} {L C D : Nat}
    (hs : SampleWise m g conds lat L C D) {cur : Arr3 (Ext ℝ)} (hcur : cur.HasDims L C D)
    (hfr : FreshArray m g cur conds lat L C D) : Converges m cur conds lat L C D := by
  intro w
  have hout := minimize_outcomes (equivTimeCfg (Ext ℝ)) (m.residue cur conds lat L C D)
    cur.data.length w
  cases hrun : minimize (equivTimeCfg (Ext ℝ)) (logged (m.residue cur conds lat L C D))
    cur.data.length (w, []) with
  | mk r wl =>
  obtain ⟨w3, log⟩ := wl
  rw [hrun] at hout
  show log.length < 51
  simp only at hout
  obtain ⟨-, -, hlen⟩ := C26_bounded_work _ _ _ _ _ _ _ hrun
  rcases minimize_run _ _ _ _ _ _ _ hrun with ⟨o, e, -, rfl⟩ |
    ⟨f0s, es, ss', tail, h1, h2, h3, h4, h5, h6⟩
  · simp
  by_contra hlog
  have h51 : es.length + tail.length = 50 := by
    rw [h2] at hlog
    simp only [List.length_cons, List.length_append, okCalls_length] at hlog
    have : (equivTimeCfg (Ext ℝ)).maxiter = 50 := rfl
    omega
  have htail : tail.length ≤ 1 := by
    by_cases ht : tail = []
    · simp [ht]
    · obtain ⟨-, -, o, ho⟩ := h5 ht
      simp [ho]
  obtain ⟨mid, hm1, hm2⟩ := h3.cut (n := 49) (by omega)
  have hnd : mid.all (BState.done (equivTimeCfg (Ext ℝ))) = false := by
    by_cases he : es.drop 49 = []
    · rw [he] at hm2
      cases hm2
      have hl49 : es.length ≤ 49 := by
        have := congrArg List.length he
        simp at this
        omega
      exact (h5 (by rintro rfl; simp at h51; omega)).2.1
    · exact hm2.not_done he
  refine Bool.false_ne_true (hnd.symm.trans ?_)
  rw [List.all_eq_true]
  intro sv hsv
  obtain ⟨i, hi⟩ := List.mem_iff_getElem?.1 hsv
  have hin : i < f0s.length := by
    have hl2 := hm1.length
    rw [List.length_map] at hl2
    rw [← hl2]
    exact (List.getElem?_eq_some_iff.1 hi).1
  obtain ⟨l, hl, c, hc, d, hd, rfl⟩ : ∃ l, l < L ∧ ∃ c, c < C ∧ ∃ d, d < D ∧
      i = (l * C + c) * D + d := by
    rw [h1, cur.wf, hcur.1, hcur.2.1, hcur.2.2] at hin
    exact index_exists hin
  obtain ⟨y, f, hy, hf, hfc⟩ := hfr l hl c hc d hd
  have hG : ∀ u : ℝ, PyArith.abs (PyArith.sub (cur.at' l c d) (curve m g conds lat L C D l c d
      ((equivTimeCfg (Ext ℝ)).xf ((FinEmb.ext ℝ).emb u)))) = (FinEmb.ext ℝ).emb |y - f (10 ^ u)| := by
    intro u
    show PyArith.abs (PyArith.sub (cur.at' l c d) (curve m g conds lat L C D l c d
      (.fin ((10 : ℝ) ^ u)))) = _
    rw [hy, hf _ (Real.rpow_pos_of_pos (by norm_num) u)]
    show Ext.fin |y + -f (10 ^ u)| = Ext.fin |y - f (10 ^ u)|
    rw [sub_eq_add_neg]
  have hev : ∀ j x z, evalAt log ((l * C + c) * D + d) j x z →
      z = PyArith.abs (PyArith.sub (cur.at' l c d) (curve m g conds lat L C D l c d x)) := by
    rintro j x z ⟨xs, fs, b1, b2, b3⟩
    have hmem := List.mem_of_getElem? b1
    obtain ⟨w4, hw4⟩ := hout _ hmem
    obtain ⟨ys, c1, -, c3⟩ := residue_sample hs hcur (hlen _ hmem) w4
    simp only at hw4 c1
    rw [c1] at hw4
    simp only [Except.ok.injEq] at hw4
    subst hw4
    rw [c3 l hl c hc d hd x b2] at b3
    exact (Option.some.inj b3).symm
  obtain ⟨f0, hf0⟩ : ∃ f0, f0s[(l * C + c) * D + d]? = some f0 := ⟨f0s[(l * C + c) * D + d], by simp⟩
  have hx0 : (equivTimeCfg (Ext ℝ)).x0 = (FinEmb.ext ℝ).emb (MinCfg.x0 cfgR) := by
    have E := FinEmb.ext ℝ
    simp only [MinCfg.x0, cfgR_emb.lo, cfgR_emb.hi, cfgR_emb.gf2, FinEmb.add, FinEmb.sub, FinEmb.mul]
    rfl
  have hf0g : f0 = (FinEmb.ext ℝ).emb |y - f (10 ^ MinCfg.x0 cfgR)| := by
    rw [← hG, ← hx0]
    refine hev 0 _ _ ⟨_, f0s, by rw [h2]; rfl, ?_, hf0⟩
    rw [List.getElem?_replicate, if_pos (by omega)]
  have hs0 : (f0s.map (MinCfg.init (equivTimeCfg (Ext ℝ))))[(l * C + c) * D + d]? =
      some ((MinCfg.init cfgR |y - f (10 ^ MinCfg.x0 cfgR)|).map (FinEmb.ext ℝ).emb) := by
    rw [List.getElem?_map, hf0, hf0g, Option.map_some, init_map (FinEmb.ext ℝ) cfgR_emb]
  obtain ⟨es', s', k1, k2, k3⟩ := hm1.proj hs0
  rw [hi] at k1
  cases k1
  have hevs : ∀ e ∈ es', e.2 =
      PyArith.abs (PyArith.sub (cur.at' l c d) (curve m g conds lat L C D l c d e.1)) := by
    intro e he
    obtain ⟨j, hj⟩ := List.mem_iff_getElem?.1 he
    obtain ⟨xs, fs, ha, hb, hc⟩ := (evalAt_iff k3 j e.1 e.2).2 hj
    refine hev (j + 1) _ _ ⟨xs, fs, ?_, hb, hc⟩
    rw [h2, List.getElem?_cons_succ]
    have hj2 : j < (okCalls (es.take 49)).length := (List.getElem?_eq_some_iff.1 ha).1
    have hsplit : okCalls es = okCalls (es.take 49) ++ okCalls (es.drop 49) := by
      unfold okCalls
      rw [← List.map_append, List.take_append_drop]
    rw [hsplit, List.append_assoc, List.getElem?_append_left hj2, ha]
  obtain ⟨us, s₁, k4, k5, k6, k7⟩ := k2.toField' (FinEmb.ext ℝ) cfgR_emb rfl
    (G := fun x => PyArith.abs (PyArith.sub (cur.at' l c d) (curve m g conds lat L C D l c d x)))
    (g := fun u => |y - f (10 ^ u)|) hG hevs
  have hus : 49 ≤ us.length := by
    have := k3.length_eq
    rw [List.length_take] at this
    omega
  have hdone := hfc.gentle.search_done k7 k6 hus
  rw [k4, done_map (FinEmb.ext ℝ) cfgR_emb]
  exact hdone

end Gerabaldi
