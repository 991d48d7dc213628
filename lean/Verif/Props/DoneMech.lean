import Verif.Props.DoneStays
import Verif.Props.EquivTime

/-!
# C105 for the equivalent stress times of a mechanism
-/

namespace Gerabaldi.Props

open Gerabaldi Gerabaldi.Spec

/-- The search for the time at which one sample with the curve `φ`, by itself, has the value `y` stops by itself. -/
def ConvergesAlone (φ : Ext ℝ → Ext ℝ) (y : Ext ℝ) : Prop :=
  (minimize (equivTimeCfg (Ext ℝ)) (logged (elementwise (W := Unit) fun x => PyArith.abs (PyArith.sub y (φ x)))) 1
    ((), [])).2.2.length < 51

/-- C105 for mechanisms: the equivalent stress time that a `DegMechMdl` computes for a sample whose degradation lies on
its strictly monotone curve at a time `T` within the bounds is within a factor `10 ** (2 * tol)` of `T`, when the search
for this sample alone stops by itself. The other samples may have any values and curves, and may make the search over
all samples be cut off. -/
theorem C105_mechanism {W : Type} {m : MechMdl W (Ext ℝ)} (hkind : m.kind = .deg) {g : Dict (PyVal (Ext ℝ)) → Ext ℝ}
    {conds lat : Dict (Arr3 (Ext ℝ))} {L C D : Nat} (hs : SampleWise m g conds lat L C D)
    {cur : Arr3 (Ext ℝ)} (hcur : cur.HasDims L C D)
    {l c d : Nat} (hl : l < L) (hc : c < C) (hd : d < D)
    (hconv : ConvergesAlone (curve m g conds lat L C D l c d) (cur.at' l c d))
    {f : ℝ → ℝ} (hf : ∀ t : ℝ, 0 < t → curve m g conds lat L C D l c d (.fin t) = .fin (f t))
    (hmono : StrictMonoOn f (Set.Ioi 0) ∨ StrictAntiOn f (Set.Ioi 0)) {T : ℝ}
    (hT : cur.at' l c d = .fin (f T)) (hlo : 1 / 1000 ≤ T) (hhi : T ≤ 10 ^ 10) {t0 : Arr3 (Ext ℝ)} {w w' : W}
    (h : m.calcEquiv cur conds lat L C D w = (.ok t0, w')) :
    ∃ t : ℝ, t0.at' l c d = .fin t ∧ 0 < t ∧
      T * (10 : ℝ) ^ (-(2 * tolAt t)) < t ∧ t < T * (10 : ℝ) ^ (2 * tolAt t) := by
  unfold MechMdl.calcEquiv at h
  rw [hkind] at h
  simp only [MechMdl.calcEquivSearch] at h
  obtain ⟨ts, w2, hmin, hr⟩ := M.bind_eq_ok.1 h
  obtain ⟨e1, e2, e3, e4⟩ := Arr3.reshape_eq_ok.1 (M.ofExcept_eq_ok.1 hr).1
  have hobs := minimize_observed (equivTimeCfg (Ext ℝ)) (m.residue cur conds lat L C D)
    cur.data.length w
  have hout := minimize_outcomes (equivTimeCfg (Ext ℝ)) (m.residue cur conds lat L C D)
    cur.data.length w
  obtain ⟨out₂, log₂, k1, k2⟩ := minimize_total (equivTimeCfg (Ext ℝ))
    (fun xs => xs.map fun x => PyArith.abs (PyArith.sub (cur.at' l c d) (curve m g conds lat L C D l c d x)))
    (fun xs => by simp) 1
  have hcv : log₂.length < 51 := by
    have := hconv
    unfold ConvergesAlone at this
    rw [show (elementwise (W := Unit) fun x => PyArith.abs (PyArith.sub (cur.at' l c d) (curve m g conds lat L C D l c d x))) =
      fun xs => pure (xs.map fun x => PyArith.abs (PyArith.sub (cur.at' l c d) (curve m g conds lat L C D l c d x))) from rfl,
      k1] at this
    exact this
  rw [hmin] at hobs
  cases hrun : minimize (equivTimeCfg (Ext ℝ)) (logged (m.residue cur conds lat L C D))
    cur.data.length (w, []) with
  | mk r wl =>
    obtain ⟨w3, log⟩ := wl
    rw [hrun] at hobs hout
    simp only [Prod.mk.injEq] at hobs
    obtain ⟨rfl, rfl⟩ := hobs
    have hi : (l * C + c) * D + d < cur.data.length := by
      rw [cur.wf, hcur.1, hcur.2.1, hcur.2.2]
      exact Arr3.index_lt hl hc hd
    obtain ⟨-, -, hlen⟩ := C26_bounded_work _ _ _ _ _ _ _ hrun
    obtain ⟨t, a1, a2⟩ := C105_accurate _ _ _ _ _ _ hrun _ 1 () () log₂ out₂ k1 _ hi 0 Nat.one_pos f (f T) T hmono rfl hlo hhi
      (fun x => PyArith.abs (PyArith.sub (cur.at' l c d) (curve m g conds lat L C D l c d x)))
      (by
        intro t ht
        show PyArith.abs (PyArith.sub (cur.at' l c d) (curve m g conds lat L C D l c d (.fin t))) = _
        rw [hT, hf t ht]
        show Ext.fin |f T + -f t| = Ext.fin |f T - f t|
        rw [sub_eq_add_neg])
      (by
        rintro j x z ⟨xs, fs, b1, b2, b3⟩
        have hmem := List.mem_of_getElem? b1
        obtain ⟨w4, hw4⟩ := hout _ hmem
        obtain ⟨ys, c1, -, c3⟩ := residue_sample hs hcur (hlen _ hmem) w4
        simp only at hw4 c1
        rw [c1] at hw4
        simp only [Except.ok.injEq] at hw4
        subst hw4
        rw [c3 l hl c hc d hd x b2] at b3
        exact (Option.some.inj b3).symm)
      (by
        intro k x y he
        obtain ⟨xs, fs, b1, b2, b3⟩ := he
        have b4 := k2 _ (List.mem_of_getElem? b1)
        simp only [Except.ok.injEq] at b4
        rw [b4, List.getElem?_map, b2] at b3
        exact (Option.some.inj b3).symm) hcv
    refine ⟨t, ?_, a2⟩
    unfold Arr3.at'
    rw [e2, e3, hcur.2.1, hcur.2.2, e4, List.getD_eq_getElem?_getD, a1]
    rfl

theorem exMech_alone {L C D l c d : Nat} (hl : l < L) (hc : c < C) (hd : d < D) :
    ConvergesAlone (curve (timeMech .deg "s" exMech) (timeVal exMech) [] [] L C D l c d) (.fin (exMech 100)) := by
  obtain ⟨log, h1, h2⟩ := ex_runQ1
  unfold ConvergesAlone
  rw [minimize_map (FinEmb.extRat ℝ) cfgQ_emb rfl rfl (elementwise fun x => PyArith.abs (PyArith.sub
    (.fin (exMech 100)) (curve (timeMech .deg "s" exMech) (timeVal exMech) [] [] L C D l c d x))) ()
    (fun u => (u - 2) * (u - 2)) 1 ?_ log _ h1]
  · simp [h2]
  · intro us _
    simp only [elementwise, M.pure_run, List.map_map]
    congr 2
    apply List.map_congr_left
    intro q _
    show PyArith.abs (PyArith.sub (Ext.fin (exMech 100)) (curve (timeMech .deg "s" exMech) (timeVal exMech) [] [] L C D
      l c d (.fin ((10 : ℝ) ^ (q : ℝ))))) = _
    rw [time_curve _ _ _ hl hc hd]
    show Ext.fin |exMech 100 - exMech ((10 : ℝ) ^ (q : ℝ))| = _
    rw [exMech_residue]
    rfl

/-- Two devices that have seen 100 s. -/
example (d : Nat) (hd : d < 2) : ∃ t0, ∃ w w' : Counts, (timeMech .deg "s" exMech).calcEquiv
      (Arr3.full 1 1 2 (.fin (exMech 100))) [] [] 1 1 2 w = (.ok t0, w') ∧
    ∃ t : ℝ, t0.at' 0 0 d = .fin t ∧ 0 < t ∧
      100 * (10 : ℝ) ^ (-(2 * tolAt t)) < t ∧ t < 100 * (10 : ℝ) ^ (2 * tolAt t) := by
  obtain ⟨s', h⟩ := time_stressed (kind := .deg) (by decide) (unit := "s") (by decide)
    exMech (exMech 100) 2 (us := 3600000000) (by decide) Counts.start
  obtain ⟨t0, x, v, w1, w2, w3, w4, h1, -⟩ := stressed_mech h
  have hat : (Arr3.full 1 1 2 (Ext.fin (exMech 100))).at' 0 0 d = .fin (exMech 100) :=
    Arr3.at_full _ Nat.one_pos Nat.one_pos hd
  exact ⟨t0, w1, w2, h1, C105_mechanism rfl (time_sampleWise _ _ _ 1 1 2) ⟨rfl, rfl, rfl⟩ Nat.one_pos Nat.one_pos hd
    (by rw [hat]; exact exMech_alone Nat.one_pos Nat.one_pos hd) (fun t _ => time_curve _ _ _ Nat.one_pos Nat.one_pos hd t)
    (.inl exMech_mono) hat (by norm_num) (by norm_num) h1⟩

/-! ## An array that is cut off: the mechanism of C104, at 100 s and at the time that its search does not reach -/

/-- A search with the sample of C104 is always cut off. -/
theorem lure_cut {W : Type} {func : List (Ext ℝ) → M W (List (Ext ℝ))} {n : Nat} {w w' : W}
    {log : List (Call (Ext ℝ))} {out : List (Ext ℝ)}
    (h : minimize (equivTimeCfg (Ext ℝ)) (logged func) n (w, []) = (.ok out, (w', log))) {j : Nat} (hj : j < n)
    {G : Ext ℝ → Ext ℝ}
    (hG : ∀ t : ℝ, 0 < t → G (.fin t) = .fin |lureMech (10 ^ ((99 / 10 : ℚ) : ℝ)) - lureMech t|)
    (hg : ∀ k x y, evalAt log j k x y → y = G x) : 51 ≤ log.length := by
  by_contra hc
  obtain ⟨logq, hq, -⟩ := lure_run
  have h₁ := minimize_map (FinEmb.extRat ℝ) cfgQ_emb rfl rfl (elementwise (W := Unit) G) ()
    (fun u => |lureAt (99 / 10) - lureAt u|) 1 (by
      intro us _
      simp only [elementwise, M.pure_run, List.map_map]
      congr 2
      apply List.map_congr_left
      intro q _
      show G (.fin ((10 : ℝ) ^ (q : ℝ))) = .fin _
      rw [hG _ (Real.rpow_pos_of_pos (by norm_num) _), lure_residue]) logq _ hq
  have hT := lure_T
  obtain ⟨t, e, h0, h3, h4⟩ := C105_accurate _ 1 () () _ _ h₁ _ n w w' log out h 0 (by norm_num) j hj
    lureMech _ (10 ^ ((99 / 10 : ℚ) : ℝ)) (.inl lure_mono) rfl (by linarith) (by
      calc (10 : ℝ) ^ ((99 / 10 : ℚ) : ℝ) ≤ 10 ^ (10 : ℝ) :=
            Real.rpow_le_rpow_of_exponent_le (by norm_num) (by norm_num)
        _ = 10 ^ 10 := by norm_num) G hG (by
      rintro k x y ⟨xs, fs, ha, hb, hc⟩
      have := minimize_elementwise_log h₁ _ (List.mem_of_getElem? ha)
      simp only [Except.ok.injEq] at this
      rw [this, List.getElem?_map, hb] at hc
      simpa using hc.symm) hg (by omega)
  replace e : (Ext.fin ((10 : ℝ) ^ (lureEnd : ℝ))) = .fin t := Option.some.inj e
  rw [Ext.fin.injEq] at e
  subst e
  have hend := lure_end_le
  have htol : tolAt ((10 : ℝ) ^ (lureEnd : ℝ)) ≤ 1 / 4 := by
    unfold tolAt
    rw [Real.logb_rpow (by norm_num) (by norm_num)]
    have a1 : |(lureEnd : ℝ)| ≤ 10 := by
      have : |lureEnd| ≤ 10 := by decide +kernel
      exact_mod_cast this
    nlinarith
  have h5 : (1 / 4 : ℝ) ≤ 10 ^ (-(2 * tolAt ((10 : ℝ) ^ (lureEnd : ℝ)))) := by
    have a2 : (10 : ℝ) ^ (-(1 / 2) : ℝ) ≤ 10 ^ (-(2 * tolAt ((10 : ℝ) ^ (lureEnd : ℝ)))) :=
      Real.rpow_le_rpow_of_exponent_le (by norm_num) (by linarith)
    refine le_trans ?_ a2
    rw [Real.rpow_neg (by norm_num), ← Real.sqrt_eq_rpow, one_div]
    refine inv_anti₀ (Real.sqrt_pos.2 (by norm_num)) ?_
    rw [Real.sqrt_le_left (by norm_num)]
    norm_num
  have h6 : (7600000000 : ℝ) * (1 / 4) ≤
      10 ^ ((99 / 10 : ℚ) : ℝ) * 10 ^ (-(2 * tolAt ((10 : ℝ) ^ (lureEnd : ℝ)))) :=
    mul_le_mul hT h5 (by norm_num) (by linarith)
  linarith

attribute [local instance] fieldArith in
theorem lure_early : ∃ out log, minimize cfgQ (logged (elementwise (W := Unit) fun u => |lureAt 2 - lureAt u|)) 1
    ((), []) = (.ok out, ((), log)) ∧ log.length = 22 := by
  obtain ⟨out, log, h, -⟩ := minimize_total cfgQ (fun us => us.map fun u => |lureAt 2 - lureAt u|) (by simp) 1
  refine ⟨out, log, h, ?_⟩
  have hlen : (minimize cfgQ (logged (elementwise (W := Unit) fun u => |lureAt 2 - lureAt u|)) 1 ((), [])).2.2.length =
      22 := by decide +kernel
  have h' : minimize cfgQ (logged (elementwise (W := Unit) fun u => |lureAt 2 - lureAt u|)) 1 ((), []) =
    (.ok out, ((), log)) := h
  rw [h'] at hlen
  exact hlen

/-- The sample at 100 s, alone, is found. -/
theorem lure_early_alone {L C D l c d : Nat} (hl : l < L) (hc : c < C) (hd : d < D) :
    ConvergesAlone (curve (timeMech .deg "s" lureMech) (timeVal lureMech) [] [] L C D l c d)
      (.fin (lureMech (10 ^ ((2 : ℚ) : ℝ)))) := by
  obtain ⟨out, log, h1, h2⟩ := lure_early
  unfold ConvergesAlone
  rw [minimize_map (FinEmb.extRat ℝ) cfgQ_emb rfl rfl (elementwise fun x => PyArith.abs (PyArith.sub
    (.fin (lureMech (10 ^ ((2 : ℚ) : ℝ)))) (curve (timeMech .deg "s" lureMech) (timeVal lureMech) [] [] L C D l c d x)))
    () (fun u => |lureAt 2 - lureAt u|) 1 ?_ log _ h1]
  · simp [h2]
  · intro us _
    simp only [elementwise, M.pure_run, List.map_map]
    congr 2
    apply List.map_congr_left
    intro q _
    show PyArith.abs (PyArith.sub (Ext.fin (lureMech (10 ^ ((2 : ℚ) : ℝ)))) (curve (timeMech .deg "s" lureMech)
      (timeVal lureMech) [] [] L C D l c d (.fin ((10 : ℝ) ^ (q : ℝ))))) = _
    rw [time_curve _ _ _ hl hc hd]
    show Ext.fin |lureMech (10 ^ ((2 : ℚ) : ℝ)) - lureMech ((10 : ℝ) ^ (q : ℝ))| =
      Ext.fin ((|lureAt 2 - lureAt q| : ℚ) : ℝ)
    rw [lure_pow, lure_pow]
    push_cast
    rfl

/-- The degradation of two devices: after 100 s, and after the time of C104. -/
noncomputable def lureCur : Arr3 (Ext ℝ) :=
  Arr3.ofFn 1 1 2 fun _ _ d => .fin (lureMech (10 ^ ((if d = 0 then 2 else 99 / 10 : ℚ) : ℝ)))

/-- The search over both devices is cut off, and yet the 100 s of the first one are found. -/
example : ∃ t0, ∃ w w' : Counts, (timeMech .deg "s" lureMech).calcEquiv lureCur [] [] 1 1 2 w = (.ok t0, w') ∧
    ¬ Converges (timeMech .deg "s" lureMech) lureCur [] [] 1 1 2 ∧
    ∃ t : ℝ, t0.at' 0 0 0 = .fin t ∧ 100 * (10 : ℝ) ^ (-(2 * tolAt t)) < t ∧ t < 100 * (10 : ℝ) ^ (2 * tolAt t) := by
  have hcur : lureCur.HasDims 1 1 2 := ⟨rfl, rfl, rfl⟩
  have hs := time_sampleWise .deg "s" lureMech 1 1 2
  have h100 : ((10 : ℝ) ^ ((2 : ℚ) : ℝ)) = 100 := by norm_num
  have hat : lureCur.at' 0 0 0 = .fin (lureMech (10 ^ ((2 : ℚ) : ℝ))) := by
    unfold lureCur
    rw [Arr3.at_ofFn _ Nat.one_pos Nat.one_pos Nat.two_pos, if_pos rfl]
  have hat' : lureCur.at' 0 0 1 = .fin (lureMech (10 ^ ((99 / 10 : ℚ) : ℝ))) := by
    unfold lureCur
    rw [Arr3.at_ofFn _ Nat.one_pos Nat.one_pos Nat.one_lt_two, if_neg Nat.one_ne_zero]
  obtain ⟨t0, w', h⟩ := calcEquiv_works (m := timeMech .deg "s" lureMech) (N := fun _ => True) (cur := lureCur)
    (conds := []) (lat := []) (by decide) (fun args L C D w hu _ hacc => .inl (timeEqn_direct lureMech args L C D w hu hacc))
    (timeEqn_shapes lureMech) (.inr ⟨false, List.mem_cons_self⟩) (by
      intro p hp
      have hp : (p, false) ∈ [("time", false)] := hp
      left
      simpa using hp) hcur (fun k a h => by cases h) (fun k a h => by cases h) Counts.start
  refine ⟨t0, _, w', h, fun hconv => ?_, ?_⟩
  · have hout := minimize_outcomes (equivTimeCfg (Ext ℝ)) ((timeMech .deg "s" lureMech).residue lureCur [] [] 1 1 2)
      lureCur.data.length Counts.start
    have hobs := minimize_observed (equivTimeCfg (Ext ℝ)) ((timeMech .deg "s" lureMech).residue lureCur [] [] 1 1 2)
      lureCur.data.length Counts.start
    have hcv := hconv Counts.start
    obtain ⟨ts, w2, hmin, -⟩ := M.bind_eq_ok.1 (show (timeMech .deg "s" lureMech).calcEquivSearch lureCur [] [] 1 1 2
      Counts.start = _ from h)
    rw [hmin] at hobs
    cases hrun : minimize (equivTimeCfg (Ext ℝ)) (logged ((timeMech .deg "s" lureMech).residue lureCur [] [] 1 1 2))
      lureCur.data.length (Counts.start, []) with
    | mk r wl =>
      obtain ⟨w3, log⟩ := wl
      rw [hrun] at hobs hout hcv
      simp only [Prod.mk.injEq] at hobs
      obtain ⟨rfl, rfl⟩ := hobs
      obtain ⟨-, -, hlen⟩ := C26_bounded_work _ _ _ _ _ _ _ hrun
      refine absurd hcv (not_lt.2 (lure_cut hrun (j := 1) (G := fun x => PyArith.abs (PyArith.sub (lureCur.at' 0 0 1)
        (curve (timeMech .deg "s" lureMech) (timeVal lureMech) [] [] 1 1 2 0 0 1 x))) ?_ ?_ ?_))
      · rw [lureCur.wf]
        show 1 < 1 * 1 * 2
        norm_num
      · intro t _
        show PyArith.abs (PyArith.sub (lureCur.at' 0 0 1)
          (curve (timeMech .deg "s" lureMech) (timeVal lureMech) [] [] 1 1 2 0 0 1 (.fin t))) = _
        rw [hat', time_curve _ _ _ Nat.one_pos Nat.one_pos Nat.one_lt_two]
        rfl
      · rintro k x y ⟨xs, fs, b1, b2, b3⟩
        have hmem := List.mem_of_getElem? b1
        obtain ⟨w4, hw4⟩ := hout _ hmem
        obtain ⟨ys, c1, -, c3⟩ := residue_sample hs hcur (hlen _ hmem) w4
        simp only at hw4 c1
        rw [c1] at hw4
        simp only [Except.ok.injEq] at hw4
        subst hw4
        have := c3 0 Nat.one_pos 0 Nat.one_pos 1 Nat.one_lt_two x (by simpa using b2)
        simp only [Nat.zero_mul, Nat.zero_add] at this
        rw [this] at b3
        exact (Option.some.inj b3).symm
  · obtain ⟨t, e, -, h3, h4⟩ := C105_mechanism (T := 100) rfl hs hcur Nat.one_pos Nat.one_pos Nat.two_pos
      (by rw [hat]; exact lure_early_alone Nat.one_pos Nat.one_pos Nat.two_pos)
      (fun t _ => time_curve _ _ _ Nat.one_pos Nat.one_pos Nat.two_pos t) (.inl lure_mono) (by rw [hat, h100])
      (by norm_num) (by norm_num) h
    exact ⟨t, e, h3, h4⟩

end Gerabaldi.Props
