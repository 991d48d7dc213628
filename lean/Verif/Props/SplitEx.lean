import Verif.Props.Split
import Verif.Props.DegradeEx
import Mathlib.Analysis.Complex.ExponentialBounds

/-!
# C56 violated, and concrete runs for C55 and C56

The device of `DegradeEx`: one parameter "vth" with one mechanism "m" that depends on the time only.
-/

namespace Gerabaldi.Props

open Gerabaldi Gerabaldi.Spec

/-- The times a search of the mechanism returns. -/
theorem time_equiv {kind : MechKind} {unit : String} {F : ℝ → ℝ} {y : ℝ} {n : Nat} {out : List ℚ}
    {log' : List (Call (Ext ℝ))} {w w1 w2 : Counts} {t0 : Arr3 (Ext ℝ)}
    (hrun : minimize (equivTimeCfg (Ext ℝ))
      (logged ((timeMech kind unit F).residue (Arr3.full 1 1 n (.fin y)) [] [] 1 1 n)) n (w1, []) =
      (.ok (out.map fun u : ℚ => .fin ((10 : ℝ) ^ (u : ℝ))), (w, log')))
    (h : (timeMech kind unit F).calcEquivSearch (Arr3.full 1 1 n (.fin y)) [] [] 1 1 n w1 = (.ok t0, w2))
    {d : Nat} {x : ℚ} (hx : out[d]? = some x) :
    t0.at' 0 0 d = .fin ((10 : ℝ) ^ (x : ℝ)) := by
  unfold MechMdl.calcEquivSearch at h
  obtain ⟨ts, w3, hmin, hr⟩ := M.bind_eq_ok.1 h
  obtain ⟨e1, e2, e3, e4⟩ := Arr3.reshape_eq_ok.1 (M.ofExcept_eq_ok.1 hr).1
  have hn : (Arr3.full 1 1 n (Ext.fin y)).data.length = n := by
    rw [Arr3.wf]; show 1 * 1 * n = n; simp
  have hobs := minimize_observed (equivTimeCfg (Ext ℝ))
    ((timeMech kind unit F).residue (Arr3.full 1 1 n (.fin y)) [] [] 1 1 n)
    (Arr3.full 1 1 n (Ext.fin y)).data.length w1
  rw [hmin, hn, hrun] at hobs
  simp only [Prod.mk.injEq, Except.ok.injEq] at hobs
  unfold Arr3.at'
  rw [e2, e3, e4, ← hobs.1, List.getD_eq_getElem?_getD, zero_mul, zero_add, zero_mul, zero_add,
    List.getElem?_map, hx]
  rfl

/-! ## A stress step that undoes degradation -/

attribute [local instance] fieldArith in
theorem undo_run : ∃ out log, minimize cfgQ (logged (elementwise (W := Unit) fun u => |u - 6|)) 2
      ((), []) = (.ok out, ((), log)) ∧ log.length < 51 ∧ out.length = 2 ∧
    ∀ x ∈ out, x ≤ 6 - 2 / 1000000 := by
  have h : (match minimize cfgQ (logged (elementwise (W := Unit) fun u => |u - 6|)) 2 ((), []) with
    | (.ok out, (_, log)) => decide (log.length < 51) && decide (out.length = 2) &&
      out.all fun x => decide (x ≤ 6 - 2 / 1000000)
    | _ => false) = true := by decide +kernel
  generalize minimize cfgQ (logged (elementwise (W := Unit) fun u => |u - 6|)) 2 ((), []) = x at h
  obtain ⟨e, ⟨⟩, log⟩ := x
  cases e with
  | error e => cases h
  | ok out =>
    simp only [Bool.and_eq_true, decide_eq_true_eq, List.all_eq_true] at h
    exact ⟨out, log, rfl, h.1.1, h.1.2, h.2⟩

/-- C56 is violated: the degradation is the decimal logarithm of the stress time in seconds, so that
devices with the degradation 6 have seen a million seconds. Another second of stress makes the
degradation smaller: the search returns a time that is shorter by more than that. -/
theorem C56_violated (w : Counts) (d : Nat) (hd : d < 2) :
    StrictMonoOn (Real.logb 10) (Set.Ioi 0) ∧ Real.logb 10 1000000 = 6 ∧
    ∃ s' r' w', simStress Ex.orderA (timeDev (timeMech .deg "s" (Real.logb 10))) ⟨[], []⟩
        (timeStep 1000000) 0 (timeState 6 2, timeReport 2) w = (.ok (s', r'), w') ∧
      ∃ v, ∃ z : ℝ, mechVal s' "vth" "m" = some v ∧ v.at' 0 0 d = .fin z ∧ z < 6 := by
  have hmono : StrictMonoOn (Real.logb 10) (Set.Ioi 0) := fun _ ha _ _ hab =>
    Real.logb_lt_logb (by norm_num) ha hab
  have h6 : Real.logb 10 1000000 = 6 := by
    rw [show (1000000 : ℝ) = 10 ^ (6 : ℝ) by norm_num]
    exact logb_pow 6
  refine ⟨hmono, h6, ?_⟩
  obtain ⟨s', h⟩ := time_stressed (kind := .deg) (by decide) (unit := "s") (by decide)
    (Real.logb 10) 6 2 (us := 1000000) (by decide) w
  obtain ⟨r', w', hrun⟩ := h.run
  refine ⟨s', r', w', hrun, ?_⟩
  obtain ⟨out, log, hq, -, hlen, hout⟩ := undo_run
  obtain ⟨t0, x, v, w1, w2, h1, -, h3, h4, -, h5⟩ := stressed_deg h rfl (time_sampleWise _ _ _ 1 1 2)
  obtain ⟨log', -, hmin⟩ := time_run (kind := .deg) (unit := "s") (F := Real.logb 10) (y := 6) 2
    (fun q => by rw [logb_pow]; push_cast; rw [abs_sub_comm]) hq w1
  have hx : x = 1 := by
    have : convertTime (timeStep 1000000).duration (timeMech .deg "s" (Real.logb 10)).timeUnit =
        .ok (.num 1) := by
      show convertTime (.td 1000000) (some "s") = _
      decide +kernel
    rw [this] at h3
    cases h3
    rfl
  subst hx
  obtain ⟨q, hqd⟩ : ∃ q, out[d]? = some q := ⟨out[d], List.getElem?_eq_getElem (by omega)⟩
  have ht := time_equiv hmin h1 hqd
  have hle : (q : ℝ) ≤ 6 - 2 / 1000000 := by
    have := hout q (List.mem_of_getElem? hqd)
    have h' := (Rat.cast_le (K := ℝ)).2 this
    push_cast at h'
    exact h'
  have hpos : (0 : ℝ) < 10 ^ (q : ℝ) := Real.rpow_pos_of_pos (by norm_num) _
  have hlt : (10 : ℝ) ^ (q : ℝ) + 1 < 1000000 := by
    have h7 : (10 : ℝ) ^ (q : ℝ) ≤ 10 ^ (6 - 2 / 1000000 : ℝ) :=
      Real.rpow_le_rpow_of_exponent_le (by norm_num) hle
    have h8 : (10 : ℝ) ^ (6 - 2 / 1000000 : ℝ) * 10 ^ (2 / 1000000 : ℝ) = 1000000 := by
      rw [← Real.rpow_add (by norm_num)]
      norm_num
    have h9 : (1 + 2 * (2 / 1000000) : ℝ) ≤ 10 ^ (2 / 1000000 : ℝ) := by
      have hlog : (2 : ℝ) ≤ Real.log 10 := by
        rw [Real.le_log_iff_exp_le (by norm_num)]
        have h11 : Real.exp 2 = Real.exp 1 * Real.exp 1 := by
          rw [← Real.exp_add]; norm_num
        rw [h11]
        have := Real.exp_one_lt_d9
        have := Real.exp_pos 1
        nlinarith
      have h12 : (10 : ℝ) ^ (2 / 1000000 : ℝ) = Real.exp (Real.log 10 * (2 / 1000000)) :=
        Real.rpow_def_of_pos (by norm_num) _
      have h10 := Real.add_one_le_exp (Real.log 10 * (2 / 1000000))
      rw [h12]
      linarith
    have h13 : (0 : ℝ) < 10 ^ (6 - 2 / 1000000 : ℝ) := Real.rpow_pos_of_pos (by norm_num) _
    nlinarith
  have hadd : PyArith.add (t0.at' 0 0 d) (PyArith.ofRat 1) = Ext.fin ((10 : ℝ) ^ (q : ℝ) + 1) := by
    rw [ht]
    show Ext.fin ((10 : ℝ) ^ (q : ℝ) + ((1 : ℚ) : ℝ)) = _
    rw [Rat.cast_one]
  refine ⟨v, Real.logb 10 (10 ^ (q : ℝ) + 1), h4, ?_, ?_⟩
  · rw [h5 0 Nat.one_pos 0 Nat.one_pos d hd, hadd, if_neg]
    · exact time_curve _ _ _ Nat.one_pos Nat.one_pos hd _
    · rintro ⟨h7, -⟩
      have h7' : decide (((9000000000 : ℚ) : ℝ) < (10 : ℝ) ^ (q : ℝ) + 1) = true := h7
      rw [decide_eq_true_eq] at h7'
      push_cast at h7'
      linarith
  · rw [← h6]
    exact Real.logb_lt_logb (by norm_num) (by linarith) hlt

/-! ## C56: an hour after 100 s -/

example (w : Counts) (d : Nat) (hd : d < 2) : ∃ s' r' w', simStress Ex.orderA
    (timeDev (timeMech .deg "s" exMech)) ⟨[], []⟩ (timeStep 3600000000) 0
    (timeState (exMech 100) 2, timeReport 2) w = (.ok (s', r'), w') ∧
    ∃ v, ∃ z : ℝ, mechVal s' "vth" "m" = some v ∧ v.at' 0 0 d = .fin z ∧ exMech 100 ≤ z := by
  obtain ⟨s', h⟩ := time_stressed (kind := .deg) (by decide) (unit := "s") (by decide)
    exMech (exMech 100) 2 (us := 3600000000) (by decide) w
  obtain ⟨r', w', hrun⟩ := h.run
  refine ⟨s', r', w', hrun, ?_⟩
  have hF : timeSecondFactor .seconds = 1 := rfl
  obtain ⟨v, z, h1, h2, h3, -⟩ := C56_partial h rfl (time_sampleWise _ _ _ 1 1 2) (exMech_converges .deg)
    rfl (by norm_num) (u := .seconds) rfl (l := 0) (c := 0) (d := d) Nat.one_pos Nat.one_pos hd
    (f := exMech) (T := 100) (Arr3.at_full _ Nat.one_pos Nat.one_pos hd)
    (fun t _ => (time_curve _ _ _ Nat.one_pos Nat.one_pos hd t).trans (by rw [hF]; simp))
    (.inl exMech_mono) (by rw [hF]; norm_num) (by rw [hF]; norm_num) (by rw [hF]; norm_num)
  exact ⟨v, z, h1, h2, (h3 exMech_mono).2 (by norm_num)⟩

/-! ## C55: two steps after 100 s -/

attribute [local instance] fieldArith in
/-- The values after a step whose search returns the same number for all devices. -/
theorem time_value {unit : String} {F : ℝ → ℝ} {y : ℝ} {R : ℚ → ℚ} {n : Nat}
    (hR : ∀ q : ℚ, |y - F (10 ^ (q : ℝ))| = ((R q : ℚ) : ℝ)) {x : ℚ} {log : List (Call ℚ)}
    (hrun : minimize cfgQ (logged (elementwise (W := Unit) R)) n ((), []) =
      (.ok (List.replicate n x), ((), log)))
    {us : Int} {i : Nat} {s s' : SimState (Ext ℝ)} {r : SimReport (Ext ℝ)} {w : Counts}
    (h : StressedMech Ex.orderA (timeDev (timeMech .deg unit F)) ⟨[], []⟩ (timeStep us) i s r w s' "vth" "m"
      (timeMech .deg unit F) (Arr3.full 1 1 n (.fin y)) [] [] n)
    (hi : r.info = (timeReport n).info) {q : ℚ} (hq : convertTime (.td us) (some unit) = .ok (.num q))
    (hlim : (10 : ℝ) ^ (x : ℝ) + q ≤ 9000000000) :
    mechVal s' "vth" "m" = some (Arr3.full 1 1 n (.fin (F (10 ^ (x : ℝ) + q)))) := by
  have hs := time_sampleWise .deg unit F r.info.numLots r.info.numChps n
  obtain ⟨t0, x', v, w1, w2, h1, -, h3, h4, h6, h5⟩ := stressed_deg h rfl hs
  rw [hi] at h1 h5 h6
  have hx : x' = q := by
    have h7 : convertTime (timeStep us).duration (timeMech .deg unit F).timeUnit = .ok (.num q) := hq
    rw [h7] at h3
    cases h3
    rfl
  subst hx
  obtain ⟨log', -, hmin⟩ := time_run (kind := .deg) (unit := unit) (F := F) (y := y) n hR hrun w1
  rw [h4]
  congr 1
  obtain ⟨e1, e2, e3⟩ := h6
  refine Arr3.ext_at e1 e2 e3 ?_
  rw [e1, e2, e3]
  intro l hl c hc d hd
  obtain rfl : l = 0 := Nat.lt_one_iff.1 hl
  obtain rfl : c = 0 := Nat.lt_one_iff.1 hc
  have ht := time_equiv hmin h1 (d := d) (x := x) (by rw [List.getElem?_replicate, if_pos hd])
  rw [Arr3.at_full _ Nat.one_pos Nat.one_pos hd, h5 0 hl 0 hc d hd, ht, if_neg]
  · exact time_curve _ _ _ hl hc hd _
  · rintro ⟨h7, -⟩
    have h7' : decide (((9000000000 : ℚ) : ℝ) < (10 : ℝ) ^ (x : ℝ) + (x' : ℝ)) = true := h7
    rw [decide_eq_true_eq] at h7'
    push_cast at h7'
    linarith

theorem exMech_100 : exMech 100 = 0 := by
  have h100 : Real.logb 10 100 = 2 := by
    rw [show (100 : ℝ) = 10 ^ (2 : ℝ) by norm_num]
    exact logb_pow 2
  simp [exMech, h100]

theorem exMech_1000 : exMech 1000 = 1 := by
  have h : Real.logb 10 1000 = 3 := by
    rw [show (1000 : ℝ) = 10 ^ (3 : ℝ) by norm_num]
    exact logb_pow 3
  simp only [exMech, h]
  norm_num

attribute [local instance] fieldArith in
theorem exMech_run : ∃ log, minimize cfgQ (logged (elementwise (W := Unit) fun u => (u - 2) * (u - 2))) 2
    ((), []) = (.ok (List.replicate 2 2), ((), log)) := by
  have h : (match minimize cfgQ (logged (elementwise (W := Unit) fun u => (u - 2) * (u - 2))) 2
      ((), []) with
    | (.ok out, _) => decide (out = List.replicate 2 2)
    | _ => false) = true := by decide +kernel
  generalize minimize cfgQ (logged (elementwise (W := Unit) fun u => (u - 2) * (u - 2))) 2
    ((), []) = x at h
  obtain ⟨e, ⟨⟩, log⟩ := x
  cases e with
  | error e => cases h
  | ok out => exact ⟨log, by rw [of_decide_eq_true h]⟩

theorem exMech_residue (q : ℚ) : |exMech 100 - exMech (10 ^ (q : ℝ))| = (((q - 2) * (q - 2) : ℚ) : ℝ) := by
  rw [exMech_100]
  simp only [exMech]
  rw [logb_pow, zero_sub, abs_neg, abs_mul, abs_abs, abs_mul_abs_self]
  push_cast
  rfl

attribute [local instance] fieldArith in
theorem exMech_converges' :
    Converges (timeMech .deg "s" exMech) (Arr3.full 1 1 2 (.fin (exMech 1000))) [] [] 1 1 2 := by
  refine time_converges (R := fun u => |1 - (u - 2) * (|u - 2|)|) 2 (fun q => ?_) (by decide +kernel)
    (by decide +kernel)
  rw [exMech_1000]
  simp only [exMech]
  rw [logb_pow]
  push_cast
  rfl

/-- Devices that have seen 100 s get 900 s and then 9000 s more: C55 applies to the two steps. -/
example (w : Counts) (d : Nat) (hd : d < 2) : ∃ s' r' w', runSteps Ex.orderA
    (timeDev (timeMech .deg "s" exMech)) ⟨[], []⟩ 0 [.strs (timeStep 900000000), .strs (timeStep 9000000000)]
    (timeState (exMech 100) 2, timeReport 2) w = (.ok (s', r'), w') ∧
    ∃ v, ∃ τ : ℝ, mechVal s' "vth" "m" = some v ∧ v.at' 0 0 d = .fin (exMech τ) ∧
      |Real.logb 10 (τ / 10000)| ≤ 2 / 100000 := by
  obtain ⟨s₁, r₁, w₁, run1, h1, n1⟩ := time_step (kind := .deg) (by decide) (unit := "s") (by decide)
    (timeState_start .deg "s" exMech (exMech 100) 2) (us := 900000000) (by decide) (by decide) 0 w
  obtain ⟨log, hlog⟩ := exMech_run
  have v1 := time_value (R := fun u => (u - 2) * (u - 2)) exMech_residue hlog h1 rfl (q := 900)
    (by decide +kernel) (by norm_num)
  norm_num at v1
  have t1 := n1 _ v1 (full_dims ..)
  obtain ⟨s₂, r₂, w₂, run2, h2, -⟩ := time_step (kind := .deg) (by decide) (unit := "s") (by decide)
    t1 (us := 9000000000) (by decide) (by decide) 1 w₁
  obtain ⟨-, -, v2, -, -, -, -, -, hv2, -⟩ := stressed_deg h2 rfl
    (time_sampleWise .deg "s" exMech r₁.info.numLots r₁.info.numChps 2)
  have chain : SameStress Ex.orderA (timeDev (timeMech .deg "s" exMech)) ⟨[], []⟩ "vth" "m"
      (timeMech .deg "s" exMech) [] [] 2 0 (timeState (exMech 100) 2) (timeReport 2) w
      (Arr3.full 1 1 2 (.fin (exMech 100))) [timeStep 900000000, timeStep 9000000000] s₂ r₂ w₂ v2 := by
    refine .cons h1 (exMech_converges .deg) run1 v1 (.cons h2 ?_ run2 hv2 (.nil hv2))
    rw [t1.info]
    exact exMech_converges'
  refine ⟨s₂, r₂, w₂, (sameStress_run chain).1, v2, ?_⟩
  have hF : timeSecondFactor .seconds = 1 := rfl
  have hp := pow_small
  have hp2 : (10 : ℝ) ^ ((2 : ℝ) / 100000) ≤ 2 := by
    have : (10 : ℝ) ^ ((2 : ℝ) / 100000) = 10 ^ (1 / 100000 : ℝ) * 10 ^ (1 / 100000 : ℝ) := by
      rw [← Real.rpow_add (by norm_num)]; norm_num
    rw [this]
    have h0 : (0 : ℝ) < 10 ^ (1 / 100000 : ℝ) := Real.rpow_pos_of_pos (by norm_num) _
    nlinarith
  obtain ⟨τ, a1, -, a3⟩ := C55_additive chain rfl (time_sampleWise _ _ _ 1 1 2)
    (uss := [900000000, 9000000000]) ⟨rfl, by norm_num, rfl, by norm_num, trivial⟩ (u := .seconds) rfl
    (l := 0) (c := 0) (d := d) Nat.one_pos Nat.one_pos hd (f := exMech) (T := 100)
    (Arr3.at_full _ Nat.one_pos Nat.one_pos hd)
    (fun t _ => (time_curve _ _ _ Nat.one_pos Nat.one_pos hd t).trans (by rw [hF]; simp))
    (.inl exMech_mono) (by rw [hF]; norm_num at hp2 ⊢; linarith) (by rw [hF]; norm_num at hp2 ⊢; linarith)
  refine ⟨τ, hv2, a1, ?_⟩
  norm_num at a3 ⊢
  exact a3

end Gerabaldi.Props
