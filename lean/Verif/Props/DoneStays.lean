import Verif.Props.Unfinished

/-!
# C105: a sample whose search is done stays done while others are still searching
-/

namespace Gerabaldi.Props

open Gerabaldi Gerabaldi.Spec

section
attribute [local instance] fieldArith

/-- The next step of a search that is done: the smallest allowed, to the farther side. -/
theorem clamp_done {k : MinCfg ℝ} (s : BState ℝ) (ht : 0 < s.tol k) (hd : s.done k = true) (st : ℝ) :
    s.clamp k st = if s.x < s.mid then s.tol k else -s.tol k := by
  rw [done_iff] at hd
  have h1 : s.x + st - s.a < s.tol k * 2 ∨ s.b - (s.x + st) < s.tol k * 2 := by
    by_contra hc
    push Not at hc
    linarith [hc.1, hc.2, hd.1, hd.2]
  simp only [BState.clamp, BState.tol2, fa_add, fa_lt, fa_sub, fa_mul, fa_abs, fa_neg, fa_ofRat, decide_eq_true_eq,
    PyArith.gt, Bool.or_eq_true, Rat.cast_ofNat, h1, if_true]
  split
  · rw [abs_of_pos ht, if_neg (lt_irrefl _)]
  · rw [abs_neg, abs_of_pos ht, if_neg (lt_irrefl _)]

/-- The same for the step the model takes. -/
theorem step_done {k : MinCfg ℝ} (s : BState ℝ) (ht : 0 < s.tol k) (hd : s.done k = true) :
    s.step k = if s.x < s.mid then s.tol k else -s.tol k := by
  rw [BState.step_eq]
  obtain ⟨st, h⟩ := BState.stepTail_clamp k s (s.usePara k) (PyArith.div
      (if PyArith.gt (s.paraQ k) (PyArith.ofRat 0) then PyArith.neg (if s.usePara k then s.paraP k else PyArith.ofRat 0)
        else if s.usePara k then s.paraP k else PyArith.ofRat 0) (PyArith.abs (s.paraQ k)))
  rw [h]
  exact clamp_done s ht hd st

/-- One more round of a search that is done, whatever the mechanism gives. -/
theorem update_done {k : MinCfg ℝ} (h0 : 0 ≤ k.relTol) (h1 : k.relTol ≤ 1 / 4) (ha : 0 < k.absTol) (s : BState ℝ)
    (fu : ℝ) (hd : s.done k = true) : (s.update (s.step k) fu).done k = true := by
  have ht := tol_pos h0 ha s
  rw [step_done s ht hd]
  rw [done_iff] at hd ⊢
  have hmid : s.mid = (s.b + s.a) / 2 := by
    simp only [BState.mid, fa_add, fa_div, fa_ofRat, Rat.cast_ofNat]
  have htol : ∀ u : ℝ, |u - s.x| ≤ s.tol k → s.tol k < 2 * (k.relTol * |u| + k.absTol) := by
    intro u hu
    have e : s.tol k = k.relTol * |s.x| + k.absTol := rfl
    have a1 : |s.x| ≤ |u| + s.tol k := by
      have := abs_sub_abs_le_abs_sub s.x u
      rw [abs_sub_comm] at this
      linarith
    have a2 : k.relTol * |s.x| ≤ k.relTol * (|u| + s.tol k) := mul_le_mul_of_nonneg_left a1 h0
    have a3 : k.relTol * s.tol k ≤ 1 / 4 * s.tol k := mul_le_mul_of_nonneg_right h1 ht.le
    rw [mul_add] at a2
    linarith
  have hT : ∀ s' : BState ℝ, s'.tol k = k.relTol * |s'.x| + k.absTol := fun _ => rfl
  have hs := hT s
  rw [hT (s.update _ fu)]
  clear hT
  generalize s.tol k = t at *
  by_cases hm : s.x < s.mid
  · rw [if_pos hm]
    have b1 : s.x ≤ s.x + t := by linarith
    have b2 : ¬ s.x + t < s.x := by linarith
    by_cases hf : fu ≤ s.fx
    · have := htol (s.x + t) (by rw [add_sub_cancel_left, abs_of_pos ht])
      simp only [BState.update, fa_add, fa_le, fa_lt, PyArith.ge, hf, b1, b2, decide_true, decide_false, Bool.and_true,
        Bool.not_true, Bool.and_false, if_true, if_false, Bool.false_eq_true]
      constructor <;> linarith [hd.1, hd.2]
    · simp only [BState.update, fa_add, fa_le, fa_lt, PyArith.ge, hf, b1, b2, decide_true, decide_false, Bool.and_true,
        Bool.not_false, Bool.and_false, if_true, if_false, Bool.false_eq_true]
      constructor <;> linarith [hd.1, hd.2]
  · rw [if_neg hm]
    have b1 : ¬ s.x ≤ s.x + -t := by linarith
    have b2 : s.x + -t < s.x := by linarith
    by_cases hf : fu ≤ s.fx
    · have := htol (s.x + -t) (by rw [add_sub_cancel_left, abs_neg, abs_of_pos ht])
      simp only [BState.update, fa_add, fa_le, fa_lt, PyArith.ge, hf, b1, b2, decide_true, decide_false, Bool.and_true,
        Bool.not_true, Bool.and_false, if_true, if_false, Bool.false_eq_true]
      constructor <;> linarith [hd.1, hd.2]
    · simp only [BState.update, fa_add, fa_le, fa_lt, PyArith.ge, hf, b1, b2, decide_true, decide_false, Bool.and_true,
        Bool.not_false, Bool.and_false, if_true, if_false, Bool.false_eq_true]
      constructor <;> linarith [hd.1, hd.2]

/-- Any number of further rounds. -/
theorem trace_done {k : MinCfg ℝ} (h0 : 0 ≤ k.relTol) (h1 : k.relTol ≤ 1 / 4) (ha : 0 < k.absTol) {s s' : BState ℝ}
    {us : List (ℝ × ℝ)} (h : Trace k s us s') (hd : s.done k = true) : s'.done k = true := by
  induction h with
  | nil s => exact hd
  | cons _ ih => exact ih (update_done h0 h1 ha _ _ hd)

/-- Two searches with the same mechanism values do the same; when the shorter one is done, so is the longer one. -/
theorem trace_longer {k : MinCfg ℝ} (h0 : 0 ≤ k.relTol) (h1 : k.relTol ≤ 1 / 4) (ha : 0 < k.absTol) {g : ℝ → ℝ}
    {s s1 s2 : BState ℝ} {us vs : List (ℝ × ℝ)} (h : Trace k s us s1) (h' : Trace k s vs s2) (hu : ∀ e ∈ us, e.2 = g e.1)
    (hv : ∀ e ∈ vs, e.2 = g e.1) (hl : us.length ≤ vs.length) (hd : s1.done k = true) : s2.done k = true := by
  induction h generalizing vs with
  | nil s => exact trace_done h0 h1 ha h' hd
  | cons _ ih =>
    cases h' with
    | nil => simp at hl
    | cons h' =>
      have e1 := hu _ List.mem_cons_self
      have e2 := hv _ List.mem_cons_self
      simp only at e1 e2
      rw [e2, ← e1] at h'
      exact ih h' (fun e he => hu e (List.mem_cons_of_mem _ he)) (fun e he => hv e (List.mem_cons_of_mem _ he))
        (by simpa using hl) hd

end

/-- C105: the time found for a sample is as accurate as C29 says, even when the search over the whole array is cut off
after 50 rounds because of other samples, as long as some search with this sample in it (for instance one with this
sample alone, `m = 1`) stops by itself. The two searches may be of arrays of any sizes, in any worlds. -/
theorem C105_accurate {W W₂ : Type} (func : List (Ext ℝ) → M W (List (Ext ℝ))) (n : Nat) (w w' : W)
    (log : List (Call (Ext ℝ))) (out : List (Ext ℝ))
    (h : minimize (equivTimeCfg (Ext ℝ)) (logged func) n (w, []) = (.ok out, (w', log)))
    (func₂ : List (Ext ℝ) → M W₂ (List (Ext ℝ))) (m : Nat) (w₂ w₂' : W₂) (log₂ : List (Call (Ext ℝ)))
    (out₂ : List (Ext ℝ)) (h₂ : minimize (equivTimeCfg (Ext ℝ)) (logged func₂) m (w₂, []) = (.ok out₂, (w₂', log₂)))
    (i : Nat) (hi : i < n) (j : Nat) (hj : j < m) (f : ℝ → ℝ) (cur T : ℝ)
    (hmono : StrictMonoOn f (Set.Ioi 0) ∨ StrictAntiOn f (Set.Ioi 0))
    (hT : f T = cur) (hlo : 1 / 1000 ≤ T) (hhi : T ≤ 10 ^ 10)
    (g : Ext ℝ → Ext ℝ) (hres : ∀ t : ℝ, 0 < t → g (.fin t) = .fin |cur - f t|)
    (hg : ∀ k x y, evalAt log i k x y → y = g x)
    (hg₂ : ∀ k x y, evalAt log₂ j k x y → y = g x)
    (hconv : log₂.length < 51) :
    ∃ t : ℝ, out[i]? = some (.fin t) ∧ 0 < t ∧
      T * (10 : ℝ) ^ (-(2 * tolAt t)) < t ∧ t < T * (10 : ℝ) ^ (2 * tolAt t) := by
  rcases Nat.lt_or_ge log.length 51 with hl | hl
  · exact C29_accurate func n w w' log out h i hi f cur T hmono hT hlo hhi g hres hg hl
  have hT0 : 0 < T := by linarith [show (0 : ℝ) < 1 / 1000 by norm_num]
  have h10 : (1 : ℝ) < 10 := by norm_num
  have hpos : ∀ u : ℝ, (0 : ℝ) < 10 ^ u := fun u => Real.rpow_pos_of_pos (by norm_num) u
  have hlt : ∀ u v : ℝ, u < v → (10 : ℝ) ^ u < 10 ^ v := fun u v huv =>
    Real.rpow_lt_rpow_of_exponent_lt h10 huv
  have hTl : (10 : ℝ) ^ (Real.logb 10 T) = T := Real.rpow_logb (by norm_num) (by norm_num) hT0
  obtain ⟨us, s₁, h1, h2, hlen, h3, _⟩ := minimize_field (FinEmb.ext ℝ) cfgR_emb rfl h hi
    (g := fun u => |cur - f (10 ^ u)|) (fun u => hres _ (hpos u)) hg
  obtain ⟨us₂, s₂, _, k2, klen, k3, k4⟩ := minimize_field (FinEmb.ext ℝ) cfgR_emb rfl h₂ hj
    (g := fun u => |cur - f (10 ^ u)|) (fun u => hres _ (hpos u)) hg₂
  have hdone := trace_longer (g := fun u => |cur - f (10 ^ u)|) cfgR_tol.1 (by norm_num [cfgR]) cfgR_tol.2 k3 h3 k2 h2 (by omega)
    (k4 (by show log₂.length ≤ 50; omega))
  have hle : ∀ u v : ℝ, u ≤ v → (10 : ℝ) ^ u ≤ 10 ^ v := fun u v huv =>
    Real.rpow_le_rpow_of_exponent_le h10.le huv
  have hdec : ∀ x y : ℝ, x < y → y ≤ Real.logb 10 T → |cur - f (10 ^ y)| < |cur - f (10 ^ x)| := by
    intro x y hxy hyt
    have hyT : (10 : ℝ) ^ y ≤ T := by rw [← hTl]; exact hle _ _ hyt
    rcases hmono with hm | hm
    · have h5 : f (10 ^ x) < f (10 ^ y) := hm (hpos x) (hpos y) (hlt _ _ hxy)
      have h6 : f (10 ^ y) ≤ cur := by rw [← hT]; exact hm.monotoneOn (hpos y) hT0 hyT
      rw [abs_of_nonneg (by linarith), abs_of_nonneg (by linarith)]; linarith
    · have h5 : f (10 ^ y) < f (10 ^ x) := hm (hpos x) (hpos y) (hlt _ _ hxy)
      have h6 : cur ≤ f (10 ^ y) := by rw [← hT]; exact hm.antitoneOn (hpos y) hT0 hyT
      rw [abs_of_nonpos (by linarith), abs_of_nonpos (by linarith)]; linarith
  have hinc : ∀ x y : ℝ, Real.logb 10 T ≤ x → x < y → |cur - f (10 ^ x)| < |cur - f (10 ^ y)| := by
    intro x y hxt hxy
    have hxT : T ≤ (10 : ℝ) ^ x := by rw [← hTl]; exact hle _ _ hxt
    rcases hmono with hm | hm
    · have h5 : f (10 ^ x) < f (10 ^ y) := hm (hpos x) (hpos y) (hlt _ _ hxy)
      have h6 : cur ≤ f (10 ^ x) := by rw [← hT]; exact hm.monotoneOn hT0 (hpos x) hxT
      rw [abs_of_nonpos (by linarith), abs_of_nonpos (by linarith)]; linarith
    · have h5 : f (10 ^ y) < f (10 ^ x) := hm (hpos x) (hpos y) (hlt _ _ hxy)
      have h6 : f (10 ^ x) ≤ cur := by rw [← hT]; exact hm.antitoneOn hT0 (hpos x) hxT
      rw [abs_of_nonneg (by linarith), abs_of_nonneg (by linarith)]; linarith
  have hloT : (-3 : ℝ) ≤ Real.logb 10 T := by
    rw [Real.le_logb_iff_rpow_le h10 hT0]
    calc (10 : ℝ) ^ (-3 : ℝ) = 1 / 1000 := by rw [Real.rpow_neg (by norm_num)]; norm_num
      _ ≤ T := hlo
  have hhiT : Real.logb 10 T ≤ 10 := by
    rw [Real.logb_le_iff_le_rpow h10 hT0]
    calc T ≤ 10 ^ 10 := hhi
      _ = (10 : ℝ) ^ (10 : ℝ) := by norm_num
  obtain ⟨h5, h6⟩ := Trace.unimodal rfl cfgR_tol.1 cfgR_tol.2 hdec hinc h3 h2 rfl
    (by simp only [MinCfg.init, cfgR]; push_cast; exact hloT)
    (by simp only [MinCfg.init, cfgR]; push_cast; exact hhiT)
  rw [done_iff] at hdone
  have htol : @BState.tol ℝ (fieldArith ℝ) cfgR s₁ = tolAt (10 ^ s₁.x) := by
    simp only [BState.tol, tolAt, fa_add, fa_mul, fa_abs, cfgR]
    rw [Real.logb_rpow (by norm_num) (by norm_num)]
    norm_num
  rw [htol] at hdone
  refine ⟨10 ^ s₁.x, h1, hpos _, ?_, ?_⟩
  · conv_lhs => rw [← hTl, ← Real.rpow_add (by norm_num)]
    exact hlt _ _ (by linarith [hdone.1])
  · conv_rhs => rw [← hTl, ← Real.rpow_add (by norm_num)]
    exact hlt _ _ (by linarith [hdone.2])

/-! ## An array that is cut off -/

/-- An objective that does not raise and returns as many values as it is given points. -/
theorem minLoop_total {V : Type} [PyArith V] (c : MinCfg V) (F : List V → List V) (hF : ∀ xs, (F xs).length = xs.length) :
    ∀ (k : Nat) (ss : List (BState V)) (log : List (Call V)), (∀ e ∈ log, e.2 = .ok (F e.1)) →
      ∃ ss' log', minLoop c (logged (W := Unit) fun xs => pure (F xs)) k ss ((), log) = (.ok ss', ((), log')) ∧
        ∀ e ∈ log', e.2 = .ok (F e.1) := by
  intro k
  induction k with
  | zero => intro ss log hl; exact ⟨ss, log, rfl, hl⟩
  | succ k ih =>
    intro ss log hl
    rw [minLoop]
    by_cases hd : ss.all (BState.done c) = true
    · rw [if_pos hd]; exact ⟨ss, log, rfl, hl⟩
    · rw [if_neg hd, M.bind_run]
      have hlog : logged (W := Unit) (fun xs => pure (F xs)) (nextPoints c ss) ((), log) =
        (.ok (F (nextPoints c ss)), ((), log ++ [(nextPoints c ss, .ok (F (nextPoints c ss)))])) := rfl
      rw [hlog]
      simp only
      rw [if_pos (by rw [hF]; simp [nextPoints])]
      refine ih _ _ fun e he => ?_
      rcases List.mem_append.mp he with he | he
      · exact hl e he
      · simp only [List.mem_singleton] at he; subst he; rfl

theorem minimize_total {V : Type} [PyArith V] (c : MinCfg V) (F : List V → List V)
    (hF : ∀ xs, (F xs).length = xs.length) (n : Nat) :
    ∃ out log, minimize c (logged (W := Unit) fun xs => pure (F xs)) n ((), []) = (.ok out, ((), log)) ∧
      ∀ e ∈ log, e.2 = .ok (F e.1) := by
  obtain ⟨ss, log, h, hl⟩ := minLoop_total c F hF c.maxiter ((F (List.replicate n (c.xf c.x0))).map c.init)
    [(List.replicate n (c.xf c.x0), .ok (F (List.replicate n (c.xf c.x0))))] (by simp)
  refine ⟨ss.map fun s => c.xf s.x, log, ?_, hl⟩
  rw [minimize, M.bind_run]
  have hlog : logged (W := Unit) (fun xs => pure (F xs)) (List.replicate n (c.xf c.x0)) ((), []) =
    (.ok (F (List.replicate n (c.xf c.x0))), ((),
      [(List.replicate n (c.xf c.x0), .ok (F (List.replicate n (c.xf c.x0))))])) := rfl
  rw [hlog]
  simp only
  rw [if_pos (by rw [hF]; simp), M.bind_run, h]
  rfl

/-- The residue of the mechanism of C104. -/
noncomputable def lureRes : Ext ℝ → Ext ℝ
  | .fin t => .fin |lureMech (10 ^ ((99 / 10 : ℚ) : ℝ)) - lureMech t|
  | y => y

/-- Two samples: the first with the residue `exRes`, the others with the residue of C104. -/
noncomputable def mixedRes (xs : List (Ext ℝ)) : List (Ext ℝ) :=
  xs.mapIdx fun i x => if i = 0 then exRes x else lureRes x

theorem mixed_get {log : List (Call (Ext ℝ))} (h : ∀ e ∈ log, e.2 = .ok (mixedRes e.1)) (i k : Nat) (x y : Ext ℝ)
    (he : evalAt log i k x y) : y = if i = 0 then exRes x else lureRes x := by
  obtain ⟨xs, fs, ha, hb, hc⟩ := he
  have := h _ (List.mem_of_getElem? ha)
  simp only [Except.ok.injEq] at this
  rw [this, mixedRes, List.getElem?_mapIdx, hb] at hc
  simpa using hc.symm

/-- The search of the mechanism of C104 alone, in extended reals. -/
theorem lure_alone : ∃ log, minimize (equivTimeCfg (Ext ℝ)) (logged (elementwise (W := Unit) lureRes)) 1
    ((), []) = (.ok [.fin ((10 : ℝ) ^ (lureEnd : ℝ))], ((), log)) := by
  obtain ⟨log, h1, -⟩ := lure_run
  refine ⟨_, minimize_map (FinEmb.extRat ℝ) cfgQ_emb rfl rfl (elementwise lureRes) ()
    (fun u => |lureAt (99 / 10) - lureAt u|) 1 ?_ log _ h1⟩
  intro us _
  simp only [elementwise, M.pure_run, List.map_map]
  congr 2
  apply List.map_congr_left
  intro q _
  show lureRes (.fin ((10 : ℝ) ^ (q : ℝ))) = .fin _
  simp only [lureRes, lure_residue]

/-- An array to which C29 does not apply: the search for two samples is cut off because of the second one, and
yet the time of the first one is found. -/
example : ∃ out log, minimize (equivTimeCfg (Ext ℝ)) (logged (W := Unit) fun xs => pure (mixedRes xs)) 2
      ((), []) = (.ok out, ((), log)) ∧ 51 ≤ log.length ∧
    ∃ t : ℝ, out[0]? = some (.fin t) ∧ 100 * (10 : ℝ) ^ (-(2 * tolAt t)) < t ∧
      t < 100 * (10 : ℝ) ^ (2 * tolAt t) := by
  obtain ⟨out, log, h, hl⟩ := minimize_total (equivTimeCfg (Ext ℝ)) mixedRes (by intro xs; simp [mixedRes]) 2
  refine ⟨out, log, h, ?_, ?_⟩
  · by_contra hc
    obtain ⟨log₁, h₁⟩ := lure_alone
    have hT := lure_T
    obtain ⟨t, e, h0, h3, h4⟩ := C105_accurate _ 1 () () log₁ _ h₁ _ 2 () () log out h 0 (by norm_num) 1 (by norm_num)
      lureMech _ (10 ^ ((99 / 10 : ℚ) : ℝ)) (.inl lure_mono) rfl (by linarith) (by
        calc (10 : ℝ) ^ ((99 / 10 : ℚ) : ℝ) ≤ 10 ^ (10 : ℝ) :=
              Real.rpow_le_rpow_of_exponent_le (by norm_num) (by norm_num)
          _ = 10 ^ 10 := by norm_num) lureRes (fun _ _ => rfl) (by
        rintro k x y ⟨xs, fs, ha, hb, hc⟩
        have := minimize_elementwise_log h₁ _ (List.mem_of_getElem? ha)
        simp only [Except.ok.injEq] at this
        rw [this, List.getElem?_map, hb] at hc
        simpa using hc.symm) (fun k x y he => by simpa using mixed_get hl 1 k x y he) (by omega)
    simp only [List.getElem?_cons_zero, Option.some.injEq, Ext.fin.injEq] at e
    subst e
    have hend := lure_end_le
    have htol : tolAt ((10 : ℝ) ^ (lureEnd : ℝ)) ≤ 1 / 4 := by
      unfold tolAt
      rw [Real.logb_rpow (by norm_num) (by norm_num)]
      have a1 : |(lureEnd : ℝ)| ≤ 10 := by
        have : |lureEnd| ≤ 10 := by decide +kernel
        exact_mod_cast this
      nlinarith
    have h5 : (1 / 4 : ℝ) ≤ 10 ^ (-(2 * tolAt ((10 : ℝ) ^ (lureEnd : ℝ)))) := by
      have a2 : (10 : ℝ) ^ (-(1 / 2) : ℝ) ≤ 10 ^ (-(2 * tolAt ((10 : ℝ) ^ (lureEnd : ℝ)))) :=
        Real.rpow_le_rpow_of_exponent_le (by norm_num) (by linarith)
      refine le_trans ?_ a2
      rw [Real.rpow_neg (by norm_num), ← Real.sqrt_eq_rpow, one_div]
      refine inv_anti₀ (Real.sqrt_pos.2 (by norm_num)) ?_
      rw [Real.sqrt_le_left (by norm_num)]
      norm_num
    have h6 : (7600000000 : ℝ) * (1 / 4) ≤
        10 ^ ((99 / 10 : ℚ) : ℝ) * 10 ^ (-(2 * tolAt ((10 : ℝ) ^ (lureEnd : ℝ)))) :=
      mul_le_mul hT h5 (by norm_num) (by linarith)
    linarith
  · obtain ⟨log₁, h₁, hlen⟩ := ex_run
    have h100 : Real.logb 10 100 = 2 := by
      rw [show (100 : ℝ) = 10 ^ (2 : ℝ) by norm_num, Real.logb_rpow (by norm_num) (by norm_num)]
    obtain ⟨t, e, -, h3, h4⟩ := C105_accurate _ 2 () () log out h _ 3 () () log₁ _ h₁ 0 (by norm_num) 0 (by norm_num)
      exMech 0 100 (.inl exMech_mono) (by simp [exMech, h100]) (by norm_num) (by norm_num) exRes (fun _ _ => rfl)
      (fun k x y he => by simpa using mixed_get hl 0 k x y he) (by
        rintro k x y ⟨xs, fs, ha, hb, hc⟩
        have := minimize_elementwise_log h₁ _ (List.mem_of_getElem? ha)
        simp only [Except.ok.injEq] at this
        rw [this, List.getElem?_map, hb] at hc
        simpa using hc.symm) (by omega)
    exact ⟨t, e, h3, h4⟩

end Gerabaldi.Props
