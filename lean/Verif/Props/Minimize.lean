import Verif.Lemmas.MinimizeField
import Mathlib.Analysis.SpecialFunctions.Log.Base

/-!
# C26 - C29: the equivalent time search
-/

namespace Gerabaldi.Props
open Gerabaldi Spec

section general
variable {V W W₁ W₂ : Type} [PyArith V]

/-- Observing the objective does not change the search: every statement below about runs with a log is
a statement about the plain run. -/
theorem minimize_observed (c : MinCfg V) (func : List V → M W (List V)) (n : Nat) (w : W) :
    ((minimize c (logged func) n (w, [])).1, (minimize c (logged func) n (w, [])).2.1) =
      minimize c func n w := by
  obtain ⟨h1, h2⟩ := minimize_logged c func n w
  rw [h1, h2]

/-- C26: the objective is called at most `maxiter + 1` times, whatever it does; always for all `n`
samples. -/
theorem C26_bounded_work (c : MinCfg V) (func : List V → M W (List V)) (n : Nat) (w w' : W)
    (log : List (Call V)) (r : Except Err (List V))
    (h : minimize c (logged func) n (w, []) = (r, (w', log))) :
    1 ≤ log.length ∧ log.length ≤ c.maxiter + 1 ∧ ∀ e ∈ log, e.1.length = n := by
  rcases minimize_run c func n w w' log r h with ⟨o, e, rfl, rfl⟩ |
    ⟨f0s, es, ss', tail, h1, h2, h3, h4, h5, _⟩
  · simp
  · have hlen : log.length = 1 + (es.length + tail.length) := by
      rw [h2, List.length_cons, List.length_append, okCalls_length]; omega
    refine ⟨by omega, by omega, ?_⟩
    have hpts : ∀ e ∈ es, e.1.length = n := by
      have : ∀ {ss : List (BState V)} {es ss'}, VTrace c ss es ss' →
          ∀ e ∈ es, e.1.length = ss.length := by
        intro ss es ss' ht
        induction ht with
        | nil => simp
        | @cons ss ss' fus es _ hl _ ih =>
          intro e he
          rcases List.mem_cons.mp he with rfl | he
          · simp [nextPoints]
          · rw [ih e he, updateAll_length _ _ _ hl]
      intro e he
      rw [this h3 e he]; simp [h1]
    intro e he
    rw [h2] at he
    rcases List.mem_cons.mp he with rfl | he
    · simp
    rcases List.mem_append.mp he with he | he
    · obtain ⟨e', he', rfl⟩ := List.mem_map.mp he
      exact hpts e' he'
    · have ht : tail ≠ [] := by rintro rfl; simp at he
      obtain ⟨_, _, o, rfl⟩ := h5 ht
      simp only [List.mem_singleton] at he
      subst he
      rw [nextPoints, List.length_map, h3.length]; simp [h1]

/-- C26: for every sample the returned point was evaluated, and its residue is no larger than any
other residue evaluated for that sample. `P` is a set of numbers containing all observed residues on
which `<=` is a total order (for doubles: everything but NaN). -/
theorem C26_best_of_evaluated (c : MinCfg V) (func : List V → M W (List V)) (n : Nat) (w w' : W)
    (log : List (Call V)) (out : List V)
    (h : minimize c (logged func) n (w, []) = (.ok out, (w', log)))
    (P : V → Prop)
    (htot : ∀ x y, P x → P y → PyArith.le x y = true ∨ PyArith.le y x = true)
    (htr : ∀ x y z, P x → P y → P z → PyArith.le x y = true → PyArith.le y z = true →
      PyArith.le x z = true)
    (i : Nat) (hi : i < n) (hP : ∀ k x f, evalAt log i k x f → P f) :
    out.length = n ∧ ∃ k x f, out[i]? = some x ∧ evalAt log i k x f ∧
      ∀ k' x' f', evalAt log i k' x' f' → PyArith.le f f' = true := by
  rcases minimize_run c func n w w' log _ h with ⟨o, e, h0, _⟩ |
    ⟨f0s, es, ss', tail, h1, h2, h3, h4, h5, h6⟩
  · cases h0
  obtain ⟨h7, h8, _⟩ := h6 out rfl
  subst h8
  simp only [List.append_nil] at h2
  obtain ⟨f0, hf0⟩ : ∃ f0, f0s[i]? = some f0 := ⟨f0s[i]'(by omega), by simp [h1, hi]⟩
  have hs : (f0s.map c.init)[i]? = some (c.init f0) := by simp [hf0]
  obtain ⟨es', s', h10, h11, h12⟩ := h3.proj hs
  have hlog : log = okCalls ((List.replicate n (c.xf c.x0), f0s) :: es) := by rw [h2]; rfl
  have hall : List.Forall₂ (fun (e : List V × List V) (e' : V × V) =>
      e.1[i]? = some e'.1 ∧ e.2[i]? = some e'.2)
      ((List.replicate n (c.xf c.x0), f0s) :: es) ((c.xf c.x0, f0) :: es') :=
    .cons ⟨by simp [hi], hf0⟩ h12
  have hiff := fun k x f => evalAt_iff hall k x f
  rw [← hlog] at hiff
  have hPes : ∀ e ∈ (c.xf c.x0, f0) :: es', P e.2 := by
    intro e he
    obtain ⟨j, hj⟩ := List.mem_iff_getElem?.mp he
    exact hP j e.1 e.2 ((hiff _ _ _).2 hj)
  obtain ⟨hmem, hbest⟩ := h11.best P htot htr (hPes _ List.mem_cons_self)
    (fun e he => hPes e (List.mem_cons_of_mem _ he))
  refine ⟨by rw [h7, List.length_map, h3.length]; simp [h1], ?_⟩
  obtain ⟨j, hj⟩ := List.mem_iff_getElem?.mp hmem
  refine ⟨j, _, _, by rw [h7, List.getElem?_map, h10]; rfl, (hiff _ _ _).2 hj, ?_⟩
  intro k' x' f' he
  exact hbest (x', f') (List.mem_of_getElem? ((hiff _ _ _).1 he))

/-- C27: two runs, with any numbers of samples and any objectives, in which sample `i` of the one and
sample `j` of the other have the same scalar objective `g`, evaluate these samples at the same points,
call by call, for as long as both keep calling; in particular the points do not depend on the other
samples. If both make the same number of calls these samples get the same result. -/
theorem C27_samples_independent (c : MinCfg V) (func₁ : List V → M W₁ (List V))
    (func₂ : List V → M W₂ (List V)) (n₁ n₂ : Nat) (w₁ w₁' : W₁) (w₂ w₂' : W₂)
    (log₁ log₂ : List (Call V)) (r₁ r₂ : Except Err (List V))
    (h₁ : minimize c (logged func₁) n₁ (w₁, []) = (r₁, (w₁', log₁)))
    (h₂ : minimize c (logged func₂) n₂ (w₂, []) = (r₂, (w₂', log₂)))
    (i j : Nat) (hi : i < n₁) (hj : j < n₂) (g : V → V)
    (hg₁ : ∀ k x f, evalAt log₁ i k x f → f = g x)
    (hg₂ : ∀ k x f, evalAt log₂ j k x f → f = g x) :
    (∀ k, k < log₁.length → k < log₂.length → ∃ x, pointAt log₁ i k x ∧ pointAt log₂ j k x) ∧
    (∀ out₁ out₂, r₁ = .ok out₁ → r₂ = .ok out₂ → log₁.length = log₂.length →
      out₁[i]? = out₂[j]? ∧ ∃ x, out₁[i]? = some x) := by
  obtain ⟨p1, o1⟩ := minimize_points h₁ hi hg₁
  obtain ⟨p2, o2⟩ := minimize_points h₂ hj hg₂
  refine ⟨fun k hk1 hk2 => ⟨_, p1 k hk1, p2 k hk2⟩, ?_⟩
  intro out₁ out₂ e1 e2 hl
  rw [o1 _ e1, o2 _ e2, hl]
  exact ⟨rfl, _, rfl⟩

end general

/-! ### The search over the extended reals, with the parameters gerabaldi uses -/

/-- The search parameters as real numbers (search coordinates are `log10` of times). -/
noncomputable def cfgR : MinCfg ℝ where
  gf2 := ((215027748241771 / 562949953421312 : ℚ) : ℝ)
  relTol := ((6369051672525773 / 604462909807314587353088 : ℚ) : ℝ)
  absTol := ((1 / 100000 : ℚ) : ℝ) / ((3 : ℚ) : ℝ)
  lo := ((-3 : ℚ) : ℝ)
  hi := ((10 : ℚ) : ℝ)
  xf := fun x => x
  maxiter := 50

/-- The same as rational numbers, for computations. -/
def cfgQ : MinCfg ℚ where
  gf2 := 215027748241771 / 562949953421312
  relTol := 6369051672525773 / 604462909807314587353088
  absTol := (1 / 100000) / 3
  lo := -3
  hi := 10
  xf := fun x => x
  maxiter := 50

theorem cfgR_emb : CfgEmb (FinEmb.ext ℝ) (equivTimeCfg (Ext ℝ)) cfgR where
  gf2 := rfl
  relTol := rfl
  absTol := (FinEmb.ext ℝ).div _ _ (by norm_num)
  lo := rfl
  hi := rfl

theorem cfgQ_emb : CfgEmb (FinEmb.extRat ℝ) (equivTimeCfg (Ext ℝ)) cfgQ where
  gf2 := rfl
  relTol := rfl
  absTol := by
    have := (FinEmb.extRat ℝ).div (1 / 100000) 3 (by norm_num)
    exact this
  lo := rfl
  hi := rfl

theorem cfgR_tol : 0 ≤ cfgR.relTol ∧ 0 < cfgR.absTol := by
  constructor <;> simp only [cfgR] <;> norm_num

theorem xf_fin (u : ℝ) : (equivTimeCfg (Ext ℝ)).xf (.fin u) = .fin ((10 : ℝ) ^ u) := rfl

theorem bounds_of (u : ℝ) (h1 : -3 < u) (h2 : u < 10) :
    1 / 1000 < (10 : ℝ) ^ u ∧ (10 : ℝ) ^ u < 10 ^ 10 := by
  constructor
  · have := Real.rpow_lt_rpow_of_exponent_lt (x := 10) (by norm_num) h1
    calc (1 : ℝ) / 1000 = 10 ^ (-3 : ℝ) := by
          rw [Real.rpow_neg (by norm_num)]; norm_num
      _ < _ := this
  · have := Real.rpow_lt_rpow_of_exponent_lt (x := 10) (by norm_num) h2
    calc (10 : ℝ) ^ u < 10 ^ (10 : ℝ) := this
      _ = 10 ^ 10 := by norm_num

theorem x0_in : (-3 : ℝ) < cfgR.lo + cfgR.gf2 * (cfgR.hi - cfgR.lo) ∧
    cfgR.lo + cfgR.gf2 * (cfgR.hi - cfgR.lo) < 10 := by
  simp only [cfgR]; norm_num

/-- C28 for a single sample: whatever the mechanism equation does (it may depend on the world, raise,
be discontinuous), as long as the residues it returns are finite every time it is evaluated at, and
the returned time, lie strictly between 1e-3 and 1e10. -/
theorem C28_single_partial {W : Type} (func : List (Ext ℝ) → M W (List (Ext ℝ))) (w w' : W)
    (log : List (Call (Ext ℝ))) (r : Except Err (List (Ext ℝ)))
    (h : minimize (equivTimeCfg (Ext ℝ)) (logged func) 1 (w, []) = (r, (w', log)))
    (hfin : ∀ k x f, evalAt log 0 k x f → ∃ y : ℝ, f = .fin y) :
    (∀ k x, pointAt log 0 k x → ∃ t : ℝ, x = .fin t ∧ 1 / 1000 < t ∧ t < 10 ^ 10) ∧
    (∀ out, r = .ok out → ∃ t : ℝ, out = [.fin t] ∧ 1 / 1000 < t ∧ t < 10 ^ 10) := by
  set c := equivTimeCfg (Ext ℝ) with hc
  have hemb := cfgR_emb
  rw [← hc] at hemb
  have hx0 : c.x0 = .fin (cfgR.lo + cfgR.gf2 * (cfgR.hi - cfgR.lo)) := by
    have E := FinEmb.ext ℝ
    simp only [MinCfg.x0, hemb.lo, hemb.hi, hemb.gf2, (FinEmb.ext ℝ).add, (FinEmb.ext ℝ).sub,
      (FinEmb.ext ℝ).mul]
    rfl
  have hfirst : ∃ t : ℝ, c.xf c.x0 = .fin t ∧ 1 / 1000 < t ∧ t < 10 ^ 10 := by
    rw [hx0, hc, xf_fin]
    exact ⟨_, rfl, bounds_of _ x0_in.1 x0_in.2⟩
  have hpoint0 : ∀ x, (List.replicate 1 (c.xf c.x0))[0]? = some x →
      ∃ t : ℝ, x = .fin t ∧ 1 / 1000 < t ∧ t < 10 ^ 10 := by
    intro x hx; simp at hx; rw [← hx]; exact hfirst
  rcases minimize_run c func 1 w w' log r h with ⟨o, e, rfl, rfl⟩ |
    ⟨f0s, es, ss', tail, h1, h2, h3, h4, h5, h6⟩
  · refine ⟨?_, by simp⟩
    rintro k x ⟨xs, r, hk, hx⟩
    cases k with
    | zero => simp only [List.getElem?_cons_zero, Option.some.injEq, Prod.mk.injEq] at hk
              rw [← hk.1] at hx; exact hpoint0 x hx
    | succ k => simp at hk
  · obtain ⟨f0, rfl⟩ : ∃ f0, f0s = [f0] := by
      match f0s, h1 with
      | [f0], _ => exact ⟨f0, rfl⟩
    obtain ⟨y0, rfl⟩ := hfin 0 (c.xf c.x0) f0 ⟨_, [f0], by rw [h2]; rfl, by simp, by simp⟩
    have hinit : [Ext.fin y0].map c.init = [BState.map (FinEmb.ext ℝ).emb
        (@MinCfg.init ℝ (fieldArith ℝ) cfgR y0)] := by
      exact congrArg (fun z => [z]) (init_map (FinEmb.ext ℝ) hemb y0)
    rw [hinit] at h3
    have hfes : ∀ e ∈ es, ∀ y ∈ e.2, ∃ r : ℝ, y = (FinEmb.ext ℝ).emb r := by
      have hlen : ∀ {ss : List (BState (Ext ℝ))} {es ss'}, VTrace c ss es ss' →
          ∀ e ∈ es, e.1.length = ss.length ∧ e.2.length = ss.length := by
        intro ss es ss' ht
        induction ht with
        | nil => simp
        | @cons ss ss' fus es _ hl _ ih =>
          intro e he
          rcases List.mem_cons.mp he with rfl | he
          · simp [nextPoints, hl]
          · rw [(ih e he).1, (ih e he).2, updateAll_length _ _ _ hl]; simp
      intro e he y hy
      obtain ⟨l1, l2⟩ := hlen h3 e he
      obtain ⟨x1, hx1⟩ := List.length_eq_one_iff.mp l1
      obtain ⟨y1, hy1⟩ := List.length_eq_one_iff.mp l2
      rw [hy1, List.mem_singleton] at hy
      subst hy
      obtain ⟨j, hj⟩ := List.mem_iff_getElem?.mp he
      refine hfin (j + 1) x1 y ⟨e.1, e.2, ?_, by simp [hx1], by simp [hy1]⟩
      rw [h2, List.getElem?_cons_succ, List.getElem?_append_left, okCalls, List.getElem?_map, hj]
      · rfl
      · rw [okCalls_length]
        by_contra hcon
        rw [List.getElem?_eq_none (by omega)] at hj; cases hj
    have hia : (-3 : ℝ) ≤ (@MinCfg.init ℝ (fieldArith ℝ) cfgR y0).a := by
      simp only [MinCfg.init, cfgR]; norm_num
    have hib : (@MinCfg.init ℝ (fieldArith ℝ) cfgR y0).b ≤ 10 := by
      simp only [MinCfg.init, cfgR]; norm_num
    obtain ⟨hpts, s₁, hss, hs1, hs2, hs3, hs4⟩ := VTrace.single (FinEmb.ext ℝ) hemb cfgR_tol.1
      cfgR_tol.2 h3 hfes
      (by have := x0_in.1; simp only [MinCfg.init, MinCfg.x0, cfgR] at *; push_cast at *; exact this)
      (by have := x0_in.2; simp only [MinCfg.init, MinCfg.x0, cfgR] at *; push_cast at *; exact this)
    constructor
    · rintro k x ⟨xs, o, hk, hx⟩
      rw [h2] at hk
      cases k with
      | zero => simp only [List.getElem?_cons_zero, Option.some.injEq, Prod.mk.injEq] at hk
                rw [← hk.1] at hx; exact hpoint0 x hx
      | succ k =>
        rw [List.getElem?_cons_succ] at hk
        have hm := List.mem_of_getElem? hk
        rcases List.mem_append.mp hm with hm | hm
        · obtain ⟨e', he', heq⟩ := List.mem_map.mp hm
          obtain ⟨u, hu, hu1, hu2⟩ := hpts e' he'
          simp only [Prod.mk.injEq] at heq
          rw [← heq.1, hu] at hx
          simp only [List.getElem?_cons_zero, Option.some.injEq] at hx
          exact ⟨(10 : ℝ) ^ u, hx.symm, bounds_of u (by linarith) (by linarith)⟩
        · have ht : tail ≠ [] := by rintro rfl; simp at hm
          obtain ⟨_, hnd, o, rfl⟩ := h5 ht
          simp only [List.mem_singleton, Prod.mk.injEq] at hm
          have hnd' : @BState.done ℝ (fieldArith ℝ) cfgR s₁ = false := by
            rw [hss] at hnd
            simpa [done_map (FinEmb.ext ℝ) hemb] using hnd
          obtain ⟨hb1, hb2⟩ := step_bracket s₁ (tol_pos cfgR_tol.1 cfgR_tol.2 s₁) hnd' hs1 hs2
          rw [hm.1, hss] at hx
          simp only [nextPoints, List.map_cons, List.map_nil, List.getElem?_cons_zero,
            Option.some.injEq, step_map (FinEmb.ext ℝ) hemb] at hx
          refine ⟨_, hx.symm, bounds_of _ (by linarith) (by linarith)⟩
    · intro out ho
      obtain ⟨h7, _, _⟩ := h6 out ho
      rw [h7, hss]
      exact ⟨(10 : ℝ) ^ s₁.x, rfl, bounds_of _ (by linarith) (by linarith)⟩

/-- C28 for arrays: a sample with a finite objective `g` is evaluated strictly between the bounds for
as many calls as the search makes when it is run for that sample alone, i.e. until the sample itself
has converged. -/
theorem C28_array_partial {W : Type} (func : List (Ext ℝ) → M W (List (Ext ℝ))) (n : Nat) (w w' : W)
    (log : List (Call (Ext ℝ))) (r : Except Err (List (Ext ℝ)))
    (h : minimize (equivTimeCfg (Ext ℝ)) (logged func) n (w, []) = (r, (w', log)))
    (i : Nat) (hi : i < n) (g : Ext ℝ → Ext ℝ) (hg : ∀ k x f, evalAt log i k x f → f = g x)
    (hfin : ∀ x, ∃ y : ℝ, g x = .fin y)
    (log₁ : List (Call (Ext ℝ))) (r₁ : Except Err (List (Ext ℝ)))
    (h₁ : minimize (equivTimeCfg (Ext ℝ)) (logged (elementwise (W := Unit) g)) 1 ((), []) =
      (r₁, ((), log₁))) :
    ∀ k x, k < log₁.length → pointAt log i k x →
      ∃ t : ℝ, x = .fin t ∧ 1 / 1000 < t ∧ t < 10 ^ 10 := by
  intro k x hk hp
  have hg₁ : ∀ k x f, evalAt log₁ 0 k x f → f = g x := by
    have := minimize_elementwise_log h₁
    rintro k x f ⟨xs, fs, h1, h2, h3⟩
    have := this _ (List.mem_of_getElem? h1)
    simp only [Except.ok.injEq] at this
    rw [this, List.getElem?_map, h2] at h3
    simpa using h3.symm
  obtain ⟨hb, _⟩ := C28_single_partial _ _ _ _ _ h₁ (by
    intro k x f he
    rw [hg₁ k x f he]; exact hfin x)
  have hk' : k < log.length := by
    obtain ⟨xs, o, h1, _⟩ := hp
    by_contra hcon
    rw [List.getElem?_eq_none (by omega)] at h1; cases h1
  obtain ⟨y, hy1, hy2⟩ := (C27_samples_independent _ _ _ _ _ _ _ _ _ _ _ _ _ h h₁ i 0 hi
    (by norm_num) g hg hg₁).1 k hk' hk
  have : x = y := by
    obtain ⟨xs, o, h1, h2⟩ := hp
    obtain ⟨xs', o', h1', h2'⟩ := hy1
    rw [h1] at h1'; cases h1'
    rw [h2] at h2'; cases h2'; rfl
  rw [this]; exact hb k y hy2

/-- The tolerance of the search at the time `t`: `sqrt(2**-53) * |log10 t| + 1e-5 / 3`. -/
noncomputable def tolAt (t : ℝ) : ℝ :=
  6369051672525773 / 604462909807314587353088 * |Real.logb 10 t| + 1 / 100000 / 3

/-- C29: let sample `i` have a mechanism value `f t` that is strictly monotone in the time `t > 0` and
equals the current degradation `cur` at a time `T` between the bounds. If the search stopped by itself
(fewer than `maxiter + 1 = 51` evaluations), the returned time is within a factor `10 ** (2 * tol)` of
`T`. The number of samples, their objectives and the world are arbitrary. -/
theorem C29_accurate {W : Type} (func : List (Ext ℝ) → M W (List (Ext ℝ))) (n : Nat) (w w' : W)
    (log : List (Call (Ext ℝ))) (out : List (Ext ℝ))
    (h : minimize (equivTimeCfg (Ext ℝ)) (logged func) n (w, []) = (.ok out, (w', log)))
    (i : Nat) (hi : i < n) (f : ℝ → ℝ) (cur T : ℝ)
    (hmono : StrictMonoOn f (Set.Ioi 0) ∨ StrictAntiOn f (Set.Ioi 0))
    (hT : f T = cur) (hlo : 1 / 1000 ≤ T) (hhi : T ≤ 10 ^ 10)
    (g : Ext ℝ → Ext ℝ) (hres : ∀ t : ℝ, 0 < t → g (.fin t) = .fin |cur - f t|)
    (hg : ∀ k x y, evalAt log i k x y → y = g x)
    (hconv : log.length < 51) :
    ∃ t : ℝ, out[i]? = some (.fin t) ∧ 0 < t ∧
      T * (10 : ℝ) ^ (-(2 * tolAt t)) < t ∧ t < T * (10 : ℝ) ^ (2 * tolAt t) := by
  have hT0 : 0 < T := by linarith [show (0 : ℝ) < 1 / 1000 by norm_num]
  have h10 : (1 : ℝ) < 10 := by norm_num
  have hpos : ∀ u : ℝ, (0 : ℝ) < 10 ^ u := fun u => Real.rpow_pos_of_pos (by norm_num) u
  have hlt : ∀ u v : ℝ, u < v → (10 : ℝ) ^ u < 10 ^ v := fun u v huv =>
    Real.rpow_lt_rpow_of_exponent_lt h10 huv
  have hTl : (10 : ℝ) ^ (Real.logb 10 T) = T := Real.rpow_logb (by norm_num) (by norm_num) hT0
  obtain ⟨us, s₁, h1, h2, _, h3, h4⟩ := minimize_field (FinEmb.ext ℝ) cfgR_emb rfl h hi
    (g := fun u => |cur - f (10 ^ u)|) (fun u => hres _ (hpos u)) hg
  have hdone := h4 (by show log.length ≤ 50; omega)
  have hle : ∀ u v : ℝ, u ≤ v → (10 : ℝ) ^ u ≤ 10 ^ v := fun u v huv =>
    Real.rpow_le_rpow_of_exponent_le h10.le huv
  have hdec : ∀ x y : ℝ, x < y → y ≤ Real.logb 10 T → |cur - f (10 ^ y)| < |cur - f (10 ^ x)| := by
    intro x y hxy hyt
    have hyT : (10 : ℝ) ^ y ≤ T := by rw [← hTl]; exact hle _ _ hyt
    rcases hmono with hm | hm
    · have h5 : f (10 ^ x) < f (10 ^ y) := hm (hpos x) (hpos y) (hlt _ _ hxy)
      have h6 : f (10 ^ y) ≤ cur := by rw [← hT]; exact hm.monotoneOn (hpos y) hT0 hyT
      rw [abs_of_nonneg (by linarith), abs_of_nonneg (by linarith)]; linarith
    · have h5 : f (10 ^ y) < f (10 ^ x) := hm (hpos x) (hpos y) (hlt _ _ hxy)
      have h6 : cur ≤ f (10 ^ y) := by rw [← hT]; exact hm.antitoneOn (hpos y) hT0 hyT
      rw [abs_of_nonpos (by linarith), abs_of_nonpos (by linarith)]; linarith
  have hinc : ∀ x y : ℝ, Real.logb 10 T ≤ x → x < y → |cur - f (10 ^ x)| < |cur - f (10 ^ y)| := by
    intro x y hxt hxy
    have hxT : T ≤ (10 : ℝ) ^ x := by rw [← hTl]; exact hle _ _ hxt
    rcases hmono with hm | hm
    · have h5 : f (10 ^ x) < f (10 ^ y) := hm (hpos x) (hpos y) (hlt _ _ hxy)
      have h6 : cur ≤ f (10 ^ x) := by rw [← hT]; exact hm.monotoneOn hT0 (hpos x) hxT
      rw [abs_of_nonpos (by linarith), abs_of_nonpos (by linarith)]; linarith
    · have h5 : f (10 ^ y) < f (10 ^ x) := hm (hpos x) (hpos y) (hlt _ _ hxy)
      have h6 : f (10 ^ x) ≤ cur := by rw [← hT]; exact hm.antitoneOn hT0 (hpos x) hxT
      rw [abs_of_nonneg (by linarith), abs_of_nonneg (by linarith)]; linarith
  have hloT : (-3 : ℝ) ≤ Real.logb 10 T := by
    rw [Real.le_logb_iff_rpow_le h10 hT0]
    calc (10 : ℝ) ^ (-3 : ℝ) = 1 / 1000 := by rw [Real.rpow_neg (by norm_num)]; norm_num
      _ ≤ T := hlo
  have hhiT : Real.logb 10 T ≤ 10 := by
    rw [Real.logb_le_iff_le_rpow h10 hT0]
    calc T ≤ 10 ^ 10 := hhi
      _ = (10 : ℝ) ^ (10 : ℝ) := by norm_num
  obtain ⟨h5, h6⟩ := Trace.unimodal rfl cfgR_tol.1 cfgR_tol.2 hdec hinc h3 h2 rfl
    (by simp only [MinCfg.init, cfgR]; push_cast; exact hloT)
    (by simp only [MinCfg.init, cfgR]; push_cast; exact hhiT)
  rw [done_iff] at hdone
  have htol : @BState.tol ℝ (fieldArith ℝ) cfgR s₁ = tolAt (10 ^ s₁.x) := by
    simp only [BState.tol, tolAt, fa_add, fa_mul, fa_abs, cfgR]
    rw [Real.logb_rpow (by norm_num) (by norm_num)]
    norm_num
  rw [htol] at hdone
  refine ⟨10 ^ s₁.x, h1, hpos _, ?_, ?_⟩
  · conv_lhs => rw [← hTl, ← Real.rpow_add (by norm_num)]
    exact hlt _ _ (by linarith [hdone.1])
  · conv_rhs => rw [← hTl, ← Real.rpow_add (by norm_num)]
    exact hlt _ _ (by linarith [hdone.2])

/-! ### Concrete runs -/

/-- A mechanism whose logarithmic time scale makes the search computable: `s * |s|` with
`s = log10 t - 2` is strictly increasing in `t > 0` and 0 at `t = 100`. -/
noncomputable def exMech (t : ℝ) : ℝ := (Real.logb 10 t - 2) * |Real.logb 10 t - 2|

/-- Its residue for the current value 0. -/
noncomputable def exRes : Ext ℝ → Ext ℝ
  | .fin t => .fin |0 - exMech t|
  | y => y

theorem exRes_rat (q : ℚ) : exRes ((equivTimeCfg (Ext ℝ)).xf ((FinEmb.extRat ℝ).emb q)) =
    (FinEmb.extRat ℝ).emb ((q - 2) * (q - 2)) := by
  show exRes (.fin ((10 : ℝ) ^ (q : ℝ))) = .fin _
  simp only [exRes, exMech]
  rw [Real.logb_rpow (by norm_num) (by norm_num)]
  congr 1
  rw [zero_sub, abs_neg, abs_mul, abs_abs, abs_mul_abs_self]
  push_cast; ring

attribute [local instance] fieldArith in
/-- The run computed in rational numbers: six evaluations, result exactly `log10 t = 2`. -/
theorem ex_runQ : ∃ log, minimize cfgQ (logged (elementwise (W := Unit) fun u => (u - 2) * (u - 2)))
    3 ((), []) = (.ok [2, 2, 2], ((), log)) ∧ log.length = 6 := by
  refine ⟨_, Prod.ext (y := (Except.ok [2, 2, 2], ((), _))) ?_ rfl, ?_⟩
  · decide +kernel
  · decide +kernel

/-- The same run in extended reals: the hypotheses of C26 - C29 are met by a search for three samples
that stops by itself after six evaluations. -/
theorem ex_run : ∃ log, minimize (equivTimeCfg (Ext ℝ)) (logged (elementwise (W := Unit) exRes)) 3
    ((), []) = (.ok [.fin ((10 : ℝ) ^ ((2 : ℚ) : ℝ)), .fin ((10 : ℝ) ^ ((2 : ℚ) : ℝ)),
      .fin ((10 : ℝ) ^ ((2 : ℚ) : ℝ))], ((), log)) ∧ log.length = 6 := by
  obtain ⟨log, h1, h2⟩ := ex_runQ
  refine ⟨_, minimize_map (FinEmb.extRat ℝ) cfgQ_emb rfl rfl (elementwise exRes) ()
    (fun u => (u - 2) * (u - 2)) 3 ?_ log _ h1, by simp [h2]⟩
  intro us _
  simp only [elementwise, M.pure_run, List.map_map]
  congr 2
  apply List.map_congr_left
  intro q _
  exact exRes_rat q

attribute [local instance] fieldArith in
theorem ex_runQ1 : ∃ log, minimize cfgQ (logged (elementwise (W := Unit) fun u => (u - 2) * (u - 2)))
    1 ((), []) = (.ok [2], ((), log)) ∧ log.length = 6 := by
  refine ⟨_, Prod.ext (y := (Except.ok [2], ((), _))) ?_ rfl, ?_⟩
  · decide +kernel
  · decide +kernel

/-- The same for a single sample. -/
theorem ex_run1 : ∃ log, minimize (equivTimeCfg (Ext ℝ)) (logged (elementwise (W := Unit) exRes)) 1
    ((), []) = (.ok [.fin ((10 : ℝ) ^ ((2 : ℚ) : ℝ))], ((), log)) ∧ log.length = 6 ∧
    ∀ k x f, evalAt log 0 k x f → ∃ y : ℝ, f = .fin y := by
  obtain ⟨log, h1, h2⟩ := ex_runQ1
  refine ⟨_, minimize_map (FinEmb.extRat ℝ) cfgQ_emb rfl rfl (elementwise exRes) ()
    (fun u => (u - 2) * (u - 2)) 1 ?_ log _ h1, by simp [h2], ?_⟩
  · intro us _
    simp only [elementwise, M.pure_run, List.map_map]
    congr 2
    apply List.map_congr_left
    intro q _
    exact exRes_rat q
  · rintro k x f ⟨xs, fs, ha, hb, hc⟩
    rw [List.getElem?_map] at ha
    cases hl : log[k]? with
    | none => rw [hl] at ha; cases ha
    | some e =>
      rw [hl] at ha
      obtain ⟨e1, e2⟩ := e
      simp only [Option.map_some, mapCall, Option.some.injEq, Prod.mk.injEq] at ha
      cases e2 with
      | error e => cases ha.2
      | ok ys =>
        have := ha.2
        simp only [Except.ok.injEq] at this
        rw [← this, List.getElem?_map] at hc
        cases hy : ys[0]? with
        | none => rw [hy] at hc; cases hc
        | some y => rw [hy] at hc; simp only [Option.map_some, Option.some.injEq] at hc
                    exact ⟨y, hc.symm⟩

theorem exMech_mono : StrictMonoOn exMech (Set.Ioi 0) := by
  intro a ha b hb hab
  have h : Real.logb 10 a < Real.logb 10 b := Real.logb_lt_logb (by norm_num) ha hab
  simp only [exMech]
  set x := Real.logb 10 a - 2
  set y := Real.logb 10 b - 2
  have hxy : x < y := by simp only [x, y]; linarith
  rcases le_total 0 x with hx | hx
  · rw [abs_of_nonneg hx, abs_of_nonneg (by linarith)]; nlinarith
  · rcases le_total 0 y with hy | hy
    · rw [abs_of_nonpos hx, abs_of_nonneg hy]
      rcases hx.lt_or_eq with hx' | hx'
      · nlinarith [mul_pos (neg_pos.mpr hx') (neg_pos.mpr hx'), mul_nonneg hy hy]
      · have hy' : 0 < y := by linarith
        rw [hx']; nlinarith [mul_pos hy' hy']
    · rw [abs_of_nonpos hx, abs_of_nonpos hy]; nlinarith

/-- Non-vacuity of C29 (and of the run hypotheses of C26 - C28). -/
example : ∃ log out, minimize (equivTimeCfg (Ext ℝ)) (logged (elementwise (W := Unit) exRes)) 3
      ((), []) = (.ok out, ((), log)) ∧ log.length < 51 ∧
    ∃ t : ℝ, out[1]? = some (.fin t) ∧ 100 * (10 : ℝ) ^ (-(2 * tolAt t)) < t ∧
      t < 100 * (10 : ℝ) ^ (2 * tolAt t) := by
  obtain ⟨log, h1, h2⟩ := ex_run
  refine ⟨log, _, h1, by omega, ?_⟩
  obtain ⟨t, h3, _, h4, h5⟩ := C29_accurate (elementwise exRes) 3 () () log _ h1 1 (by norm_num) exMech
    0 100 (.inl exMech_mono) (by
      have : Real.logb 10 100 = 2 := by
        rw [show (100 : ℝ) = 10 ^ (2 : ℝ) by norm_num, Real.logb_rpow (by norm_num) (by norm_num)]
      simp [exMech, this]) (by norm_num) (by norm_num) exRes (fun _ _ => rfl) (by
      rintro k x y ⟨xs, fs, ha, hb, hc⟩
      have := minimize_elementwise_log h1 _ (List.mem_of_getElem? ha)
      simp only [Except.ok.injEq] at this
      rw [this, List.getElem?_map, hb] at hc
      simpa using hc.symm) (by omega)
  exact ⟨t, h3, h4, h5⟩

/-- Non-vacuity of C28 for a single sample. -/
example : ∃ log out, minimize (equivTimeCfg (Ext ℝ)) (logged (elementwise (W := Unit) exRes)) 1
      ((), []) = (.ok out, ((), log)) ∧ log.length = 6 ∧
    ∃ t : ℝ, out = [.fin t] ∧ 1 / 1000 < t ∧ t < 10 ^ 10 := by
  obtain ⟨log, h1, h2, hf⟩ := ex_run1
  obtain ⟨hp, h3⟩ := C28_single_partial _ _ _ _ _ h1 hf
  exact ⟨log, _, h1, h2, h3 _ rfl⟩

/-- Non-vacuity of C26: the single sample run of `exRes`. -/
example : ∃ log out, minimize (equivTimeCfg (Ext ℝ)) (logged (elementwise (W := Unit) exRes)) 1
      ((), []) = (.ok out, ((), log)) ∧ log.length = 6 ∧ ∃ k x f, out[0]? = some x ∧
      evalAt log 0 k x f ∧ ∀ k' x' f', evalAt log 0 k' x' f' → PyArith.le f f' = true := by
  obtain ⟨log, h1, h2, hf⟩ := ex_run1
  refine ⟨log, _, h1, h2, (C26_best_of_evaluated _ _ _ _ _ _ _ h1 (fun y => ∃ r : ℝ, y = .fin r)
    ?_ ?_ 0 (by norm_num) hf).2⟩
  · rintro _ _ ⟨x, rfl⟩ ⟨y, rfl⟩
    have := (FinEmb.ext ℝ).le
    simp only [FinEmb.ext] at this
    simp only [this, decide_eq_true_eq]
    exact le_total x y
  · rintro _ _ _ ⟨x, rfl⟩ ⟨y, rfl⟩ ⟨z, rfl⟩
    have := (FinEmb.ext ℝ).le
    simp only [FinEmb.ext] at this
    simp only [this, decide_eq_true_eq]
    exact le_trans

/-- Non-vacuity of C27: a run for three samples and a run for one. -/
example : ∃ log₁ log₂ r₁ r₂,
    minimize (equivTimeCfg (Ext ℝ)) (logged (elementwise (W := Unit) exRes)) 3 ((), []) =
      (r₁, ((), log₁)) ∧
    minimize (equivTimeCfg (Ext ℝ)) (logged (elementwise (W := Unit) exRes)) 1 ((), []) =
      (r₂, ((), log₂)) ∧ log₁.length = 6 ∧ log₂.length = 6 ∧
    ∀ k, k < 6 → ∃ x, pointAt log₁ 2 k x ∧ pointAt log₂ 0 k x := by
  have hg : ∀ (n i : Nat) (log : List (Call (Ext ℝ))) (r),
      minimize (equivTimeCfg (Ext ℝ)) (logged (elementwise (W := Unit) exRes)) n ((), []) =
        (r, ((), log)) → ∀ k x f, evalAt log i k x f → f = exRes x := by
    rintro n i log r h k x y ⟨xs, fs, ha, hb, hc⟩
    have := minimize_elementwise_log h _ (List.mem_of_getElem? ha)
    simp only [Except.ok.injEq] at this
    rw [this, List.getElem?_map, hb] at hc
    simpa using hc.symm
  obtain ⟨log₁, h1, h2⟩ := ex_run
  obtain ⟨log₂, h3, h4, _⟩ := ex_run1
  refine ⟨log₁, log₂, _, _, h1, h3, h2, h4, fun k hk => ?_⟩
  exact (C27_samples_independent _ _ _ _ _ _ _ _ _ _ _ _ _ h1 h3 2 0 (by norm_num) (by norm_num)
    exRes (hg _ _ _ _ h1) (hg _ _ _ _ h3)).1 k (by omega) (by omega)

section nan
/-! With a residue that is infinite everywhere the loop variables of the first three iterations. -/

/-- Before the first iteration. -/
noncomputable def nanS0 : BState (Ext ℝ) :=
  { a := .fin (-3), b := .fin 10, v := .fin (1106510866879087 / 562949953421312), w := .fin (1106510866879087 / 562949953421312), x := .fin (1106510866879087 / 562949953421312),
    fv := .pinf, fw := .pinf, fx := .pinf, d := .fin 0, e := .fin 0 }

/-- After one iteration. -/
noncomputable def nanS1 : BState (Ext ℝ) :=
  { a := .fin (1106510866879087 / 562949953421312), b := .fin 10, v := .fin (1106510866879087 / 562949953421312), w := .fin (1106510866879087 / 562949953421312),
    x := .fin (1595478309429643362517173394587 / 316912650057057350374175801344), fv := .pinf, fw := .pinf, fx := .pinf,
    d := .fin (972568068459885772837700492443 / 316912650057057350374175801344), e := .fin 0 }

/-- After two iterations. -/
noncomputable def nanS2 : BState (Ext ℝ) :=
  { a := .fin (1595478309429643362517173394587 / 316912650057057350374175801344), b := .fin 10, v := .fin (1106510866879087 / 562949953421312),
    w := .fin (1595478309429643362517173394587 / 316912650057057350374175801344),
    x := .fin (1236552467043901600951404842525845442559946807 / 178405961588244985132285746181186892047843328), fv := .pinf, fw := .pinf,
    fx := .pinf, d := .fin (338378027065770255713178214001407980928708663 / 178405961588244985132285746181186892047843328),
    e := .fin (972568068459885772837700492443 / 316912650057057350374175801344) }

attribute [local simp] PyArith.add PyArith.sub PyArith.mul PyArith.div PyArith.neg PyArith.abs
  PyArith.lt PyArith.le PyArith.eq PyArith.ofRat PyArith.gt PyArith.ge Ext.add Ext.neg Ext.mul Ext.div
  Ext.abs Ext.lt Ext.le Ext.eq Ext.signInf BState.done BState.mid BState.tol2 BState.tol equivTimeCfg

theorem nan_init : (equivTimeCfg (Ext ℝ)).init .pinf = nanS0 := by
  simp [nanS0, MinCfg.init, MinCfg.x0]; norm_num

theorem nan_done0 : nanS0.done (equivTimeCfg (Ext ℝ)) = false := by
  simp [nanS0]; norm_num [abs_of_pos, abs_of_neg]

theorem nan_step0 : nanS0.step (equivTimeCfg (Ext ℝ)) =
    .fin (972568068459885772837700492443 / 316912650057057350374175801344) := by
  simp [nanS0, BState.step]; norm_num [abs_of_pos, abs_of_neg]

theorem nan_update0 : nanS0.update (.fin (972568068459885772837700492443 / 316912650057057350374175801344))
    .pinf = nanS1 := by
  simp [nanS0, nanS1, BState.update]; norm_num

theorem nan_done1 : nanS1.done (equivTimeCfg (Ext ℝ)) = false := by
  simp [nanS1]; norm_num [abs_of_pos, abs_of_neg]

theorem nan_step1 : nanS1.step (equivTimeCfg (Ext ℝ)) =
    .fin (338378027065770255713178214001407980928708663 / 178405961588244985132285746181186892047843328) := by
  simp [nanS1, BState.step]; norm_num [abs_of_pos, abs_of_neg]

theorem nan_update1 : nanS1.update
    (.fin (338378027065770255713178214001407980928708663 / 178405961588244985132285746181186892047843328)) .pinf = nanS2 := by
  simp [nanS1, nanS2, BState.update]; norm_num

theorem nan_done2 : nanS2.done (equivTimeCfg (Ext ℝ)) = false := by
  simp [nanS2]; norm_num [abs_of_pos, abs_of_neg]

theorem nan_step2 : nanS2.step (equivTimeCfg (Ext ℝ)) = .nan := by
  simp [nanS2, BState.step]; norm_num [abs_of_pos, abs_of_neg]

end nan

theorem minLoop_single (c : MinCfg (Ext ℝ)) (k : Nat) (s : BState (Ext ℝ)) (log : List (Call (Ext ℝ)))
    (hd : s.done c = false) :
    minLoop c (logged (elementwise (W := Unit) fun _ => Ext.pinf)) (k + 1) [s] ((), log) =
      minLoop c (logged (elementwise (W := Unit) fun _ => Ext.pinf)) k
        [s.update (s.step c) .pinf]
        ((), log ++ [([c.xf (PyArith.add s.x (s.step c))], .ok [.pinf])]) := by
  rw [minLoop]
  simp only [List.all_cons, List.all_nil, hd, Bool.false_and, Bool.false_eq_true, if_false]
  rfl

/-- C28 fails for mechanisms with infinite values: with an infinite residue the fourth evaluation is
made at the time NaN. -/
theorem C28_nan_time_violated : ∃ log r, minimize (equivTimeCfg (Ext ℝ))
      (logged (elementwise (W := Unit) fun _ => Ext.pinf)) 1 ((), []) = (r, ((), log)) ∧
    pointAt log 0 3 .nan := by
  have h1 : minimize (equivTimeCfg (Ext ℝ)) (logged (elementwise (W := Unit) fun _ => Ext.pinf)) 1
      ((), []) = (minLoop (equivTimeCfg (Ext ℝ))
        (logged (elementwise (W := Unit) fun _ => Ext.pinf)) 50
        [(equivTimeCfg (Ext ℝ)).init .pinf] >>= fun ss =>
          pure (ss.map fun s => (equivTimeCfg (Ext ℝ)).xf s.x))
        ((), [([(equivTimeCfg (Ext ℝ)).xf (equivTimeCfg (Ext ℝ)).x0], .ok [.pinf])]) := rfl
  rw [nan_init, M.bind_run, minLoop_single _ 49 _ _ nan_done0, nan_step0, nan_update0,
    minLoop_single _ 48 _ _ nan_done1, nan_step1, nan_update1,
    minLoop_single _ 47 _ _ nan_done2, nan_step2] at h1
  split at h1
  all_goals
    rename_i hl
    rename_i w'
    obtain ⟨⟨⟩, log⟩ := w'
    obtain ⟨es, ss', tail, h2, _⟩ := minLoop_run _ _ _ _ _ _ _ _ _ hl
    refine ⟨log, _, h1, [.nan], .ok [.pinf], ?_, rfl⟩
    rw [h2]
    rfl

end Gerabaldi.Props
