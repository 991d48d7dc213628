import Verif.Model.Minimize
import Verif.Spec.Minimize
import Mathlib.Data.List.Forall2
import Mathlib.Tactic.Linarith
import Mathlib.Tactic.SplitIfs
import Mathlib.Tactic.Ring

/-!
# Lemmas about the search loop: traces of runs
-/

namespace Gerabaldi
open Spec

section Trace
variable {V W : Type} [PyArith V]

/-- A sequence of loop iterations with the observed calls. -/
inductive VTrace (c : MinCfg V) : List (BState V) → List (List V × List V) → List (BState V) → Prop
  | nil (ss : List (BState V)) : VTrace c ss [] ss
  | cons {ss ss' : List (BState V)} {fus : List V} {es : List (List V × List V)}
      (hnd : ss.all (BState.done c) = false) (hl : fus.length = ss.length)
      (h : VTrace c (updateAll c ss fus) es ss') : VTrace c ss ((nextPoints c ss, fus) :: es) ss'

/-- The trace of one element. -/
inductive Trace (c : MinCfg V) : BState V → List (V × V) → BState V → Prop
  | nil (s : BState V) : Trace c s [] s
  | cons {s s' : BState V} {fu : V} {es : List (V × V)}
      (h : Trace c (s.update (s.step c) fu) es s') :
      Trace c s ((c.xf (PyArith.add s.x (s.step c)), fu) :: es) s'

theorem updateAll_length (c : MinCfg V) (ss : List (BState V)) (fus : List V)
    (h : fus.length = ss.length) : (updateAll c ss fus).length = ss.length := by
  simp [updateAll, h]

/-- Success log entries. -/
def okCalls (es : List (List V × List V)) : List (Call V) := es.map fun e => (e.1, .ok e.2)

theorem minLoop_run (c : MinCfg V) (func : List V → M W (List V)) :
    ∀ (k : Nat) (ss : List (BState V)) (w w' : W) (log log' : List (Call V)) (r),
      minLoop c (logged func) k ss (w, log) = (r, (w', log')) →
      ∃ es ss' tail, log' = log ++ (okCalls es ++ tail) ∧ VTrace c ss es ss' ∧
        es.length + tail.length ≤ k ∧
        (tail ≠ [] → (∃ e, r = .error e) ∧ ss'.all (BState.done c) = false ∧
          ∃ o, tail = [(nextPoints c ss', o)]) ∧
        (∀ out, r = .ok out → out = ss' ∧ tail = [] ∧
          (es.length < k → ss'.all (BState.done c) = true)) := by
  intro k
  induction k with
  | zero =>
    intro ss w w' log log' r h
    simp only [minLoop, M.pure_run, Prod.mk.injEq] at h
    obtain ⟨rfl, rfl, rfl⟩ := h
    exact ⟨[], ss, [], by simp [okCalls], .nil _, by simp, by simp, by
      intro out ho; cases ho; exact ⟨rfl, rfl, by simp⟩⟩
  | succ k ih =>
    intro ss w w' log log' r h
    rw [minLoop] at h
    by_cases hd : ss.all (BState.done c) = true
    · simp only [hd, if_true, M.pure_run, Prod.mk.injEq] at h
      obtain ⟨rfl, rfl, rfl⟩ := h
      exact ⟨[], ss, [], by simp [okCalls], .nil _, by simp, by simp, by
        intro out ho; cases ho; exact ⟨rfl, rfl, fun _ => hd⟩⟩
    · rw [if_neg hd, M.bind_run] at h
      have hd' : ss.all (BState.done c) = false := by simpa using hd
      have hlog : logged func (nextPoints c ss) (w, log) =
        ((func (nextPoints c ss) w).1, ((func (nextPoints c ss) w).2,
          log ++ [(nextPoints c ss, (func (nextPoints c ss) w).1)])) := rfl
      rw [hlog] at h
      cases hf : (func (nextPoints c ss) w).1 with
      | error e =>
        rw [hf] at h
        simp only [Prod.mk.injEq] at h
        obtain ⟨rfl, rfl, rfl⟩ := h
        exact ⟨[], ss, [(nextPoints c ss, .error e)], by simp [okCalls], .nil _, by simp,
          fun _ => ⟨⟨e, rfl⟩, hd', _, rfl⟩, by simp⟩
      | ok fus =>
        rw [hf] at h
        simp only at h
        by_cases hl : fus.length = ss.length
        · rw [if_pos hl] at h
          obtain ⟨es, ss', tail, h1, h2, h3, h4, h5⟩ := ih _ _ _ _ _ _ h
          refine ⟨(nextPoints c ss, fus) :: es, ss', tail, ?_, .cons hd' hl h2, ?_, h4, ?_⟩
          · rw [h1]; simp [okCalls]
          · simp only [List.length_cons]; omega
          · intro out ho
            obtain ⟨a, b, d⟩ := h5 out ho
            refine ⟨a, b, fun hlt => d ?_⟩
            simp only [List.length_cons] at hlt; omega
        · rw [if_neg hl, M.throw_run] at h
          simp only [Prod.mk.injEq] at h
          obtain ⟨rfl, rfl, rfl⟩ := h
          exact ⟨[], ss, [(nextPoints c ss, .ok fus)], by simp [okCalls], .nil _, by simp,
            fun _ => ⟨⟨_, rfl⟩, hd', _, rfl⟩, by simp⟩

theorem VTrace.length {c : MinCfg V} {ss ss' : List (BState V)} {es} (h : VTrace c ss es ss') :
    ss'.length = ss.length := by
  induction h with
  | nil => rfl
  | cons _ hl _ ih => rw [ih, updateAll_length _ _ _ hl]

theorem nextPoints_get (c : MinCfg V) (ss : List (BState V)) (i : Nat) :
    (nextPoints c ss)[i]? = (ss[i]?).map fun s => c.xf (PyArith.add s.x (s.step c)) := by
  simp [nextPoints]

theorem updateAll_get {c : MinCfg V} {ss : List (BState V)} {fus : List V} {i : Nat}
    {s : BState V} {fu : V} (hs : ss[i]? = some s) (hf : fus[i]? = some fu) :
    (updateAll c ss fus)[i]? = some (s.update (s.step c) fu) := by
  simp [updateAll, List.getElem?_zipWith, hs, hf]

/-- Projection of a run on one element. -/
theorem VTrace.proj {c : MinCfg V} {ss ss' : List (BState V)} {es} (h : VTrace c ss es ss')
    {i : Nat} {s : BState V} (hs : ss[i]? = some s) :
    ∃ es' s', ss'[i]? = some s' ∧ Trace c s es' s' ∧
      List.Forall₂ (fun (e : List V × List V) (e' : V × V) =>
        e.1[i]? = some e'.1 ∧ e.2[i]? = some e'.2) es es' := by
  induction h generalizing s with
  | nil => exact ⟨[], s, hs, .nil _, .nil⟩
  | @cons ss ss' fus es hnd hl _ ih =>
    have hi : i < ss.length := by
      by_contra hc
      rw [List.getElem?_eq_none (by omega)] at hs; cases hs
    obtain ⟨fu, hfu⟩ : ∃ fu, fus[i]? = some fu := ⟨fus[i]'(by omega), by simp [hl, hi]⟩
    obtain ⟨es', s', h1, h2, h3⟩ := ih (updateAll_get hs hfu)
    exact ⟨_ :: es', s', h1, .cons h2, .cons ⟨by rw [nextPoints_get, hs]; rfl, hfu⟩ h3⟩

/-- Splitting a whole `minimize` run into the first call and the loop. -/
theorem minimize_run (c : MinCfg V) (func : List V → M W (List V)) (n : Nat) (w w' : W)
    (log' : List (Call V)) (r) (h : minimize c (logged func) n (w, []) = (r, (w', log'))) :
    (∃ o e, r = .error e ∧ log' = [(List.replicate n (c.xf c.x0), o)]) ∨
    ∃ f0s es ss' tail, f0s.length = n ∧
      log' = (List.replicate n (c.xf c.x0), .ok f0s) :: (okCalls es ++ tail) ∧
      VTrace c (f0s.map c.init) es ss' ∧ es.length + tail.length ≤ c.maxiter ∧
      (tail ≠ [] → (∃ e, r = .error e) ∧ ss'.all (BState.done c) = false ∧
          ∃ o, tail = [(nextPoints c ss', o)]) ∧
      (∀ out, r = .ok out → out = ss'.map (fun s => c.xf s.x) ∧ tail = [] ∧
          (es.length < c.maxiter → ss'.all (BState.done c) = true)) := by
  rw [minimize, M.bind_run] at h
  have hlog : logged func (List.replicate n (c.xf c.x0)) (w, []) =
        ((func (List.replicate n (c.xf c.x0)) w).1, ((func (List.replicate n (c.xf c.x0)) w).2,
          [(List.replicate n (c.xf c.x0), (func (List.replicate n (c.xf c.x0)) w).1)])) := rfl
  rw [hlog] at h
  cases hf : (func (List.replicate n (c.xf c.x0)) w).1 with
  | error e =>
    rw [hf] at h; simp only [Prod.mk.injEq] at h
    obtain ⟨rfl, rfl, rfl⟩ := h
    exact .inl ⟨_, e, rfl, rfl⟩
  | ok f0s =>
    rw [hf] at h; simp only at h
    by_cases hl : f0s.length = n
    · rw [if_pos hl, M.bind_run] at h
      right
      cases hm : minLoop c (logged func) c.maxiter (f0s.map c.init)
          ((func (List.replicate n (c.xf c.x0)) w).2, [(List.replicate n (c.xf c.x0), .ok f0s)]) with
      | mk r1 w1 =>
        rw [hm] at h
        obtain ⟨w1, log1⟩ := w1
        obtain ⟨es, ss', tail, h1, h2, h3, h4, h5⟩ := minLoop_run _ _ _ _ _ _ _ _ _ hm
        refine ⟨f0s, es, ss', tail, hl, ?_, h2, h3, ?_, ?_⟩
        · cases r1 <;> simp only [M.pure_run, Prod.mk.injEq] at h <;>
            obtain ⟨_, _, rfl⟩ := h <;> rw [h1] <;> rfl
        · intro ht
          obtain ⟨⟨e, rfl⟩, h'⟩ := h4 ht
          simp only [Prod.mk.injEq] at h
          exact ⟨⟨e, h.1.symm⟩, h'⟩
        · intro out ho
          subst ho
          cases r1 with
          | error e => simp at h
          | ok out' =>
            simp only [M.pure_run, Prod.mk.injEq] at h
            obtain ⟨rfl, h7, h8⟩ := h5 out' rfl
            refine ⟨?_, h7, h8⟩
            have := h.1; cases this; rfl
    · rw [if_neg hl, M.throw_run] at h
      simp only [Prod.mk.injEq] at h
      obtain ⟨rfl, rfl, rfl⟩ := h
      exact .inl ⟨_, _, rfl, rfl⟩

/-- Logging does not change what a run does. -/
theorem minLoop_logged (c : MinCfg V) (func : List V → M W (List V)) :
    ∀ (k : Nat) (ss : List (BState V)) (w : W) (log : List (Call V)),
      (minLoop c (logged func) k ss (w, log)).1 = (minLoop c func k ss w).1 ∧
      (minLoop c (logged func) k ss (w, log)).2.1 = (minLoop c func k ss w).2 := by
  intro k
  induction k with
  | zero => intro ss w log; exact ⟨rfl, rfl⟩
  | succ k ih =>
    intro ss w log
    rw [minLoop, minLoop]
    by_cases hd : ss.all (BState.done c) = true
    · simp [hd]
    · rw [if_neg hd, if_neg hd, M.bind_run, M.bind_run]
      unfold logged
      cases hf : func (nextPoints c ss) w with
      | mk r w1 =>
        cases r with
        | error e => exact ⟨rfl, rfl⟩
        | ok fus =>
          simp only
          by_cases hl : fus.length = ss.length
          · simp only [if_pos hl]; exact ih _ _ _
          · simp only [if_neg hl]; exact ⟨rfl, rfl⟩

theorem minimize_logged (c : MinCfg V) (func : List V → M W (List V)) (n : Nat) (w : W) :
    (minimize c (logged func) n (w, [])).1 = (minimize c func n w).1 ∧
    (minimize c (logged func) n (w, [])).2.1 = (minimize c func n w).2 := by
  rw [minimize, minimize, M.bind_run, M.bind_run]
  have hlog : logged func (List.replicate n (c.xf c.x0)) (w, []) =
        ((func (List.replicate n (c.xf c.x0)) w).1, ((func (List.replicate n (c.xf c.x0)) w).2,
          [(List.replicate n (c.xf c.x0), (func (List.replicate n (c.xf c.x0)) w).1)])) := rfl
  rw [hlog]
  cases hf : func (List.replicate n (c.xf c.x0)) w with
  | mk r w1 =>
    cases r with
    | error e => exact ⟨rfl, rfl⟩
    | ok f0s =>
      simp only
      by_cases hl : f0s.length = n
      · simp only [if_pos hl]
        have := minLoop_logged c func c.maxiter (f0s.map c.init) w1
          [(List.replicate n (c.xf c.x0), .ok f0s)]
        rw [M.bind_run, M.bind_run]
        revert this
        cases minLoop c (logged func) c.maxiter (f0s.map c.init)
          (w1, [(List.replicate n (c.xf c.x0), .ok f0s)]) with
        | mk a b =>
          cases minLoop c func c.maxiter (f0s.map c.init) w1 with
          | mk a' b' =>
            rintro ⟨h1, h2⟩
            simp only at h1 h2
            subst h1 h2
            cases a <;> exact ⟨rfl, rfl⟩
      · simp only [if_neg hl]; exact ⟨rfl, rfl⟩

omit [PyArith V] in
/-- What a log says about one element. -/
theorem evalAt_iff {i : Nat} {es : List (List V × List V)} {es' : List (V × V)}
    (h : List.Forall₂ (fun (e : List V × List V) (e' : V × V) =>
        e.1[i]? = some e'.1 ∧ e.2[i]? = some e'.2) es es') (k : Nat) (x f : V) :
    evalAt (okCalls es) i k x f ↔ es'[k]? = some (x, f) := by
  induction h generalizing k with
  | nil => simp [evalAt, okCalls]
  | @cons a b l1 l2 hab _ ih =>
    cases k with
    | zero =>
      obtain ⟨h1, h2⟩ := hab
      obtain ⟨b1, b2⟩ := b
      simp only at h1 h2
      constructor
      · rintro ⟨xs, fs, h3, h4, h5⟩
        simp only [okCalls, List.map_cons, List.getElem?_cons_zero, Option.some.injEq,
          Prod.mk.injEq, Except.ok.injEq] at h3
        obtain ⟨rfl, rfl⟩ := h3
        rw [h1] at h4; rw [h2] at h5
        cases h4; cases h5; rfl
      · intro h
        simp only [List.getElem?_cons_zero, Option.some.injEq, Prod.mk.injEq] at h
        obtain ⟨rfl, rfl⟩ := h
        exact ⟨a.1, a.2, rfl, h1, h2⟩
    | succ k => exact ih k

theorem Trace.best {c : MinCfg V} (P : V → Prop)
    (htot : ∀ x y, P x → P y → PyArith.le x y = true ∨ PyArith.le y x = true)
    (htr : ∀ x y z, P x → P y → P z → PyArith.le x y = true → PyArith.le y z = true →
      PyArith.le x z = true)
    {s s' : BState V} {es : List (V × V)} (h : Trace c s es s') (hs : P s.fx)
    (hes : ∀ e ∈ es, P e.2) :
    (c.xf s'.x, s'.fx) ∈ (c.xf s.x, s.fx) :: es ∧
      ∀ e ∈ (c.xf s.x, s.fx) :: es, PyArith.le s'.fx e.2 = true := by
  induction h with
  | nil s =>
    refine ⟨by simp, ?_⟩
    intro e he
    simp only [List.mem_singleton] at he
    subst he
    rcases htot _ _ hs hs with h | h <;> exact h
  | @cons s s' fu es _ ih =>
    have hfu : P fu := hes _ List.mem_cons_self
    have hes' : ∀ e ∈ es, P e.2 := fun e he => hes e (by simp [he])
    by_cases hle : PyArith.le fu s.fx = true
    · have hx : (s.update (s.step c) fu).x = PyArith.add s.x (s.step c) := by
        simp [BState.update, hle]
      have hfx : (s.update (s.step c) fu).fx = fu := by simp [BState.update, hle]
      rw [hx, hfx] at ih
      obtain ⟨h1, h2⟩ := ih hfu hes'
      refine ⟨by
        rcases List.mem_cons.mp h1 with h | h
        · rw [h]; simp
        · simp [h], ?_⟩
      intro e he
      rcases List.mem_cons.mp he with rfl | he
      · have h3 := h2 _ (List.mem_cons_self)
        have hP : P s'.fx := by
          rcases List.mem_cons.mp h1 with h | h
          · rw [(Prod.mk.inj h).2]; exact hfu
          · exact hes' _ h
        exact htr _ _ _ hP hfu hs h3 hle
      · exact h2 e he
    · have hle' : PyArith.le fu s.fx = false := by simpa using hle
      have hx : (s.update (s.step c) fu).x = s.x := by simp [BState.update, hle']
      have hfx : (s.update (s.step c) fu).fx = s.fx := by simp [BState.update, hle']
      rw [hx, hfx] at ih
      obtain ⟨h1, h2⟩ := ih hs hes'
      refine ⟨by
        rcases List.mem_cons.mp h1 with h | h
        · rw [h]; simp
        · simp [h], ?_⟩
      intro e he
      have hP : P s'.fx := by
        rcases List.mem_cons.mp h1 with h | h
        · rw [(Prod.mk.inj h).2]; exact hs
        · exact hes' _ h
      rcases List.mem_cons.mp he with rfl | he
      · exact h2 _ (List.mem_cons_self)
      rcases List.mem_cons.mp he with rfl | he
      · have h3 := h2 _ (List.mem_cons_self)
        have h4 : PyArith.le s.fx fu = true := (htot _ _ hfu hs).resolve_left hle
        exact htr _ _ _ hP hs hfu h3 h4
      · exact h2 e (by simp [he])

/-- The trajectory of one element under a fixed scalar objective. -/
def advance (c : MinCfg V) (g : V → V) (s : BState V) : BState V :=
  s.update (s.step c) (g (c.xf (PyArith.add s.x (s.step c))))

theorem Trace.advance {c : MinCfg V} {g : V → V} {s s' : BState V} {es : List (V × V)}
    (h : Trace c s es s') (hg : ∀ e ∈ es, e.2 = g e.1) :
    s' = (Gerabaldi.advance c g)^[es.length] s ∧ ∀ k, k < es.length →
      (es[k]?).map (·.1) = some (c.xf (PyArith.add ((Gerabaldi.advance c g)^[k] s).x
        (((Gerabaldi.advance c g)^[k] s).step c))) := by
  induction h with
  | nil s => simp
  | @cons s s' fu es _ ih =>
    have hfu : fu = g (c.xf (PyArith.add s.x (s.step c))) := hg (_, fu) (by simp)
    obtain ⟨h1, h2⟩ := ih (fun e he => hg e (by simp [he]))
    have ha : s.update (s.step c) fu = Gerabaldi.advance c g s := by
      rw [Gerabaldi.advance, ← hfu]
    refine ⟨by rw [List.length_cons, Function.iterate_succ_apply, h1, ha], ?_⟩
    intro k hk
    cases k with
    | zero => simp
    | succ k =>
      rw [Function.iterate_succ_apply, ← ha]
      simpa using h2 k (by simpa using hk)

/-- The points one element visits under a fixed scalar objective. -/
def visit (c : MinCfg V) (g : V → V) : Nat → V
  | 0 => c.xf c.x0
  | k + 1 => c.xf (PyArith.add ((advance c g)^[k] (c.init (g (c.xf c.x0)))).x
      (((advance c g)^[k] (c.init (g (c.xf c.x0)))).step c))

omit [PyArith V] in
theorem okCalls_length (es : List (List V × List V)) : (okCalls es).length = es.length := by
  simp [okCalls]

theorem minimize_points {c : MinCfg V} {func : List V → M W (List V)} {n : Nat} {w w' : W}
    {log : List (Call V)} {r} (h : minimize c (logged func) n (w, []) = (r, (w', log)))
    {i : Nat} (hi : i < n) {g : V → V} (hg : ∀ k x f, evalAt log i k x f → f = g x) :
    (∀ k, k < log.length → pointAt log i k (visit c g k)) ∧
    (∀ out, r = .ok out → out[i]? = some (c.xf
      ((advance c g)^[log.length - 1] (c.init (g (c.xf c.x0)))).x)) := by
  rcases minimize_run c func n w w' log r h with ⟨o, e, rfl, rfl⟩ |
    ⟨f0s, es, ss', tail, h1, h2, h3, h4, h5, h6⟩
  · refine ⟨?_, by simp⟩
    intro k hk
    obtain rfl : k = 0 := by simpa using hk
    exact ⟨_, o, rfl, by simp [hi, visit]⟩
  · obtain ⟨f0, hf0⟩ : ∃ f0, f0s[i]? = some f0 := ⟨f0s[i]'(by omega), by simp [h1, hi]⟩
    have hf0g : f0 = g (c.xf c.x0) := by
      refine hg 0 _ _ ⟨_, f0s, by rw [h2]; rfl, by simp [hi], hf0⟩
    have hs : (f0s.map c.init)[i]? = some (c.init f0) := by simp [hf0]
    obtain ⟨es', s', h7, h8, h9⟩ := h3.proj hs
    have hlen : es'.length = es.length := h9.length_eq.symm
    have hev : ∀ e ∈ es', e.2 = g e.1 := by
      intro e he
      obtain ⟨k, hk⟩ := List.mem_iff_getElem?.mp he
      have := (evalAt_iff h9 k e.1 e.2).2 hk
      refine hg (k + 1) _ _ ?_
      obtain ⟨xs, fs, ha, hb, hc⟩ := this
      refine ⟨xs, fs, ?_, hb, hc⟩
      rw [h2, List.getElem?_cons_succ, List.getElem?_append_left, ha]
      by_contra hcon
      rw [List.getElem?_eq_none (by omega)] at ha; cases ha
    obtain ⟨h10, h11⟩ := h8.advance hev
    rw [hlen] at h10 h11
    rw [← hf0g]
    constructor
    · intro k hk
      cases k with
      | zero => exact ⟨_, .ok f0s, by rw [h2]; rfl, by simp [hi, visit]⟩
      | succ k =>
        by_cases hkl : k < es.length
        · have := h11 k hkl
          have hk' : k < es'.length := by omega
          obtain ⟨xs, fs, ha, hb, hc⟩ := (evalAt_iff h9 k (es'[k]).1 (es'[k]).2).2 (by simp)
          refine ⟨xs, .ok fs, ?_, ?_⟩
          · rw [h2, List.getElem?_cons_succ, List.getElem?_append_left (by
              rw [okCalls_length]; exact hkl), ha]
          · rw [hb, visit, ← hf0g]
            rw [← this]; simp [hk']
        · rw [h2, List.length_cons, List.length_append, okCalls_length] at hk
          have ht : tail ≠ [] := by rintro rfl; simp at hk; omega
          obtain ⟨_, _, o, rfl⟩ := h5 ht
          have hke : k = es.length := by simp at hk; omega
          refine ⟨nextPoints c ss', o, ?_, ?_⟩
          · rw [h2, List.getElem?_cons_succ, List.getElem?_append_right (by
              rw [okCalls_length]; omega), okCalls_length, hke]; simp
          · rw [nextPoints_get, h7, visit, ← hf0g, hke, ← h10]; rfl
    · intro out ho
      obtain ⟨h12, h13, _⟩ := h6 out ho
      rw [h12, h2, h13]
      simp only [List.append_nil, List.length_cons, okCalls_length, Nat.add_sub_cancel,
        List.getElem?_map, h7, h10]
      rfl

theorem minLoop_elementwise_log (c : MinCfg V) (g : V → V) :
    ∀ (k : Nat) (ss : List (BState V)) (w w' : W) (log log' : List (Call V)) (r),
      minLoop c (logged (elementwise g)) k ss (w, log) = (r, (w', log')) →
      (∀ e ∈ log, e.2 = .ok (e.1.map g)) → ∀ e ∈ log', e.2 = .ok (e.1.map g) := by
  intro k
  induction k with
  | zero =>
    intro ss w w' log log' r h hl
    simp only [minLoop, M.pure_run, Prod.mk.injEq] at h
    rw [← h.2.2]; exact hl
  | succ k ih =>
    intro ss w w' log log' r h hl
    rw [minLoop] at h
    by_cases hd : ss.all (BState.done c) = true
    · simp only [hd, if_true, M.pure_run, Prod.mk.injEq] at h
      rw [← h.2.2]; exact hl
    · rw [if_neg hd, M.bind_run] at h
      have hlog : logged (elementwise (W := W) g) (nextPoints c ss) (w, log) =
        (.ok ((nextPoints c ss).map g), (w,
          log ++ [(nextPoints c ss, .ok ((nextPoints c ss).map g))])) := rfl
      rw [hlog] at h
      simp only at h
      have hl' : ∀ e ∈ log ++ [((nextPoints c ss, .ok ((nextPoints c ss).map g)) : Call V)],
          e.2 = .ok (e.1.map g) := by
        intro e he
        rcases List.mem_append.mp he with he | he
        · exact hl e he
        · simp only [List.mem_singleton] at he; subst he; rfl
      split at h
      · exact ih _ _ _ _ _ _ h hl'
      · simp only [M.throw_run, Prod.mk.injEq] at h
        rw [← h.2.2]; exact hl'

theorem minimize_elementwise_log {c : MinCfg V} {g : V → V} {n : Nat} {w w' : W}
    {log : List (Call V)} {r} (h : minimize c (logged (elementwise g)) n (w, []) = (r, (w', log))) :
    ∀ e ∈ log, e.2 = .ok (e.1.map g) := by
  rw [minimize, M.bind_run] at h
  have hlog : logged (elementwise (W := W) g) (List.replicate n (c.xf c.x0)) (w, []) =
    (.ok ((List.replicate n (c.xf c.x0)).map g), (w,
      [(List.replicate n (c.xf c.x0), .ok ((List.replicate n (c.xf c.x0)).map g))])) := rfl
  rw [hlog] at h
  simp only [List.length_map, List.length_replicate, if_true] at h
  rw [M.bind_run] at h
  cases hm : minLoop c (logged (elementwise (W := W) g)) c.maxiter
      (((List.replicate n (c.xf c.x0)).map g).map c.init) (w,
      [(List.replicate n (c.xf c.x0), .ok ((List.replicate n (c.xf c.x0)).map g))]) with
  | mk r1 ww =>
    rw [hm] at h
    obtain ⟨w1, log1⟩ := ww
    have := minLoop_elementwise_log _ _ _ _ _ _ _ _ _ hm (by simp)
    cases r1 <;> simp only [M.pure_run, Prod.mk.injEq] at h <;> rw [← h.2.2] <;> exact this

end Trace

end Gerabaldi
