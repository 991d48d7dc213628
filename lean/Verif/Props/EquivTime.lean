import Verif.Spec.NumbersOnly
import Verif.Props.DegradeEx
import Verif.Props.Helpers
import Verif.Props.History

/-!
# Equations and equivalent times as the models use them (C29, C35)
-/

namespace Gerabaldi.Props

open Gerabaldi Gerabaldi.Spec

/-! ## C35: the fallback in the models -/

section fallback
variable {W V : Type} [PyArith V]

theorem numbersOnly_loop {f : PyFun W V} {args : Dict (PyVal V)} {L C D : Nat} (hs : uniformShape args L C D)
    (hp : plainScalars args) : loopCompute (numbersOnly f) args L C D = loopCompute f args L C D := by
  have hb : ∀ p ∈ idx3 L C D, loopBody (numbersOnly f) args p = loopBody f args p := by
    intro p hmem
    obtain ⟨a, b, c⟩ := mem_idx3 hmem
    have e : hasArray (sampleArgs args p.1 p.2.1 p.2.2) = false := by
      unfold hasArray sampleArgs
      rw [List.any_map]
      exact List.any_eq_false.2 fun kv _ => by simp
    have e2 : (numbersOnly f).invoke (sampleArgs args p.1 p.2.1 p.2.2) = f.invoke (sampleArgs args p.1 p.2.1 p.2.2) := by
      unfold PyFun.invoke
      show (if f.accepts _ = true then (if hasArray _ = true then _ else _) else _) = _
      rw [e]
      rfl
    unfold loopBody
    rw [getSingleIndex_ok hs hp a b c]
    show (numbersOnly f).invoke _ >>= _ = f.invoke _ >>= _
    rw [e2]
  unfold loopCompute
  rw [M.mapList_congr hb]

/-- **C35** in the models (partial: every scalar argument is a Python number or `np.float64`): an equation that
acts elementwise and the same equation written for numbers only, which refuses arrays with a `ValueError`, give the
models the same array. Its element at every lot, chip and device is the equation applied to that sample's numbers. -/
theorem C35_models_partial (f : PyFun W V) (g : Dict (PyVal V) → V) (hf : Elementwise f g) (args : Dict (PyVal V))
    (L C D : Nat) (hn : args.Nodup) (hs : uniformShape args L C D) (hp : plainScalars args)
    (harr : ∃ k a, (k, PyVal.arr a) ∈ args) (hacc : f.accepts args = true) (w : W) :
    ∃ r, computeOrLoop f args L C D w = (.ok (.arr r), w) ∧
      computeOrLoop (numbersOnly f) args L C D w = (.ok (.arr r), w) ∧ r.HasDims L C D ∧
      ∀ l < L, ∀ c < C, ∀ d < D, r.at' l c d = g (sampleArgs args l c d) := by
  obtain ⟨r, h1, h2, h3, h4⟩ := C35_fallback_equals_array_partial f g hf args L C D hn hs hp harr hacc w
  refine ⟨r, ?_, ?_, h3, h4⟩
  · unfold computeOrLoop M.catchValueError
    rw [h1]
  · have e : (numbersOnly f).invoke args w = (.error .valueError, w) := by
      obtain ⟨k, a, hk⟩ := harr
      have ha : hasArray args = true := List.any_eq_true.2 ⟨_, hk, rfl⟩
      unfold PyFun.invoke
      rw [if_pos (show (numbersOnly f).accepts args = true from hacc)]
      show (if hasArray args = true then M.throw .valueError else f.call args) w = _
      rw [ha]
      rfl
    unfold computeOrLoop M.catchValueError
    rw [e]
    show (loopCompute (numbersOnly f) args L C D >>= _) w = _
    rw [numbersOnly_loop hs hp, M.bind_ok h2]
    rfl

end fallback

/-- Hours of two devices on two chips. -/
def fourTimes : Arr3 Ex.Q := ⟨1, 2, 2, [.fin 1, .fin 2, .fin 3, .fin 4], rfl⟩

/-- The product of a rate, a temperature and a time, which refuses arrays, on an array of times. -/
example : ∃ r, computeOrLoop (numbersOnly (driftExpr.fn ["rate", "temp", "time"]))
    [("rate", .scal (.fin 2)), ("temp", .scal (.fin 10)), ("time", .arr fourTimes)] 1 2 2 Counts.start = (.ok (.arr r), Counts.start) ∧
      r.at' 0 1 0 = .fin 60 := by
  obtain ⟨r, _, h2, _, h4⟩ := C35_models_partial (W := Counts) (driftExpr.fn ["rate", "temp", "time"]) _
    (NumExpr.elementwise (e := driftExpr) (ps := ["rate", "temp", "time"]) (by intro k; simp [driftExpr, NumExpr.uses]))
    [("rate", .scal (.fin 2)), ("temp", .scal (.fin 10)), ("time", .arr fourTimes)] 1 2 2 (by decide)
    (by intro k a h; simp at h; obtain ⟨_, rfl⟩ := h; exact ⟨rfl, rfl, rfl⟩)
    (by intro k v h; simp at h) ⟨"time", fourTimes, by simp⟩ (by decide) Counts.start
  refine ⟨r, h2, ?_⟩
  rw [h4 0 (by decide) 1 (by decide) 0 (by decide)]
  decide +kernel

/-! ## C29: the equivalent time of a mechanism -/

/-- **C29** for the mechanism models: the equivalent stress time that a `DegMechMdl` computes for a sample whose
degradation lies on its strictly monotone curve at a time `T` within the bounds is within a factor `10 ** (2 * tol)`
of `T`, when the search stops by itself; the other samples may have any values and curves. -/
theorem C29_mechanism {W : Type} {m : MechMdl W (Ext ℝ)} (hkind : m.kind = .deg) {g : Dict (PyVal (Ext ℝ)) → Ext ℝ}
    {conds lat : Dict (Arr3 (Ext ℝ))} {L C D : Nat} (hs : SampleWise m g conds lat L C D)
    {cur : Arr3 (Ext ℝ)} (hcur : cur.HasDims L C D) (hconv : Converges m cur conds lat L C D)
    {l c d : Nat} (hl : l < L) (hc : c < C) (hd : d < D)
    {f : ℝ → ℝ} (hf : ∀ t : ℝ, 0 < t → curve m g conds lat L C D l c d (.fin t) = .fin (f t))
    (hmono : StrictMonoOn f (Set.Ioi 0) ∨ StrictAntiOn f (Set.Ioi 0)) {T : ℝ}
    (hT : cur.at' l c d = .fin (f T)) (hlo : 1 / 1000 ≤ T) (hhi : T ≤ 10 ^ 10) {t0 : Arr3 (Ext ℝ)} {w w' : W}
    (h : m.calcEquiv cur conds lat L C D w = (.ok t0, w')) :
    ∃ t : ℝ, t0.at' l c d = .fin t ∧ 0 < t ∧
      T * (10 : ℝ) ^ (-(2 * tolAt t)) < t ∧ t < T * (10 : ℝ) ^ (2 * tolAt t) := by
  unfold MechMdl.calcEquiv at h
  rw [hkind] at h
  simp only [MechMdl.calcEquivSearch] at h
  obtain ⟨ts, w2, hmin, hr⟩ := M.bind_eq_ok.1 h
  obtain ⟨e1, e2, e3, e4⟩ := Arr3.reshape_eq_ok.1 (M.ofExcept_eq_ok.1 hr).1
  have hobs := minimize_observed (equivTimeCfg (Ext ℝ)) (m.residue cur conds lat L C D)
    cur.data.length w
  have hout := minimize_outcomes (equivTimeCfg (Ext ℝ)) (m.residue cur conds lat L C D)
    cur.data.length w
  have hcv := hconv w
  rw [hmin] at hobs
  cases hrun : minimize (equivTimeCfg (Ext ℝ)) (logged (m.residue cur conds lat L C D))
    cur.data.length (w, []) with
  | mk r wl =>
    obtain ⟨w3, log⟩ := wl
    rw [hrun] at hobs hout hcv
    simp only [Prod.mk.injEq] at hobs
    obtain ⟨rfl, rfl⟩ := hobs
    have hi : (l * C + c) * D + d < cur.data.length := by
      rw [cur.wf, hcur.1, hcur.2.1, hcur.2.2]
      exact Arr3.index_lt hl hc hd
    obtain ⟨-, -, hlen⟩ := C26_bounded_work _ _ _ _ _ _ _ hrun
    obtain ⟨t, a1, a2⟩ := C29_accurate _ _ _ _ _ _ hrun _ hi f (f T) T hmono rfl hlo hhi
      (fun x => PyArith.abs (PyArith.sub (cur.at' l c d) (curve m g conds lat L C D l c d x)))
      (by
        intro t ht
        show PyArith.abs (PyArith.sub (cur.at' l c d) (curve m g conds lat L C D l c d (.fin t))) = _
        rw [hT, hf t ht]
        show Ext.fin |f T + -f t| = Ext.fin |f T - f t|
        rw [sub_eq_add_neg])
      (by
        rintro j x z ⟨xs, fs, b1, b2, b3⟩
        have hmem := List.mem_of_getElem? b1
        obtain ⟨w4, hw4⟩ := hout _ hmem
        obtain ⟨ys, c1, -, c3⟩ := residue_sample hs hcur (hlen _ hmem) w4
        simp only at hw4 c1
        rw [c1] at hw4
        simp only [Except.ok.injEq] at hw4
        subst hw4
        rw [c3 l hl c hc d hd x b2] at b3
        exact (Option.some.inj b3).symm) hcv
    refine ⟨t, ?_, a2⟩
    unfold Arr3.at'
    rw [e2, e3, hcur.2.1, hcur.2.2, e4, List.getD_eq_getElem?_getD, a1]
    rfl

/-- Two devices that have seen 100 s. -/
example (d : Nat) (hd : d < 2) : ∃ t0, ∃ w w' : Counts, (timeMech .deg "s" exMech).calcEquiv
      (Arr3.full 1 1 2 (.fin (exMech 100))) [] [] 1 1 2 w = (.ok t0, w') ∧
    ∃ t : ℝ, t0.at' 0 0 d = .fin t ∧ 0 < t ∧
      100 * (10 : ℝ) ^ (-(2 * tolAt t)) < t ∧ t < 100 * (10 : ℝ) ^ (2 * tolAt t) := by
  obtain ⟨s', h⟩ := time_stressed (kind := .deg) (by decide) (unit := "s") (by decide)
    exMech (exMech 100) 2 (us := 3600000000) (by decide) Counts.start
  obtain ⟨t0, x, v, w1, w2, w3, w4, h1, -⟩ := stressed_mech h
  exact ⟨t0, w1, w2, h1, C29_mechanism rfl (time_sampleWise _ _ _ 1 1 2) ⟨rfl, rfl, rfl⟩ (exMech_converges .deg)
    Nat.one_pos Nat.one_pos hd (fun t _ => time_curve _ _ _ Nat.one_pos Nat.one_pos hd t) (.inl exMech_mono)
    (Arr3.at_full _ Nat.one_pos Nat.one_pos hd) (by norm_num) (by norm_num) h1⟩

end Gerabaldi.Props
