import Verif.Lemmas.Helpers
import Mathlib.Algebra.Order.Ring.Rat

/-!
# C35: the per-sample fallback
-/

namespace Gerabaldi.Props
open Gerabaldi Gerabaldi.Spec

section
variable {W V : Type} [Inhabited V]

theorem sampleArgs_accepts (f : PyFun W V) (args : Dict (PyVal V)) (l c d : Nat) :
    f.accepts (sampleArgs args l c d) = f.accepts args := by
  have hh : ∀ k, (sampleArgs args l c d).has k = args.has k := by
    intro k
    rw [Bool.eq_iff_iff, Dict.has_iff_mem_keys, Dict.has_iff_mem_keys]
    simp [sampleArgs, Dict.keys, List.map_map, Function.comp_def]
  unfold PyFun.accepts
  simp only [hh]
  congr 2
  simp [sampleArgs, List.all_map, Function.comp_def]

/-- **C35** (partial: every scalar argument is a Python number or `np.float64`). For an equation that
acts elementwise, on arguments with distinct names whose arrays all have the simulated shape, the
per-sample fallback returns the very array that array evaluation returns, and its element at every
lot, chip and device is the equation applied to that sample's numbers. -/
theorem C35_fallback_equals_array_partial (f : PyFun W V) (g : Dict (PyVal V) → V)
    (hf : Elementwise f g) (args : Dict (PyVal V)) (L C D : Nat) (hn : args.Nodup)
    (hs : uniformShape args L C D) (hp : plainScalars args) (harr : ∃ k a, (k, PyVal.arr a) ∈ args)
    (hacc : f.accepts args = true) (w : W) :
    ∃ r, f.invoke args w = (.ok (.arr r), w) ∧ loopCompute f args L C D w = (.ok r, w) ∧
      r.HasDims L C D ∧
      ∀ l < L, ∀ c < C, ∀ d < D, r.at' l c d = g (sampleArgs args l c d) := by
  obtain ⟨r, h1, h2, h3⟩ := hf.onArrays args L C D hn hs harr hacc w
  refine ⟨r, by unfold PyFun.invoke; rw [if_pos hacc]; exact h1, ?_, h2, h3⟩
  have hb : ∀ i < L, ∀ j < C, ∀ k < D,
      loopBody f args (i, j, k) w = (.ok (g (sampleArgs args i j k)), w) := by
    intro i hi j hj k hk
    unfold loopBody
    rw [getSingleIndex_ok hs hp hi hj hk,
      M.bind_ok (rfl : M.ofExcept (Except.ok _) w = (.ok _, w))]
    have hacc' : f.accepts (sampleArgs args i j k) = true := by rw [sampleArgs_accepts]; exact hacc
    have hnd : (sampleArgs args i j k).Nodup := by
      unfold Dict.Nodup Dict.keys sampleArgs at *
      rw [List.map_map]; exact hn
    have hcall := hf.onNumbers (sampleArgs args i j k) hnd (by
      intro key v hv
      obtain ⟨kv, _, he⟩ := List.mem_map.1 hv
      cases he
      exact ⟨_, rfl⟩) hacc' w
    rw [M.bind_ok (show f.invoke _ w = (.ok _, w) by unfold PyFun.invoke; rw [if_pos hacc']; exact hcall)]
    rfl
  rw [loopCompute_pure hb]
  congr 2
  obtain ⟨e1, e2, e3⟩ := h2
  subst e1 e2 e3
  refine Arr3.ext_at rfl rfl rfl ?_
  intro l hl c hc d hd
  simp only [Arr3.ofFn_nl, Arr3.ofFn_nc, Arr3.ofFn_nd] at hl hc hd
  rw [Arr3.at_ofFn _ hl hc hd, h3 l hl c hc d hd]

/-- **C35**, order of evaluation: whatever the equation does, a fallback evaluation that returns has
called it exactly once per sample, in lot, chip, device order, each time with the numbers of that
sample, and has stored each call's value at that sample's position. -/
theorem C35_fallback_order_partial (f : PyFun W V) (args : Dict (PyVal V)) (L C D : Nat)
    (hs : uniformShape args L C D) (hp : plainScalars args) (w w' : W)
    (calls : List (Dict (PyVal V) × PyVal V)) (r : Arr3 V)
    (h : loopCompute (observed f) args L C D (w, []) = (.ok r, (w', calls))) :
    loopCompute f args L C D w = (.ok r, w') ∧ calls.length = L * C * D ∧
      (∀ l < L, ∀ c < C, ∀ d < D, ∃ v,
        calls[(l * C + c) * D + d]? = some (sampleArgs args l c d, v) ∧
        r.at' l c d = sampleVal v 0 0 0) := by
  obtain ⟨hd, hm⟩ := loopCompute_ok_inv h
  obtain ⟨rs, h1, h2, h3, h4⟩ := mapList_observed (f := f) (args := args) (fun p hp' => by
    obtain ⟨a, b, c⟩ := mem_idx3 hp'
    exact getSingleIndex_ok hs hp a b c) hm
  rw [idx3_length] at h2
  simp only [List.nil_append] at h1
  obtain ⟨e1, e2, e3⟩ := hd
  refine ⟨?_, ?_, ?_⟩
  · obtain ⟨r', hr, ⟨d1, d2, d3⟩, hr'⟩ := loopCompute_run h4
    rw [hr]
    congr 2
    exact Arr3.ext' (by omega) (by omega) (by omega) hr'
  · rw [h1]; simp [idx3_length, h2]
  · intro l hl c hc d hd
    have hi := Arr3.index_lt hl hc hd
    refine ⟨rs[(l * C + c) * D + d], ?_, ?_⟩
    · rw [h1, List.getElem?_eq_getElem (by simp [idx3_length, h2, hi])]
      rw [List.getElem_zip, List.getElem_map]
      simp only [idx3_eq, List.getElem_map, List.getElem_range]
      obtain ⟨d1, d2, d3⟩ := Arr3.index_decode (l := l) hc hd
      simp only [sampleAt, d1, d2, d3]
    · unfold Arr3.at'
      rw [e2, e3, ← h3, List.getD_eq_getElem _ _ (by simpa [h2] using hi), List.getElem_map]

/-- **C35** violated for numpy scalars other than `np.float64`: an argument of such a type (for
example a mechanism's neutral value given as `np.int64`) is dropped by the fallback, so every equation
that requires it fails with `TypeError`, whatever the other arguments. -/
theorem C35_other_scalar_dropped_violated (f : PyFun W V) (name : String)
    (hreq : (name, false) ∈ f.params) (args : Dict (PyVal V)) (v : V) (hn : args.Nodup)
    (harg : (name, PyVal.npscal v) ∈ args) (L C D : Nat) (hL : 0 < L) (hC : 0 < C) (hD : 0 < D)
    (hs : uniformShape args L C D) (w : W) :
    loopCompute f args L C D w = (.error .typeError, w) := by
  have hidx : ∃ ps, idx3 L C D = (0, 0, 0) :: ps := by
    have hpos : 0 < L * C * D := Nat.mul_pos (Nat.mul_pos hL hC) hD
    rw [idx3_eq]
    obtain ⟨n, hn⟩ : ∃ n, L * C * D = n + 1 := ⟨L * C * D - 1, by omega⟩
    rw [hn, List.range_succ_eq_map]
    exact ⟨_, by simp [sampleAt]; rfl⟩
  -- what the extraction of the first sample returns
  have hget : ∀ args : Dict (PyVal V), uniformShape args L C D → ∃ new,
      getSingleIndex args 0 0 0 = .ok new ∧
      ∀ k, k ∈ new.keys → ∃ x, (k, x) ∈ args ∧ ∀ y, x ≠ PyVal.npscal y := by
    intro args hs
    induction args with
    | nil => exact ⟨[], rfl, by simp [Dict.keys]⟩
    | cons kv rest ih =>
      obtain ⟨key, val⟩ := kv
      obtain ⟨new, h1, h2⟩ := ih fun k a h => hs k a (List.mem_cons_of_mem _ h)
      cases val with
      | scal x =>
        refine ⟨(key, .scal x) :: new, by simp [getSingleIndex, h1], ?_⟩
        intro k hk
        rcases List.mem_cons.1 hk with rfl | hk
        · exact ⟨.scal x, List.mem_cons_self, by simp⟩
        · obtain ⟨y, hy, hy'⟩ := h2 k hk
          exact ⟨y, List.mem_cons_of_mem _ hy, hy'⟩
      | npscal x =>
        refine ⟨new, by simp [getSingleIndex, h1], ?_⟩
        intro k hk
        obtain ⟨y, hy, hy'⟩ := h2 k hk
        exact ⟨y, List.mem_cons_of_mem _ hy, hy'⟩
      | arr a =>
        obtain ⟨d1, d2, d3⟩ := hs key a List.mem_cons_self
        refine ⟨(key, .scal (a.at' 0 0 0)) :: new, by simp [getSingleIndex, h1, d1, d2, d3, hL, hC, hD], ?_⟩
        intro k hk
        rcases List.mem_cons.1 hk with rfl | hk
        · exact ⟨.arr a, List.mem_cons_self, by simp⟩
        · obtain ⟨y, hy, hy'⟩ := h2 k hk
          exact ⟨y, List.mem_cons_of_mem _ hy, hy'⟩
  obtain ⟨new, hnew, hkeys⟩ := hget args hs
  have hno : f.accepts new = false := by
    have : new.has name = false := by
      rw [Bool.eq_false_iff]
      intro hh
      obtain ⟨x, hx, hx'⟩ := hkeys name ((Dict.has_iff_mem_keys _ _).1 hh)
      have e1 := Dict.get?_of_mem hn hx
      have e2 := Dict.get?_of_mem hn harg
      rw [e1] at e2
      exact hx' v (Option.some.inj e2)
    unfold PyFun.accepts
    rw [Bool.and_eq_false_iff]
    left
    rw [List.all_eq_false]
    exact ⟨_, hreq, by simp [this]⟩
  obtain ⟨ps, hps⟩ := hidx
  unfold loopCompute
  apply M.bind_error
  rw [hps]
  simp only [M.mapList]
  apply M.bind_error
  unfold loopBody
  simp only
  rw [hnew, M.bind_ok (rfl : M.ofExcept (Except.ok _) w = (.ok _, w))]
  apply M.bind_error
  unfold PyFun.invoke
  rw [hno]
  rfl

end

/-! ### A concrete equation -/

/-- `lambda time, temp: time * temp`. -/
def exMul : PyFun Unit ℚ where
  params := [("time", false), ("temp", false)]
  call := fun args =>
    match args.get? "time", args.get? "temp" with
    | some x, some y => M.ofExcept (PyVal.bin (· * ·) x y)
    | _, _ => M.throw .typeError

/-- `exMul` on one sample. -/
def exMulG (args : Dict (PyVal ℚ)) : ℚ :=
  match args.get? "time", args.get? "temp" with
  | some x, some y => sampleVal x 0 0 0 * sampleVal y 0 0 0
  | _, _ => 0

theorem exMul_args {args : Dict (PyVal ℚ)} (h : exMul.accepts args = true) :
    (∃ x, args.get? "time" = some x) ∧ (∃ y, args.get? "temp" = some y) ∧
      ∀ k v, (k, v) ∈ args → k = "time" ∨ k = "temp" := by
  simp only [PyFun.accepts, exMul, List.all_cons, List.all_nil, Bool.and_true, Bool.false_or,
    Option.isSome_none, Bool.and_eq_true, List.any_cons, List.any_nil, Bool.or_false,
    List.all_eq_true, Bool.or_eq_true, beq_iff_eq] at h
  obtain ⟨⟨h1, h2⟩, h3⟩ := h
  refine ⟨Option.isSome_iff_exists.1 h1, Option.isSome_iff_exists.1 h2, ?_⟩
  intro k v hkv
  rcases h3 _ hkv with h | h
  · exact .inl h.symm
  · exact .inr h.symm

theorem sampleArgs_get? (args : Dict (PyVal ℚ)) (l c d : Nat) (k : String) :
    (sampleArgs args l c d).get? k = (args.get? k).map fun v => .scal (sampleVal v l c d) := by
  induction args with
  | nil => rfl
  | cons kv rest ih =>
    obtain ⟨key, v⟩ := kv
    simp only [sampleArgs, List.map_cons, Dict.get?_cons] at *
    split
    · rfl
    · exact ih

theorem exMul_elementwise : Elementwise exMul exMulG where
  onNumbers := by
    intro args hn hnum hacc w
    obtain ⟨⟨x, hx⟩, ⟨y, hy⟩, _⟩ := exMul_args hacc
    obtain ⟨x', rfl⟩ := hnum _ _ (Dict.mem_of_get? hx)
    obtain ⟨y', rfl⟩ := hnum _ _ (Dict.mem_of_get? hy)
    simp only [exMul, exMulG, hx, hy]
    rfl
  onArrays := by
    intro args L C D hn hs harr hacc w
    obtain ⟨⟨x, hx⟩, ⟨y, hy⟩, hkeys⟩ := exMul_args hacc
    have hgx : ∀ l c d, exMulG (sampleArgs args l c d) = sampleVal x l c d * sampleVal y l c d := by
      intro l c d
      simp only [exMulG, sampleArgs_get?, hx, hy, Option.map_some]
      rfl
    have hone : (∃ a, x = .arr a) ∨ (∃ a, y = .arr a) := by
      obtain ⟨k, a, ha⟩ := harr
      have := Dict.get?_of_mem hn ha
      rcases hkeys _ _ ha with rfl | rfl
      · rw [hx] at this; cases this; exact .inl ⟨a, rfl⟩
      · rw [hy] at this; cases this; exact .inr ⟨a, rfl⟩
    simp only [exMul, hx, hy, hgx]
    cases x with
    | arr a =>
      have da := hs _ _ (Dict.mem_of_get? hx)
      cases y with
      | arr b =>
        have db := hs _ _ (Dict.mem_of_get? hy)
        refine ⟨_, ?_, Arr3.ofFn_hasDims L C D fun l c d => a.at' l c d * b.at' l c d, ?_⟩
        · simp only [PyVal.bin]
          rw [Arr3.bcast2_same _ a b da db]
          rfl
        · intro l hl c hc d hd
          rw [Arr3.at_ofFn _ hl hc hd]; rfl
      | scal v =>
        refine ⟨a.map (· * v), rfl, da, ?_⟩
        intro l hl c hc d hd
        obtain ⟨rfl, rfl, rfl⟩ := da
        rw [Arr3.at_map _ a hl hc hd]; rfl
      | npscal v =>
        refine ⟨a.map (· * v), rfl, da, ?_⟩
        intro l hl c hc d hd
        obtain ⟨rfl, rfl, rfl⟩ := da
        rw [Arr3.at_map _ a hl hc hd]; rfl
    | scal v =>
      rcases hone with ⟨a, ha⟩ | ⟨b, rfl⟩
      · cases ha
      · have db := hs _ _ (Dict.mem_of_get? hy)
        refine ⟨b.map (v * ·), rfl, db, ?_⟩
        intro l hl c hc d hd
        obtain ⟨rfl, rfl, rfl⟩ := db
        rw [Arr3.at_map _ b hl hc hd]; rfl
    | npscal v =>
      rcases hone with ⟨a, ha⟩ | ⟨b, rfl⟩
      · cases ha
      · have db := hs _ _ (Dict.mem_of_get? hy)
        refine ⟨b.map (v * ·), rfl, db, ?_⟩
        intro l hl c hc d hd
        obtain ⟨rfl, rfl, rfl⟩ := db
        rw [Arr3.at_map _ b hl hc hd]; rfl

/-- A `(1, 2, 2)` array. -/
def exTimes : Arr3 ℚ := ⟨1, 2, 2, [1, 2, 3, 4], by decide⟩

/-- The hypotheses of `C35_fallback_equals_array_partial` are met by an equation with an array and a
scalar argument. -/
example : ∃ r, exMul.invoke [("time", .arr exTimes), ("temp", .scal 10)] () = (.ok (.arr r), ()) ∧
    loopCompute exMul [("time", .arr exTimes), ("temp", .scal 10)] 1 2 2 () = (.ok r, ()) ∧
    r.at' 0 1 0 = 30 := by
  obtain ⟨r, h1, h2, _, h4⟩ := C35_fallback_equals_array_partial exMul exMulG exMul_elementwise
    [("time", .arr exTimes), ("temp", .scal 10)] 1 2 2 (by decide)
    (by intro k a h; simp at h; obtain ⟨_, rfl⟩ := h; exact ⟨rfl, rfl, rfl⟩)
    (by intro k v h; simp at h) ⟨"time", exTimes, by simp⟩ (by decide) ()
  refine ⟨r, h1, h2, ?_⟩
  rw [h4 0 (by decide) 1 (by decide) 0 (by decide)]
  decide +kernel

set_option synthInstance.maxSize 1000 in
/-- An observed fallback run (hypothesis of `C35_fallback_order_partial`). -/
example : ∃ r calls, loopCompute (observed exMul) [("time", .arr exTimes), ("temp", .scal 10)] 1 2 2
    ((), []) = (.ok r, ((), calls)) ∧ calls.length = 4 ∧
    calls[2]? = some ([("time", .scal 3), ("temp", .scal 10)], .scal 30) := by
  refine ⟨⟨1, 2, 2, [10, 20, 30, 40], by decide⟩,
    [([("time", .scal 1), ("temp", .scal 10)], .scal 10),
     ([("time", .scal 2), ("temp", .scal 10)], .scal 20),
     ([("time", .scal 3), ("temp", .scal 10)], .scal 30),
     ([("time", .scal 4), ("temp", .scal 10)], .scal 40)], ?_, ?_, ?_⟩ <;> decide +kernel

/-- The dropped argument: `temp` given as a numpy integer. -/
example : loopCompute exMul [("time", .arr exTimes), ("temp", .npscal 10)] 1 2 2 () =
    (.error .typeError, ()) :=
  C35_other_scalar_dropped_violated exMul "temp" (by simp [exMul])
    [("time", .arr exTimes), ("temp", .npscal 10)] 10 (by decide) (by simp) 1 2 2
    (by decide) (by decide) (by decide)
    (by intro k a h; simp at h; obtain ⟨_, rfl⟩ := h; exact ⟨rfl, rfl, rfl⟩) ()

end Gerabaldi.Props
