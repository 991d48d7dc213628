import Verif.Lemmas.LoopEqn
import Verif.Model.Demos
import Verif.Props.River
import Verif.Spec.Oxide

/-!
# C66: the simulation of `demos/vts_paper_tddb_model_sensitivity.py`
-/

namespace Gerabaldi.Props

open Gerabaldi Gerabaldi.Spec

section oxide
variable {W V : Type} [PyNum V]
open PyArith

theorem breakdown_iff (p : String → Bool) : conductive (defectNames.map p) = true ↔
    Breakdown fun row col => p (defectName row col) = true := by
  have e : ∀ row < 3, ∀ col < 4, defectName row col = defectNames.getD (4 * row + col) "" := by decide
  constructor
  · intro h
    obtain ⟨i, hi, hb⟩ := List.any_eq_true.1 h
    have hi : i < 4 := List.mem_range.1 hi
    refine ⟨i, hi, fun row hr => ?_⟩
    show p (defectName row i) = true
    rw [e row hr i hi]
    interval_cases i <;> interval_cases row <;>
      simp_all [defectNames]
  · rintro ⟨i, hi, hb⟩
    refine List.any_eq_true.2 ⟨i, List.mem_range.2 hi, ?_⟩
    have h0 : p (defectName 0 i) = true := hb 0 (by norm_num)
    have h1 : p (defectName 1 i) = true := hb 1 (by norm_num)
    have h2 : p (defectName 2 i) = true := hb 2 (by norm_num)
    rw [e 0 (by norm_num) i hi] at h0
    rw [e 1 (by norm_num) i hi] at h1
    rw [e 2 (by norm_num) i hi] at h2
    interval_cases i <;> simp_all [defectNames]

omit [PyNum V] in
theorem mapM_except {α β : Type} {f : α → Except Err β} {g : α → β} {xs : List α}
    (h : ∀ x ∈ xs, f x = .ok (g x)) : xs.mapM f = .ok (xs.map g) := by
  induction xs with
  | nil => rfl
  | cons x xs ih =>
    rw [List.mapM_cons, h x List.mem_cons_self, ih fun x hx => h x (List.mem_cons_of_mem _ hx)]
    rfl

/-- `oxide_failed` for one sample. -/
theorem oxideVal_numbers {args : Dict (PyVal V)} {env : String → V}
    (h : ∀ k ∈ "init" :: "threshold" :: defectNames, args.get? k = some (.scal (env k))) :
    oxideVal args = .ok (.scal (oxideState env)) := by
  have h1 : args.getE "init" = .ok (.scal (env "init")) := Dict.getE_eq_ok.2 (h _ (by simp))
  have h2 : args.getE "threshold" = .ok (.scal (env "threshold")) := Dict.getE_eq_ok.2 (h _ (by simp))
  have h3 : (defectNames.mapM fun k => do
      let x ← args.getE k
      onlyElem x) = .ok (defectNames.map env) := mapM_except fun k hk => by
    have : args.getE k = .ok (.scal (env k)) := Dict.getE_eq_ok.2 (h k (by simp [hk]))
    rw [this]
    rfl
  unfold oxideVal
  rw [h1, h2, h3]
  show (if conductive ((defectNames.map env).map fun x => lt (env "threshold") x) = true then _ else _) = _
  rw [List.map_map]
  unfold oxideState
  by_cases hb : conductive (defectNames.map ((fun x => lt (env "threshold") x) ∘ env)) = true
  · rw [if_pos hb, if_pos (.inl ((breakdown_iff _).1 hb))]
    rfl
  · rw [if_neg hb]
    have hnb : ¬ Breakdown fun row col => lt (env "threshold") (env (defectName row col)) = true := fun h => hb ((breakdown_iff ((fun x => lt (env "threshold") x) ∘ env)).2 h)
    show Except.ok (PyVal.scal _) = _
    congr 2
    by_cases hi : eq (env "init") (ofRat 0) = true
    · rw [if_pos hi, if_pos (.inr hi)]
    · rw [if_neg hi, if_neg (not_or.2 ⟨hnb, hi⟩)]

/-- An outcome of the equations of the demonstration: a value, or `ValueError`. -/
def OkOrValue {α : Type} (x : Except Err α) : Prop := (∃ y, x = .ok y) ∨ x = .error .valueError

omit [PyNum V] in
theorem onlyElem_outcome (v : PyVal V) : OkOrValue (onlyElem v) := by
  cases v with
  | scal x => exact .inl ⟨x, rfl⟩
  | npscal x => exact .inl ⟨x, rfl⟩
  | arr a =>
    obtain ⟨nl, nc, nd, data, wf⟩ := a
    match data with
    | [] => exact .inr rfl
    | [x] => exact .inl ⟨x, rfl⟩
    | _ :: _ :: _ => exact .inr rfl

omit [PyNum V] in
theorem onlyElem_arr {a : Arr3 V} {L C D : Nat} (ha : a.HasDims L C D) (h : L * C * D ≠ 1) :
    onlyElem (.arr a) = .error .valueError := by
  have hl : a.data.length ≠ 1 := by
    rw [a.wf, ha.1, ha.2.1, ha.2.2]
    exact h
  obtain ⟨nl, nc, nd, data, wf⟩ := a
  match data with
  | [] => rfl
  | [x] => exact absurd rfl hl
  | _ :: _ :: _ => rfl

omit [PyNum V] in
theorem mapM_outcome {α β : Type} {f : α → Except Err β} {xs : List α} (h : ∀ x ∈ xs, OkOrValue (f x)) :
    OkOrValue (xs.mapM f) := by
  induction xs with
  | nil => exact .inl ⟨[], rfl⟩
  | cons x xs ih =>
    rw [List.mapM_cons]
    rcases h x List.mem_cons_self with ⟨y, hy⟩ | hy
    · rcases ih fun x hx => h x (List.mem_cons_of_mem _ hx) with ⟨ys, hys⟩ | hys
      · exact .inl ⟨y :: ys, by rw [hy, hys]; rfl⟩
      · exact .inr (by rw [hy, hys]; rfl)
    · exact .inr (by rw [hy]; rfl)

/-- The parts of `oxide_failed`. -/
theorem oxideVal_eq {args : Dict (PyVal V)} {i t : PyVal V} (hi : args.get? "init" = some i)
    (ht : args.get? "threshold" = some t) : oxideVal args = (do
      let ds ← defectNames.mapM fun k => do
        let x ← args.getE k
        onlyElem x
      let t ← onlyElem t
      if conductive (ds.map fun x => lt t x) then pure (.scal (ofRat 0)) else do
        let i ← onlyElem i
        pure (.scal (if eq i (ofRat 0) then ofRat 0 else ofRat 1))) := by
  unfold oxideVal
  rw [Dict.getE_eq_ok.2 hi, Dict.getE_eq_ok.2 ht]
  rfl

omit [PyNum V] in
theorem oxide_defects {args : Dict (PyVal V)} (h : ∀ k ∈ defectNames, ∃ v, args.get? k = some v) :
    OkOrValue (defectNames.mapM fun k => do
      let x ← args.getE k
      onlyElem x) :=
  mapM_outcome fun k hk => by
    obtain ⟨v, hv⟩ := h k hk
    rw [Dict.getE_eq_ok.2 hv]
    exact onlyElem_outcome v

theorem oxideVal_outcome {args : Dict (PyVal V)} (h : ∀ k ∈ oxideParams, ∃ v, args.get? k = some v) :
    (∃ x, oxideVal args = .ok (.scal x)) ∨ oxideVal args = .error .valueError := by
  obtain ⟨i, hi⟩ := h "init" (by simp [oxideParams])
  obtain ⟨t, ht⟩ := h "threshold" (by simp [oxideParams])
  rw [oxideVal_eq hi ht]
  rcases oxide_defects (args := args) fun k hk => h k (by simp [oxideParams, hk]) with ⟨ds, hds⟩ | hds
  · rw [hds]
    rcases onlyElem_outcome t with ⟨x, hx⟩ | hx
    · rw [hx]
      by_cases hb : conductive (ds.map fun y => lt x y) = true
      · exact .inl ⟨ofRat 0, if_pos hb⟩
      · rcases onlyElem_outcome i with ⟨y, hy⟩ | hy
        · exact .inl ⟨_, (if_neg hb).trans (by rw [hy]; rfl)⟩
        · exact .inr ((if_neg hb).trans (by rw [hy]; rfl))
    · rw [hx]
      exact .inr rfl
  · rw [hds]
    exact .inr rfl

/-- Whole arrays of thresholds raise `ValueError`. -/
theorem oxideVal_arrays {args : Dict (PyVal V)} (h : ∀ k ∈ oxideParams, ∃ v, args.get? k = some v)
    {a : Arr3 V} {L C D : Nat} (ha : args.get? "threshold" = some (.arr a)) (hd : a.HasDims L C D)
    (hn : L * C * D ≠ 1) : oxideVal args = .error .valueError := by
  obtain ⟨i, hi⟩ := h "init" (by simp [oxideParams])
  rw [oxideVal_eq hi ha]
  rcases oxide_defects (args := args) fun k hk => h k (by simp [oxideParams, hk]) with ⟨ds, hds⟩ | hds
  · rw [hds, onlyElem_arr hd hn]
    rfl
  · rw [hds]
    rfl

theorem oxide_present {args : Dict (PyVal V)} (h : (oxideFn : PyFun W V).accepts args = true) :
    ∀ k ∈ oxideParams, ∃ v, args.get? k = some v := fun k hk =>
  accepts_present h (List.mem_map.2 ⟨k, hk, rfl⟩)

/-- What the names stand for at one sample. -/
def numberOf (args : Dict (PyVal V)) (k : String) : V :=
  match args.get? k with
  | some v => sampleVal v 0 0 0
  | none => default

theorem oxideFn_numbers {args : Dict (PyVal V)} (hn : Numbers args)
    (h : (oxideFn : PyFun W V).accepts args = true) (w : W) :
    (oxideFn : PyFun W V).call args w = (.ok (.scal (oxideState (numberOf args))), w) := by
  show M.ofExcept (oxideVal args) w = _
  rw [oxideVal_numbers (env := numberOf args)]
  · rfl
  · intro k hk
    obtain ⟨v, hv⟩ := oxide_present h k (by
      simp only [oxideParams, List.mem_cons] at hk ⊢
      tauto)
    obtain ⟨x, rfl⟩ := hn k v (Dict.mem_of_get? hv)
    unfold numberOf
    rw [hv]
    rfl

theorem oxide_works : EqnWorks (oxideFn : PyFun W V) := by
  intro args L C D w hu hp hacc
  rcases oxideVal_outcome (oxide_present hacc) with ⟨x, hx⟩ | hx
  · exact .inl ⟨.scal x, w, by show M.ofExcept (oxideVal args) w = _; rw [hx]; rfl⟩
  · obtain ⟨a, w', h⟩ := loopCompute_works hu hp hacc (fun args w hn ha => ⟨_, w, oxideFn_numbers hn ha w⟩) w
    exact .inr ⟨w, a, w', by show M.ofExcept (oxideVal args) w = _; rw [hx]; rfl, h⟩

variable [Rng W V]

theorem oxide_shapes {d : DegPrmMdl W V} (hd : "threshold" ∉ d.mechs.keys) :
    ShapeSafe (oxideFn : PyFun W V) (· ≠ 1) (OwnArrays d) := by
  intro args L C D w w' v hN hA hu h
  obtain ⟨h1, h2⟩ := invoke_ok h
  obtain ⟨t, ht⟩ := oxide_present h1 "threshold" (by simp [oxideParams])
  obtain ⟨a, rfl⟩ := hA _ _ ht (by decide) hd
  have := (M.ofExcept_eq_ok.1 h2).1
  rw [oxideVal_arrays (oxide_present h1) ht (hu _ _ (Dict.mem_of_get? ht)) hN] at this
  cases this

/-- The equation of the demonstration computes the state of each oxide from the values of that oxide. -/
theorem oxide_equation {m : DegPrmMdl W V} (hm : m.mdl.compute = oxideFn) (ht : "threshold" ∉ m.mechs.keys) :
    HasEquation m oxideState (· ≠ 1) loopable where
  arr _ := trivial
  scal _ := trivial
  value := by
    intro args L C n w w' v hN hnd hu harr hS hA h
    rw [hm] at h
    have hacc : (oxideFn : PyFun W V).accepts args = true := by
      by_contra hn
      have : (oxideFn : PyFun W V).invoke args w = (.error .typeError, w) := by
        unfold PyFun.invoke
        rw [if_neg hn]
        rfl
      rw [computeOrLoop_typeError this] at h
      cases h
    have hp : plainScalars args := fun k v hk => hS k _ hk
    rcases M.catchValueError_ok h with h | ⟨w1, _, h⟩
    · obtain ⟨a, rfl⟩ := (oxide_shapes ht args L C n w w' v hN hA hu h).2 harr
      have h2 := (M.ofExcept_eq_ok.1 (invoke_ok h).2).1
      rcases oxideVal_outcome (oxide_present hacc) with ⟨x, hx⟩ | hx <;> rw [hx] at h2 <;> cases h2
    · obtain ⟨a, h1, rfl⟩ := M.bind_pure_ok.1 h
      refine ⟨a, rfl, (loopCompute_ok_inv h1).1, fun l hl c hc d hd env henv => ?_⟩
      obtain ⟨v, w2, w3, h2, h3⟩ := loopCompute_sample hu hp h1 hl hc hd
      have hacc' := (invoke_ok h2).1
      have h4 := (invoke_ok h2).2
      have hv : v = .scal (oxideState env) := by
        have := (M.ofExcept_eq_ok.1 h4).1
        rw [oxideVal_numbers (env := env)] at this
        · cases this
          rfl
        · intro k hk
          obtain ⟨u, hu⟩ := oxide_present hacc k (by
            simp only [oxideParams, List.mem_cons] at hk ⊢
            tauto)
          rw [Gerabaldi.sampleArgs_get?, hu, Option.map_some, henv k u hu]
      subst hv
      rcases h3 with h3 | h3
      · exact (PyVal.scal.inj h3).symm
      · cases h3

end oxide

end Gerabaldi.Props

namespace Gerabaldi.Props

open Gerabaldi Gerabaldi.Spec

section defect
variable {W V : Type} [PyNum V] [PyTrans V] [Rng W V]
open PyArith

/-- The random number of a defect. -/
def defectVar : RVar V := ⟨20, .uniform (ofRat 0) (ofRat 1), none⟩

theorem defectExpr_uses : (defectExpr : NumExpr V).Uses defectParams := by
  intro k
  simp only [defectExpr, NumExpr.uses, defectParams, List.mem_append, List.mem_cons, List.not_mem_nil,
    or_false, or_assoc]
  tauto

theorem defect_present {args : Dict (PyVal V)} (h : (defectFn : PyFun W V).accepts args = true) :
    ∀ k ∈ (defectExpr : NumExpr V).uses, ∃ v, args.get? k = some v := fun k hk =>
  accepts_present h (List.mem_map.2 ⟨k, (defectExpr_uses k).1 hk, rfl⟩)

theorem defectFn_call {args : Dict (PyVal V)} {v : PyVal V} (hv : defectExpr.eval args = .ok v) {u : V}
    {w w' : W} (hu : defectVar.sample 1 w = (.ok [u], w')) :
    (defectFn : PyFun W V).call args w = (defectBranch [u] v, w') := by
  show M.bind (M.ofExcept (defectExpr.eval args)) _ w = _
  rw [hv]
  exact M.bind_ok hu

/-- The value of a defect is 0 or 1, whatever the arguments. -/
theorem defectFn_bit {args : Dict (PyVal V)} {w w' : W} {v : PyVal V}
    (h : (defectFn : PyFun W V).call args w = (.ok v, w')) : v = .scal (ofRat 0) ∨ v = .scal (ofRat 1) := by
  obtain ⟨p, w1, h1, h2⟩ := M.bind_eq_ok.1 h
  obtain ⟨us, w2, h3, h4⟩ := M.bind_eq_ok.1 h2
  have h5 := (M.ofExcept_eq_ok.1 h4).1
  unfold defectBranch at h5
  split at h5
  · split at h5
    · cases h5
      split
      · exact .inr rfl
      · exact .inl rfl
    · cases h5
  · cases h5

theorem defect_works [LawfulRng W V] (hd : DrawsWork W (defectVar : RVar V)) :
    EqnWorks (defectFn : PyFun W V) := by
  have hdraw : ∀ w : W, ∃ u w', (defectVar : RVar V).sample 1 w = (.ok [u], w') := by
    intro w
    obtain ⟨us, w', h⟩ := hd 1 w
    have hl := LawfulRng.length (show Rng.draw _ _ _ 1 w = _ from h)
    match us, hl with
    | [u], _ => exact ⟨u, w', h⟩
  intro args L C D w hu hp hacc
  obtain ⟨v, h1, -⟩ := (defectExpr : NumExpr V).eval_is hu (defect_present hacc)
  obtain ⟨u, w', h2⟩ := hdraw w
  rw [defectFn_call h1 h2]
  rcases onlyElem_outcome v with ⟨x, hx⟩ | hx
  · exact .inl ⟨_, w', by unfold defectBranch; rw [hx]⟩
  · obtain ⟨a, w2, h⟩ := loopCompute_works (W := W) hu hp hacc (fun args w hn ha => by
      obtain ⟨v, h1, h3, h4, h5⟩ := (defectExpr : NumExpr V).eval_is (args := args) (L := 1) (C := 1) (D := 1)
        (fun k a hk => by obtain ⟨x, hx⟩ := hn k _ hk; cases hx) (defect_present ha)
      obtain ⟨u, w', h2⟩ := hdraw w
      rw [defectFn_call h1 h2]
      cases v with
      | arr a =>
        obtain ⟨k, _, b, hb⟩ := h4.2 ⟨a, rfl⟩
        obtain ⟨x, hx⟩ := hn _ _ (Dict.mem_of_get? hb)
        cases hx
      | scal x => exact ⟨_, w', rfl⟩
      | npscal x => exact ⟨_, w', rfl⟩) w'
    exact .inr ⟨w', a, w2, by unfold defectBranch; rw [hx], h⟩

theorem defect_shapes {A : Dict (PyVal V) → Prop} : ShapeSafe (defectFn : PyFun W V) (· ≠ 1) A := by
  intro args L C D w w' v hN _ hu h
  obtain ⟨h1, h2⟩ := invoke_ok h
  refine ⟨fun a ha => ?_, ?_⟩
  · subst ha
    rcases defectFn_bit h2 with h | h <;> cases h
  · rintro ⟨k, b, hk⟩
    have hmem := accepts_mem h1 rfl hk
    have hk' : k ∈ (defectExpr : NumExpr V).uses := (defectExpr_uses k).2 (by
      simpa [defectFn, Function.comp_def] using hmem)
    obtain ⟨p, g1, g2, g3, -⟩ := (defectExpr : NumExpr V).eval_is hu (defect_present h1)
    obtain ⟨a, rfl⟩ := g3.1 ⟨k, hk', b, hk⟩
    obtain ⟨p, w1, h3, h4⟩ := M.bind_eq_ok.1 h2
    obtain ⟨h6, rfl⟩ := M.ofExcept_eq_ok.1 h3
    cases g1.symm.trans h6
    obtain ⟨us, w2, -, h5⟩ := M.bind_eq_ok.1 h4
    have h5 := (M.ofExcept_eq_ok.1 h5).1
    unfold defectBranch at h5
    rw [onlyElem_arr g2.1 hN] at h5
    split at h5 <;> cases h5

end defect

end Gerabaldi.Props
