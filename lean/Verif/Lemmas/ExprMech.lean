import Verif.Lemmas.NumExpr
import Verif.Lemmas.Mech
import Verif.Spec.Degrade

/-!
# Mechanisms whose equation is a numpy expression
-/

set_option linter.unusedSectionVars false

namespace Gerabaldi.Spec

/-- What a mechanism with arguments `params` is given: every argument other than the time is one of its
latent values or of its conditions, all arrays have one entry per sample, and nothing is called 'time'. -/
structure ExprInputs {V : Type} (params : List String) (cs lat : Dict (Arr3 V)) (L C D : Nat) : Prop where
  condDims : ∀ k a, cs.get? k = some a → a.HasDims L C D
  latDims : ∀ k a, lat.get? k = some a → a.HasDims L C D
  time : "time" ∈ params
  there : ∀ k ∈ params, k ≠ "time" → (∃ a, lat.get? k = some a) ∨ ∃ a, cs.get? k = some a
  noTime : cs.get? "time" = none ∧ lat.get? "time" = none

end Gerabaldi.Spec

namespace Gerabaldi

open Spec

section
variable {W V : Type} [PyNum V] [Rng W V]

theorem exprArgs {k : MechMdl W V} {e : NumExpr V} {params : List String}
    (hk : k.mdl.compute = e.fn params) {cs lat : Dict (Arr3 V)} {L C D : Nat}
    (h : ExprInputs params cs lat L C D) (times : Arr3 V) (p : String) :
    (k.args times cs lat).get? p =
      if p = "time" then some (.arr times)
      else if p ∈ params then ((lat.get? p).or (cs.get? p)).map .arr else none := by
  have hn : k.mdl.compute.argNames = params := by
    rw [hk]; simp [PyFun.argNames, NumExpr.fn, Function.comp_def]
  unfold MechMdl.args
  rw [fillArgs_get?, hn]
  by_cases hp : p = "time"
  · subst hp
    simp [h.time, lookup2, h.noTime.1, h.noTime.2, Dict.get?]
  · rw [if_neg hp]
    have h0 : Dict.get? [("time", PyVal.arr times)] p = none := by
      simp [Dict.get?, Ne.symm hp]
    rw [h0]
    by_cases hl : p ∈ params
    · rw [if_pos hl, if_pos hl]
      unfold lookup2
      cases lat.get? p <;> cases cs.get? p <;> simp
    · rw [if_neg hl, if_neg hl]

/-- A mechanism with a numpy expression works on each sample separately. -/
theorem exprSampleWise {k : MechMdl W V} {e : NumExpr V} {params : List String}
    (hk : k.mdl.compute = e.fn params) (he : e.Uses params) {cs lat : Dict (Arr3 V)} {L C D : Nat}
    (h : ExprInputs params cs lat L C D) : SampleWise k (fun args => e.val args) cs lat L C D where
  eqn := by rw [hk]; exact NumExpr.elementwise he
  condDims := h.condDims
  latDims := h.latDims
  acc := by
    intro times
    have key := exprArgs hk h times
    unfold PyFun.accepts
    rw [hk, Bool.and_eq_true]
    constructor
    · rw [List.all_eq_true]
      intro q hq
      simp only [NumExpr.fn, List.mem_map] at hq
      obtain ⟨p, hp, rfl⟩ := hq
      simp only [Bool.false_or, Dict.has]
      rw [key p]
      by_cases h1 : p = "time"
      · rw [if_pos h1]; rfl
      · rw [if_neg h1, if_pos hp]
        rcases h.there p hp h1 with ⟨a, ha⟩ | ⟨a, ha⟩
        · rw [ha]; rfl
        · rw [ha]; cases lat.get? p <;> rfl
    · have hnd : (k.args times cs lat).Nodup := fillArgs_nodup _ _ (by simp [Dict.Nodup, Dict.keys])
      rw [show (e.fn params : PyFun W V).kwName = none from rfl, Option.isSome_none,
        Bool.false_or, List.all_eq_true]
      rintro ⟨p, v⟩ hpv
      have hg := Dict.get?_of_mem hnd hpv
      rw [key p] at hg
      rw [List.any_eq_true]
      refine ⟨(p, false), ?_, by simp⟩
      simp only [NumExpr.fn, List.mem_map]
      refine ⟨p, ?_, rfl⟩
      by_contra hp
      by_cases h1 : p = "time"
      · exact hp (h1 ▸ h.time)
      · rw [if_neg h1, if_neg hp] at hg
        cases hg

/-- The value of an argument for one sample. -/
theorem exprArg_val {k : MechMdl W V} {e : NumExpr V} {params : List String}
    (hk : k.mdl.compute = e.fn params) {cs lat : Dict (Arr3 V)} {L C D : Nat}
    (h : ExprInputs params cs lat L C D) (t : V) {l c d : Nat} (hl : l < L) (hc : c < C) (hd : d < D)
    {p : String} (hp : p ∈ params) :
    (NumExpr.arg p).val (sampleArgs (k.args (Arr3.full L C D t) cs lat) l c d) =
      if p = "time" then t else match (lat.get? p).or (cs.get? p) with
        | some a => a.at' l c d
        | none => default := by
  simp only [NumExpr.val, sampleArgs_get?, exprArgs hk h, if_pos hp]
  by_cases h1 : p = "time"
  · simp only [if_pos h1, Option.map_some, sampleVal]
    exact Arr3.at_full _ hl hc hd
  · simp only [if_neg h1]
    cases (lat.get? p).or (cs.get? p) with
    | none => rfl
    | some a => rfl

end

end Gerabaldi
