import Verif.Model.CookbookMech
import Verif.Spec.Rows
import Verif.Spec.Total
import Verif.Lemmas.Mech
import Verif.Props.Samples
import Verif.Props.Total

/-!
# Numpy expressions act elementwise
-/

set_option linter.unusedSectionVars false

namespace Gerabaldi

open Gerabaldi.Spec Gerabaldi.Props

section
variable {W V : Type} [Inhabited V]

/-- The value of the expression for one sample. -/
def NumExpr.val (args : Dict (PyVal V)) : NumExpr V → V
  | .arg a => match args.get? a with
    | some v => sampleVal v 0 0 0
    | none => default
  | .lit v => v
  | .un f e => f (e.val args)
  | .bin f e₁ e₂ => f (e₁.val args) (e₂.val args)

/-- The arguments it uses. -/
def NumExpr.uses : NumExpr V → List String
  | .arg a => [a]
  | .lit _ => []
  | .un _ e => e.uses
  | .bin _ e₁ e₂ => e₁.uses ++ e₂.uses

/-- A value that is a number, or an array with the given entries. -/
def ValIs (v : PyVal V) (L C D : Nat) (g : Nat → Nat → Nat → V) : Prop :=
  match v with
  | .arr a => a.HasDims L C D ∧ ∀ l < L, ∀ c < C, ∀ d < D, a.at' l c d = g l c d
  | .scal x => ∀ l c d, g l c d = x
  | .npscal x => ∀ l c d, g l c d = x

theorem ValIs.un {v : PyVal V} {L C D : Nat} {g : Nat → Nat → Nat → V} (h : ValIs v L C D g) (f : V → V) :
    ValIs (v.un f) L C D fun l c d => f (g l c d) := by
  cases v with
  | scal x => exact fun l c d => congrArg f (h l c d)
  | npscal x => exact fun l c d => congrArg f (h l c d)
  | arr a =>
    obtain ⟨⟨rfl, rfl, rfl⟩, h2⟩ := h
    refine ⟨⟨rfl, rfl, rfl⟩, fun l hl c hc d hd => ?_⟩
    rw [Arr3.at_map _ _ hl hc hd, h2 l hl c hc d hd]

theorem ValIs.bin {v₁ v₂ : PyVal V} {L C D : Nat} {g₁ g₂ : Nat → Nat → Nat → V} (h₁ : ValIs v₁ L C D g₁)
    (h₂ : ValIs v₂ L C D g₂) (f : V → V → V) :
    ∃ v, PyVal.bin f v₁ v₂ = .ok v ∧ ValIs v L C D (fun l c d => f (g₁ l c d) (g₂ l c d)) ∧
      ((∃ a, v₁ = .arr a) ∨ (∃ a, v₂ = .arr a) ↔ ∃ a, v = .arr a) ∧ ∀ x, v ≠ .npscal x := by
  cases v₁ with
  | arr a =>
    have ha := h₁
    obtain ⟨⟨a1, a2, a3⟩, h3⟩ := h₁
    cases v₂ with
    | arr b =>
      obtain ⟨hb, h4⟩ := h₂
      refine ⟨.arr _, by rw [PyVal.bin, Arr3.bcast2_same f a b ⟨a1, a2, a3⟩ hb], ⟨⟨rfl, rfl, rfl⟩, ?_⟩,
        by simp⟩
      intro l hl c hc d hd
      rw [Arr3.at_ofFn _ hl hc hd, h3 l hl c hc d hd, h4 l hl c hc d hd]
    | scal y =>
      refine ⟨_, rfl, ⟨⟨a1, a2, a3⟩, fun l hl c hc d hd => ?_⟩, by simp⟩
      rw [Arr3.at_map _ _ (a1 ▸ hl) (a2 ▸ hc) (a3 ▸ hd), h3 l hl c hc d hd]
      exact congrArg _ (h₂ l c d).symm
    | npscal y =>
      refine ⟨_, rfl, ⟨⟨a1, a2, a3⟩, fun l hl c hc d hd => ?_⟩, by simp⟩
      rw [Arr3.at_map _ _ (a1 ▸ hl) (a2 ▸ hc) (a3 ▸ hd), h3 l hl c hc d hd]
      exact congrArg _ (h₂ l c d).symm
  | scal x =>
    cases v₂ with
    | arr b =>
      obtain ⟨⟨b1, b2, b3⟩, h4⟩ := h₂
      refine ⟨_, rfl, ⟨⟨b1, b2, b3⟩, fun l hl c hc d hd => ?_⟩, by simp⟩
      rw [Arr3.at_map _ _ (b1 ▸ hl) (b2 ▸ hc) (b3 ▸ hd), h4 l hl c hc d hd]
      exact congrArg (f · _) (h₁ l c d).symm
    | scal y => exact ⟨_, rfl, fun l c d => congrArg₂ f (h₁ l c d) (h₂ l c d), by simp⟩
    | npscal y => exact ⟨_, rfl, fun l c d => congrArg₂ f (h₁ l c d) (h₂ l c d), by simp⟩
  | npscal x =>
    cases v₂ with
    | arr b =>
      obtain ⟨⟨b1, b2, b3⟩, h4⟩ := h₂
      refine ⟨_, rfl, ⟨⟨b1, b2, b3⟩, fun l hl c hc d hd => ?_⟩, by simp⟩
      rw [Arr3.at_map _ _ (b1 ▸ hl) (b2 ▸ hc) (b3 ▸ hd), h4 l hl c hc d hd]
      exact congrArg (f · _) (h₁ l c d).symm
    | scal y => exact ⟨_, rfl, fun l c d => congrArg₂ f (h₁ l c d) (h₂ l c d), by simp⟩
    | npscal y => exact ⟨_, rfl, fun l c d => congrArg₂ f (h₁ l c d) (h₂ l c d), by simp⟩

theorem sampleArgs_get? (args : Dict (PyVal V)) (l c d : Nat) (k : String) :
    (sampleArgs args l c d).get? k = (args.get? k).map fun v => PyVal.scal (sampleVal v l c d) := by
  unfold sampleArgs
  rw [Dict.get?_map (fun _ v => PyVal.scal (sampleVal v l c d))]

/-- Evaluation gives a value that is the expression's value for each sample; an array if and only if one
of the used arguments is one. -/
theorem NumExpr.eval_is (e : NumExpr V) {args : Dict (PyVal V)} {L C D : Nat}
    (hu : uniformShape args L C D) (hp : ∀ k ∈ e.uses, ∃ v, args.get? k = some v) :
    ∃ v, e.eval args = .ok v ∧ ValIs v L C D (fun l c d => e.val (sampleArgs args l c d)) ∧
      ((∃ k ∈ e.uses, ∃ a, args.get? k = some (.arr a)) ↔ ∃ a, v = .arr a) ∧
      ∀ x, v = .npscal x → ∃ k, args.get? k = some (.npscal x) := by
  induction e with
  | arg a =>
    obtain ⟨v, hv⟩ := hp a (by simp [NumExpr.uses])
    refine ⟨v, Dict.getE_eq_ok.2 hv, ?_, by simp [NumExpr.uses, hv], fun x hx => ⟨a, hx ▸ hv⟩⟩
    have key : ∀ l c d, (NumExpr.arg a).val (sampleArgs args l c d) = sampleVal v l c d := by
      intro l c d
      simp only [NumExpr.val, sampleArgs_get?, hv, Option.map_some]
      rfl
    cases v with
    | scal x => exact fun l c d => key l c d
    | npscal x => exact fun l c d => key l c d
    | arr b => exact ⟨hu _ _ (Dict.mem_of_get? hv), fun l _ c _ d _ => (key l c d).symm⟩
  | lit v => exact ⟨_, rfl, fun _ _ _ => rfl, by simp [NumExpr.uses], fun x hx => (nomatch hx)⟩
  | un f e ih =>
    obtain ⟨v, h1, h2, h3, -⟩ := ih hp
    refine ⟨v.un f, by simp [NumExpr.eval, h1], h2.un f, ?_, fun x hx => by cases v <;> cases hx⟩
    rw [show (NumExpr.un f e).uses = e.uses from rfl, h3]
    cases v <;> simp [PyVal.un]
  | bin f e₁ e₂ ih₁ ih₂ =>
    obtain ⟨v₁, a1, a2, a3, -⟩ := ih₁ fun k hk => hp k (by simp [NumExpr.uses, hk])
    obtain ⟨v₂, b1, b2, b3, -⟩ := ih₂ fun k hk => hp k (by simp [NumExpr.uses, hk])
    obtain ⟨v, c1, c2, c3, c4⟩ := a2.bin b2 f
    refine ⟨v, by rw [NumExpr.eval, a1, b1]; exact c1, c2, ?_, fun x hx => absurd hx (c4 x)⟩
    rw [← c3, ← a3, ← b3]
    constructor
    · rintro ⟨k, hk, a, ha⟩
      rcases List.mem_append.1 hk with hk | hk
      · exact .inl ⟨k, hk, a, ha⟩
      · exact .inr ⟨k, hk, a, ha⟩
    · rintro (⟨k, hk, a, ha⟩ | ⟨k, hk, a, ha⟩)
      · exact ⟨k, List.mem_append.2 (.inl hk), a, ha⟩
      · exact ⟨k, List.mem_append.2 (.inr hk), a, ha⟩

end

variable {W V : Type} [PyNum V] [Rng W V]

/-- An equation that uses exactly its parameters. -/
def NumExpr.Uses (e : NumExpr V) (params : List String) : Prop := ∀ k, k ∈ e.uses ↔ k ∈ params

theorem fn_present {e : NumExpr V} {ps : List String} (he : e.Uses ps) {args : Dict (PyVal V)}
    (h : (e.fn ps : PyFun W V).accepts args = true) : ∀ k ∈ e.uses, ∃ v, args.get? k = some v := by
  intro k hk
  exact accepts_present h (by simpa [NumExpr.fn] using (he k).1 hk)

theorem fn_used {e : NumExpr V} {ps : List String} (he : e.Uses ps) {args : Dict (PyVal V)}
    (h : (e.fn ps : PyFun W V).accepts args = true) {k : String} {v : PyVal V}
    (hv : args.get? k = some v) : k ∈ e.uses := by
  have := accepts_mem h rfl hv
  exact (he k).2 (by simpa [NumExpr.fn, Function.comp_def] using this)

/-- Every numpy expression over its parameters acts elementwise. -/
theorem NumExpr.elementwise {e : NumExpr V} {ps : List String} (he : e.Uses ps) :
    Elementwise (e.fn ps : PyFun W V) (fun args => e.val args) where
  onNumbers := by
    intro args hn hs hacc w
    have hu : uniformShape args 1 1 1 := fun k a h => by obtain ⟨x, hx⟩ := hs k _ h; cases hx
    obtain ⟨v, h1, h2, h3, h4⟩ := e.eval_is hu (fn_present he hacc)
    have hargs : sampleArgs args 0 0 0 = args := by
      unfold sampleArgs
      conv_rhs => rw [← List.map_id args]
      refine List.map_congr_left fun kv hkv => ?_
      obtain ⟨x, hx⟩ := hs kv.1 kv.2 hkv
      refine Prod.ext rfl ?_
      simp only [hx, sampleVal, id]
    have hnarr : ¬ ∃ a, v = .arr a := by
      rw [← h3]
      rintro ⟨k, _, a, ha⟩
      obtain ⟨x, hx⟩ := hs _ _ (Dict.mem_of_get? ha)
      cases hx
    show M.ofExcept (e.eval args) w = _
    cases v with
    | arr a => exact absurd ⟨a, rfl⟩ hnarr
    | npscal x =>
      obtain ⟨k, hk⟩ := h4 x rfl
      obtain ⟨y, hy⟩ := hs _ _ (Dict.mem_of_get? hk)
      cases hy
    | scal x =>
      have : e.val (sampleArgs args 0 0 0) = x := h2 0 0 0
      rw [hargs] at this
      rw [h1, M.ofExcept_run, this]
  onArrays := by
    intro args L C D hn hu hex hacc w
    obtain ⟨v, h1, h2, h3, -⟩ := e.eval_is hu (fn_present he hacc)
    obtain ⟨k, a, hka⟩ := hex
    have hk := Dict.get?_of_mem hn hka
    obtain ⟨r, rfl⟩ := h3.1 ⟨k, fn_used he hacc hk, a, hk⟩
    refine ⟨r, ?_, h2.1, h2.2⟩
    show M.ofExcept (e.eval args) w = _
    rw [h1, M.ofExcept_run]

/-- It never raises, and keeps shapes. -/
theorem NumExpr.direct {e : NumExpr V} {ps : List String} (he : e.Uses ps) :
    Direct (e.fn ps : PyFun W V) := by
  intro args L C D w hu hacc
  obtain ⟨v, h1, -⟩ := e.eval_is hu (fn_present he hacc)
  refine ⟨v, w, ?_⟩
  show M.ofExcept (e.eval args) w = _
  rw [h1, M.ofExcept_run]

theorem NumExpr.shapes {e : NumExpr V} {ps : List String} (he : e.Uses ps) {N : Nat → Prop} {A} :
    ShapeSafe (e.fn ps : PyFun W V) N A := by
  intro args L C D w w' v _ _ hu h
  obtain ⟨h1, h2⟩ := invoke_ok h
  obtain ⟨v', g1, g2, g3, -⟩ := e.eval_is hu (fn_present he h1)
  have h3 := (M.ofExcept_eq_ok.1 h2).1
  rw [g1] at h3
  cases h3
  refine ⟨fun a ha => by subst ha; exact g2.1, ?_⟩
  rintro ⟨k, a, hk⟩
  exact g3.1 ⟨k, fn_used he h1 hk, a, hk⟩

end Gerabaldi
