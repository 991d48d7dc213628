import Verif.Model.CbiModel
import Verif.Lemmas.Shape
import Verif.Spec.ExampleDevice

/-!
# C58: exporting a model to an inference framework
-/

namespace Gerabaldi.Props

open Gerabaldi

section
variable {W V : Type} [PyArith V]

theorem exportLatents_ok {target : String} {vars vars' : Dict (LatentVar V)} {vals : Dict (CbiArg V)}
    (h : exportLatents target vars = (.ok vals, vars')) :
    vals.keys = vars.keys ∧ ∀ k lv, vars.get? k = some lv →
      ∃ x, (lv.cbiExport target).1 = .ok x ∧ vals.get? k = some (.latent x) := by
  induction vars generalizing vals vars' with
  | nil =>
    cases h
    exact ⟨rfl, fun k lv h => by cases h⟩
  | cons kv rest ih =>
    obtain ⟨k0, lv0⟩ := kv
    unfold exportLatents at h
    split at h
    · cases h
    · rename_i x lv' hx
      split at h
      · cases h
      · rename_i xs rest' hr
        cases h
        obtain ⟨h1, h2⟩ := ih hr
        refine ⟨congrArg (k0 :: ·) h1, fun k lv hk => ?_⟩
        rw [Dict.get?_cons] at hk ⊢
        split at hk
        · rename_i hkk
          cases hk
          rw [if_pos hkk]
          exact ⟨x, by rw [hx], rfl⟩
        · rename_i hkk
          rw [if_neg hkk]
          exact h2 k lv hk

omit [PyArith V] in
theorem addObserved_get? {name : Option String} {obs : Dict (PyVal V)} (hnd : obs.Nodup)
    {vals : Dict (CbiArg V)} (k : String) :
    (addObserved name obs vals).get? k =
      if name = some k then vals.get? k
      else match obs.get? k with
        | some v => some (.data v)
        | none => vals.get? k := by
  unfold addObserved
  induction obs generalizing vals with
  | nil => simp
  | cons kv rest ih =>
    obtain ⟨k0, v0⟩ := kv
    obtain ⟨hk, hnd'⟩ := List.nodup_cons.1 hnd
    rw [List.foldl_cons, ih hnd', Dict.get?_cons]
    by_cases hn : name = some k
    · rw [if_pos hn, if_pos hn]
      by_cases h0 : name = some k0
      · simp only [h0, if_true]
      · simp only [if_neg h0]
        rw [Dict.get?_set_ne]
        rintro rfl
        exact h0 hn
    · rw [if_neg hn, if_neg hn]
      by_cases h0 : k0 = k
      · subst h0
        simp only [if_neg hn, if_true]
        have : Dict.get? rest k0 = none := (Dict.get?_eq_none_iff _ _).2 hk
        rw [this, Dict.get?_set_self]
      · simp only [if_neg h0]
        split
        · rfl
        · split
          · rfl
          · exact Dict.get?_set_ne _ _ h0

/-- The parts of a successful export. -/
theorem exportToCbi_ok {m : LatentMdl W V} {target : String} {observed : Option (Dict (PyVal V))}
    {f : ModelForm V} {vars : Dict (LatentVar V)}
    (h : m.exportToCbi target observed = (.ok f, vars)) :
    ∃ obs vals n, observed = some obs ∧ target = "pymc" ∧ m.name = some n ∧
      exportLatents target m.latentVars = (.ok vals, vars) ∧
      m.compute.acceptsNames (addObserved m.name obs vals) = true ∧
      obs.get? n = some f.observed ∧ f.name = m.name ∧ f.args = addObserved m.name obs vals := by
  unfold LatentMdl.exportToCbi at h
  split at h
  · cases h
  · rename_i vals vars1 hv
    split at h
    · cases h
    · rename_i obs
      simp only at h
      split at h
      · rename_i hacc
        cases hn : m.name with
        | none => rw [hn] at h; cases h
        | some n =>
          rw [hn] at h hacc
          rw [Option.bind_some] at h
          cases ho : obs.get? n with
          | none => rw [ho] at h; cases h
          | some o =>
            rw [ho] at h
            simp only at h
            split at h
            · rename_i ht
              cases h
              exact ⟨obs, vals, n, rfl, ht, rfl, hv, hacc, ho, rfl, rfl⟩
            · cases h
      · cases h

/-- **C58**, the arguments: if no latent variable has the name of an observed condition, a successful export
hands over every latent variable in its own exported form and every observed condition, each under its own
name, nothing else, and the observed output. -/
theorem C58_arguments_partial {m : LatentMdl W V} {target : String} {obs : Dict (PyVal V)}
    (hnd : obs.Nodup) {f : ModelForm V} {vars : Dict (LatentVar V)}
    (h : m.exportToCbi target (some obs) = (.ok f, vars))
    (hne : ∀ k ∈ m.latentVars.keys, k ∈ obs.keys → m.name = some k) :
    (∃ n, m.name = some n ∧ f.name = some n ∧ obs.get? n = some f.observed) ∧
    (∀ k lv, m.latentVars.get? k = some lv →
      ∃ x, (lv.cbiExport target).1 = .ok x ∧ f.args.get? k = some (.latent x)) ∧
    (∀ k v, obs.get? k = some v → m.name ≠ some k → f.args.get? k = some (.data v)) ∧
    ∀ k a, f.args.get? k = some a →
      k ∈ m.latentVars.keys ∨ (k ∈ obs.keys ∧ m.name ≠ some k) := by
  obtain ⟨obs', vals, n, h1, -, h3, h4, -, h6, h7, h8⟩ := exportToCbi_ok h
  cases h1
  obtain ⟨g1, g2⟩ := exportLatents_ok h4
  refine ⟨⟨n, h3, h7.trans h3, h6⟩, ?_, ?_, ?_⟩
  · intro k lv hk
    obtain ⟨x, hx, hv⟩ := g2 k lv hk
    refine ⟨x, hx, ?_⟩
    rw [h8, addObserved_get? hnd, hv]
    split
    · rfl
    · rename_i hn
      have : obs.get? k = none := by
        rw [Dict.get?_eq_none_iff]
        exact fun ho => hn (hne k (Dict.mem_keys_of_get? hk) ho)
      rw [this]
  · intro k v hk hn
    rw [h8, addObserved_get? hnd, if_neg hn, hk]
  · intro k a hk
    rw [h8, addObserved_get? hnd] at hk
    split at hk
    · exact .inl (g1 ▸ Dict.mem_keys_of_get? hk)
    · rename_i hn
      split at hk
      · rename_i v hv
        exact .inr ⟨Dict.mem_keys_of_get? hv, hn⟩
      · exact .inl (g1 ▸ Dict.mem_keys_of_get? hk)

theorem exportLatents_all {target : String} {vars : Dict (LatentVar V)}
    (h : ∀ kv ∈ vars, ∃ x, (kv.2.cbiExport target).1 = .ok x) :
    ∃ vals vars', exportLatents target vars = (.ok vals, vars') := by
  induction vars with
  | nil => exact ⟨[], [], rfl⟩
  | cons kv rest ih =>
    obtain ⟨k, lv⟩ := kv
    obtain ⟨x, hx⟩ := h _ List.mem_cons_self
    obtain ⟨vals, vars', hr⟩ := ih fun kv hkv => h kv (List.mem_cons_of_mem _ hkv)
    unfold exportLatents
    cases hc : lv.cbiExport target with
    | mk e lv' =>
      simp only at hx
      rw [hc] at hx
      simp only at hx
      subst hx
      rw [hr]
      exact ⟨_, _, rfl⟩

omit [PyArith V] in
theorem mem_keys_addObserved {name : Option String} {obs : Dict (PyVal V)} (hnd : obs.Nodup)
    {vals : Dict (CbiArg V)} {k : String} :
    k ∈ (addObserved name obs vals).keys ↔ k ∈ vals.keys ∨ (k ∈ obs.keys ∧ name ≠ some k) := by
  have key : ∀ d : Dict (CbiArg V), k ∈ d.keys ↔ d.get? k ≠ none := fun d => by
    rw [ne_eq, Dict.get?_eq_none_iff, not_not]
  have key' : k ∈ obs.keys ↔ obs.get? k ≠ none := by
    rw [ne_eq, Dict.get?_eq_none_iff, not_not]
  rw [key, key, key', addObserved_get? hnd]
  by_cases hn : name = some k
  · simp [hn]
  · rw [if_neg hn]
    cases obs.get? k with
    | none => simp
    | some v => simp [hn]

/-- **C58**, PyMC: the export succeeds for every model with a name whose latent variables can be exported,
if the observed data contain the output and the equation takes exactly the latent variables and the
observed conditions. -/
theorem C58_pymc_succeeds_partial {m : LatentMdl W V} {obs : Dict (PyVal V)} (hnd : obs.Nodup)
    (hl : ∀ kv ∈ m.latentVars, ∃ x, (kv.2.cbiExport "pymc").1 = .ok x) {n : String}
    (hn : m.name = some n) (ho : n ∈ obs.keys)
    (hargs : ∀ k, (∃ d, (k, d) ∈ m.compute.params) ↔
      k ∈ m.latentVars.keys ∨ (k ∈ obs.keys ∧ k ≠ n)) :
    ∃ f vars, m.exportToCbi "pymc" (some obs) = (.ok f, vars) := by
  obtain ⟨vals, vars, hv⟩ := exportLatents_all hl
  have hk := (exportLatents_ok hv).1
  have hacc : m.compute.acceptsNames (addObserved m.name obs vals) = true := by
    unfold PyFun.acceptsNames PyFun.accepts
    have hmem : ∀ k, k ∈ (addObserved m.name obs vals).keys ↔ ∃ d, (k, d) ∈ m.compute.params := by
      intro k
      rw [mem_keys_addObserved hnd, hargs, hk, hn]
      simp [eq_comm]
    rw [Bool.and_eq_true]
    constructor
    · rw [List.all_eq_true]
      rintro ⟨k, d⟩ hp
      rw [Bool.or_eq_true]
      right
      rw [Dict.has_iff_mem_keys]
      have := (hmem k).2 ⟨d, hp⟩
      simpa [Dict.keys, Function.comp_def] using this
    · rw [Bool.or_eq_true]
      right
      rw [List.all_eq_true]
      intro kv hkv
      obtain ⟨x, hx, rfl⟩ := List.mem_map.1 hkv
      obtain ⟨d, hd⟩ := (hmem x.1).1 (List.mem_map_of_mem hx)
      rw [List.any_eq_true]
      exact ⟨_, hd, beq_self_eq_true _⟩
  have hob : ∃ o, obs.get? n = some o := by
    cases hg : obs.get? n with
    | none => exact absurd ho ((Dict.get?_eq_none_iff _ _).1 hg)
    | some o => exact ⟨o, rfl⟩
  obtain ⟨o, hob⟩ := hob
  refine ⟨⟨m.name, addObserved m.name obs vals, PyArith.ofRat 1, o⟩, vars, ?_⟩
  unfold LatentMdl.exportToCbi
  rw [hv]
  simp only [hacc, if_true]
  rw [hn, Option.bind_some, hob]

/-- **C58** fails for the default argument: without observed data every export raises. -/
theorem C58_default_violated (m : LatentMdl W V) (target : String) :
    ∃ e, (m.exportToCbi target none).1 = .error e ∧
      ((∀ kv ∈ m.latentVars, ∃ x, (kv.2.cbiExport target).1 = .ok x) → e = .typeError) := by
  unfold LatentMdl.exportToCbi
  split
  · rename_i e vars hv
    refine ⟨e, rfl, fun h => ?_⟩
    obtain ⟨_, _, h'⟩ := exportLatents_all h
    rw [h'] at hv
    cases hv
  · exact ⟨_, rfl, fun _ => rfl⟩

/-- **C58** fails for Pyro: no export of any model succeeds, whatever is observed. -/
theorem C58_pyro_violated (m : LatentMdl W V) (observed : Option (Dict (PyVal V))) :
    ∃ e, (m.exportToCbi "pyro" observed).1 = .error e := by
  cases h : m.exportToCbi "pyro" observed with
  | mk r vars =>
    cases r with
    | error e => exact ⟨e, rfl⟩
    | ok f =>
      obtain ⟨_, _, _, _, ht, _⟩ := exportToCbi_ok h
      exact absurd ht (by decide)

/-- **C58** fails for a latent variable with the name of an observed condition: the equation gets the data,
the latent variable is not part of the exported model. -/
theorem C58_shadowed_violated {m : LatentMdl W V} {target : String} {obs : Dict (PyVal V)}
    (hnd : obs.Nodup) {f : ModelForm V} {vars : Dict (LatentVar V)}
    (h : m.exportToCbi target (some obs) = (.ok f, vars)) {k : String} (_hl : k ∈ m.latentVars.keys)
    {v : PyVal V} (hv : obs.get? k = some v) (hn : m.name ≠ some k) :
    f.args.get? k = some (.data v) := by
  obtain ⟨obs', vals, n, h1, -, -, -, -, -, -, h8⟩ := exportToCbi_ok h
  cases h1
  rw [h8, addObserved_get? hnd, if_neg hn, hv]

end

/-! ## Examples -/

section
open Spec.Ex

/-- A normal latent variable. -/
def cbiLatent (i : Nat) (name : String) : LatentVar Q :=
  { unitary := .fin 0, dev := ⟨i, .normal (.fin 2) (.fin 1), some name⟩, chp := detUnit (.fin 0),
    lot := detUnit (.fin 0), devDef := true, chpDef := false, lotDef := false, deterVal := none,
    name := some name, vrtnType := some .offset }

/-- "shift" as a function of latents `a`, `b` and the temperature. -/
def exShift (params : List String) : LatentMdl Spec.Counts Q :=
  { compute := { params := params.map (·, false), call := fun _ => M.throw .valueError },
    latentVars := [("a", cbiLatent 0 "a"), ("b", cbiLatent 1 "b")], name := some "shift" }

/-- The exported form of such a variable. -/
def cbiNormal (name : String) : CbiArg Q :=
  .latent ⟨.offset, none, [⟨"pymc", "Normal", some name, [("mu", .fin 2), ("sigma", .fin 1)]⟩]⟩

/-- The data of an export. -/
def exObs : Dict (PyVal Q) := [("temp", .scal (.fin 300)), ("shift", .scal (.fin 5))]

/-- The hypotheses of the two partial theorems hold, and this is the result. -/
example : (∃ f vars, (exShift ["temp", "a", "b"]).exportToCbi "pymc" (some exObs) = (.ok f, vars)) ∧
    (∀ k ∈ (exShift ["temp", "a", "b"]).latentVars.keys, k ∈ exObs.keys →
      (exShift ["temp", "a", "b"]).name = some k) ∧
    ((exShift ["temp", "a", "b"]).exportToCbi "pymc" (some exObs)).1 = .ok ⟨some "shift",
      [("a", cbiNormal "a"), ("b", cbiNormal "b"), ("temp", .data (.scal (.fin 300)))], .fin 1,
      .scal (.fin 5)⟩ := by
  refine ⟨C58_pymc_succeeds_partial (by decide) ?_ (n := "shift") rfl (by decide) ?_, by decide,
    by decide +kernel⟩
  · intro kv hkv
    rcases List.mem_cons.1 hkv with rfl | hkv
    · exact ⟨_, rfl⟩
    · cases List.mem_singleton.1 hkv
      exact ⟨_, rfl⟩
  · intro k
    simp [exShift, exObs, Dict.keys]
    constructor
    · rintro (rfl | rfl | rfl) <;> simp
    · rintro ((rfl | rfl) | ⟨rfl | rfl, h⟩) <;> simp_all

/-- Without data: `TypeError`. With Pyro: `AttributeError`. -/
example : ((exShift ["temp", "a", "b"]).exportToCbi "pymc" none).1 = .error .typeError ∧
    ((exShift ["temp", "a", "b"]).exportToCbi "pyro" (some exObs)).1 = .error .attributeError := by
  decide +kernel

/-- Observing a condition "b" removes the latent variable "b". -/
example : ((exShift ["temp", "a", "b"]).exportToCbi "pymc" (some (("b", .scal (.fin 7)) :: exObs))).1 =
    .ok ⟨some "shift", [("a", cbiNormal "a"), ("b", .data (.scal (.fin 7))),
      ("temp", .data (.scal (.fin 300)))], .fin 1, .scal (.fin 5)⟩ := by
  decide +kernel

end
end Gerabaldi.Props
