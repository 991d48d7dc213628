import Verif.Spec.Optional
import Verif.Props.Latent

/-!
# C81: optional packages are optional
-/

namespace Gerabaldi.Props

open Gerabaldi Gerabaldi.Spec

/-! ## Importing the package -/

theorem hint_names (m p : String) : Names (importHint m p) m p := ⟨_, _, _, rfl⟩

/-- **C81**, importing: the package can be imported whichever of its optional packages are absent, and remembers for
each of them the module or a message with the name of the module and the package to install. -/
theorem C81_import_partial (world : String → Except Exc Attrs)
    (h : ∀ m, (∃ has, world m = .ok has) ∨ ImportFails (world m)) :
    ∃ hs, runImports world optionalImports = .ok hs ∧ List.Forall₂ (fun (mp : String × Option String) x =>
      (∀ has, world mp.1 = .ok has → x = .loaded has) ∧
      (ImportFails (world mp.1) → ∃ hint, x = .failed hint ∧
        Names hint mp.1 (if mp.1 = "pymc" ∨ mp.1 = "torch" then mp.1 else "pyro-ppl"))) optionalImports hs := by
  have one : ∀ m p, (m, p) ∈ optionalImports → ∃ x, onDemandImport (world m) m p = .ok x ∧
      (∀ has, world m = .ok has → x = .loaded has) ∧
      (ImportFails (world m) → ∃ hint, x = .failed hint ∧
        Names hint m (if m = "pymc" ∨ m = "torch" then m else "pyro-ppl")) := by
    intro m p hmp
    rcases h m with ⟨has, hw⟩ | ⟨e, hw, he⟩
    · refine ⟨.loaded has, by simp [onDemandImport, hw], fun has' h' => ?_, ?_⟩
      · rw [hw] at h'; cases h'; rfl
      · rintro ⟨e, h', -⟩
        rw [hw] at h'
        cases h'
    · refine ⟨_, by simp only [onDemandImport, hw]; rw [if_pos he], fun has' h' => ?_, fun _ => ⟨_, rfl, ?_⟩⟩
      · rw [hw] at h'; cases h'
      · simp only [optionalImports, List.mem_cons, Prod.mk.injEq, List.not_mem_nil, or_false] at hmp
        rcases hmp with ⟨rfl, rfl⟩ | ⟨rfl, rfl⟩ | ⟨rfl, rfl⟩ | ⟨rfl, rfl⟩ | ⟨rfl, rfl⟩ | ⟨rfl, rfl⟩ | ⟨rfl, rfl⟩ |
          ⟨rfl, rfl⟩ | ⟨rfl, rfl⟩ | ⟨rfl, rfl⟩ <;> exact hint_names _ _
  revert one
  generalize optionalImports = l
  intro one
  induction l with
  | nil => exact ⟨[], rfl, .nil⟩
  | cons mp rest ih =>
    obtain ⟨hs, h1, h2⟩ := ih fun m p hm => one m p (List.mem_cons_of_mem _ hm)
    obtain ⟨x, g1, g2⟩ := one mp.1 mp.2 List.mem_cons_self
    exact ⟨x :: hs, by simp [runImports, g1, h1], .cons g2 h2⟩

/-- **C81** is violated for optional packages that are installed but broken in another way: if the import of PyMC,
Pyro or torch raises any exception that is neither an `ImportError` nor a `SystemError`, such as the `OSError` of a
library that cannot be loaded, then the package cannot be imported at all. -/
theorem C81_import_violated (world : String → Except Exc Attrs) {m : String} {e : Exc} (hw : world m = .error e)
    (h1 : "ImportError" ∉ e.mro) (h2 : "SystemError" ∉ e.mro) (hm : m ∈ optionalImports.map (·.1)) :
    ∃ e', runImports world optionalImports = .error e' := by
  revert hm
  generalize optionalImports = l
  intro hm
  induction l with
  | nil => cases hm
  | cons mp rest ih =>
    obtain ⟨k, p⟩ := mp
    rcases List.mem_cons.1 hm with h | h
    · simp only at h
      subst h
      exact ⟨e, by simp [runImports, onDemandImport, hw, h1, h2]⟩
    · obtain ⟨e', he⟩ := ih h
      simp only [runImports]
      cases onDemandImport (world k) k p with
      | error e2 => exact ⟨e2, rfl⟩
      | ok x => exact ⟨e', by simp [he]⟩

/-- Such an import: torch with a broken shared library. -/
example : runImports (fun m => if m = "torch" then .error ⟨["OSError", "Exception"]⟩ else .ok fun _ => true)
    optionalImports = .error ⟨["OSError", "Exception"]⟩ := rfl

/-! ## Exports -/

section
variable {V : Type} [PyArith V]

theorem class_pymc {hs : Handles} {has : Attrs} (hp : hs.pymc = .loaded has) (ht : PymcThere has) (r : RVar V) :
    r.getCbiFormIn hs "pymc" = liftErr (r.getCbiForm "pymc") := by
  have hc : has r.dist.className = true := by
    cases r.dist with
    | deterministic v => exact ht.deterministic
    | normal a b => exact ht.normal
    | gamma a b => exact ht.gamma
    | uniform a b => exact ht.uniform
  simp [RVar.getCbiFormIn, hp, Handle.attr, hc, notImplementedHere, bind, Except.bind]

theorem class_pyro {hs : Handles} {pyro dist torch : Attrs} (h1 : hs.pyro = .loaded pyro) (h2 : hs.dist = .loaded dist)
    (ht : PyroThere pyro dist torch) (r : RVar V) :
    r.getCbiFormIn hs "pyro" = liftErr (r.getCbiForm "pyro") := by
  cases hd : r.dist with
  | deterministic v =>
    by_cases hc : dist "Deterministic" = true <;>
    simp [RVar.getCbiFormIn, h1, h2, Handle.attr, ht.sample, notImplementedHere, bind, Except.bind, hd,
      Dist.className, hc, RVar.getCbiForm, Dist.getDistParams, Dist.paramsForPyro, liftErr]
  | normal a b =>
    simp [RVar.getCbiFormIn, h1, h2, Handle.attr, ht.sample, ht.normal, notImplementedHere, bind, Except.bind, hd,
      Dist.className]
  | gamma a b =>
    simp [RVar.getCbiFormIn, h1, h2, Handle.attr, ht.sample, ht.gamma, notImplementedHere, bind, Except.bind, hd,
      Dist.className]
  | uniform a b =>
    simp [RVar.getCbiFormIn, h1, h2, Handle.attr, ht.sample, ht.uniform, notImplementedHere, bind, Except.bind, hd,
      Dist.className]

theorem layers_in {hs : Handles} {target : String}
    (hf : ∀ r : RVar V, r.getCbiFormIn hs target = liftErr (r.getCbiForm target))
    (hd : target = "pymc" → hs.pymc.attr "Deterministic" = .ok ()) (lv : LatentVar V) :
    lv.cbiLayersIn hs target = liftErr (lv.cbiLayers target) := by
  have hl : ∀ b (r : RVar V), layerFormIn hs b r target = liftErr (layerForm b r target) := by
    intro b r
    unfold layerFormIn layerForm
    rw [hf]
    cases b
    · rfl
    · cases r.getCbiForm target <;> rfl
  unfold LatentVar.cbiLayersIn LatentVar.cbiLayers
  rw [hf, hl, hl]
  cases lv.dev.getCbiForm target with
  | error e => rfl
  | ok d =>
    cases layerForm lv.chpDef lv.chp target with
    | error e => rfl
    | ok cs =>
      cases layerForm lv.lotDef lv.lot target with
      | error e => rfl
      | ok ls =>
        simp only [liftErr, bind, Except.bind, pure, Except.pure]
        split
        · rename_i h
          rw [hd h.1]
        · rfl

theorem export_in {hs : Handles} {target : String} (ht : target = "pymc" ∨ target = "pyro")
    (hf : ∀ r : RVar V, r.getCbiFormIn hs target = liftErr (r.getCbiForm target))
    (hd : target = "pymc" → hs.pymc.attr "Deterministic" = .ok ()) (lv : LatentVar V)
    (ho : lv.opIn hs target = .ok ()) :
    lv.cbiExportIn hs target = (granted (lv.cbiExport target).1, (lv.cbiExport target).2) := by
  have hn : ¬ (target ≠ "pymc" ∧ target ≠ "pyro") := by
    rcases ht with rfl | rfl <;> simp
  unfold LatentVar.cbiExportIn LatentVar.cbiExport
  rw [ho]
  simp only [hn, if_false]
  split
  · rfl
  simp only [layers_in hf hd]
  cases lv.deterVal with
  | none =>
    simp only
    cases lv.cbiLayers target <;> rfl
  | some v =>
    simp only
    by_cases hz : PyArith.eq v (PyArith.ofRat 0) = true
    · simp only [hz, if_true]
      cases lv.cbiLayers target <;> rfl
    · simp only [hz, if_false, Bool.false_eq_true]
      cases lv.dev.getCentre with
      | error e => rfl
      | ok c =>
        simp only
        cases lv.dev.setCentre v _ with
        | error e => rfl
        | ok d =>
          simp only
          cases LatentVar.cbiLayers (V := V) _ target with
          | error e => rfl
          | ok ls =>
            simp only [liftErr]
            split
            · rfl
            · cases d.setCentre c none <;> rfl

/-- **C81**, PyMC: with PyMC installed, exports to it do what the model of exports (C14, C15, C58) says, whether or not
Pyro and torch are there. -/
theorem C81_pymc {hs : Handles} {has : Attrs} (hp : hs.pymc = .loaded has) (ht : PymcThere has) (lv : LatentVar V) :
    lv.cbiExportIn hs "pymc" = (granted (lv.cbiExport "pymc").1, (lv.cbiExport "pymc").2) :=
  export_in (.inl rfl) (class_pymc hp ht) (fun _ => by simp [hp, Handle.attr, ht.deterministic]) lv
    (by simp [LatentVar.opIn])

/-- **C81**, Pyro: the same for Pyro with torch, whether or not PyMC is there. -/
theorem C81_pyro {hs : Handles} {pyro dist torch : Attrs} (h1 : hs.pyro = .loaded pyro) (h2 : hs.dist = .loaded dist)
    (h3 : hs.torch = .loaded torch) (ht : PyroThere pyro dist torch) (lv : LatentVar V) :
    lv.cbiExportIn hs "pyro" = (granted (lv.cbiExport "pyro").1, (lv.cbiExport "pyro").2) := by
  refine export_in (.inr rfl) (class_pyro h1 h2 ht) (fun h => absurd h (by decide)) lv ?_
  have : torch (if lv.vrtnType = some VType.scaling then "multiply" else "add") = true := by
    split
    · exact ht.multiply
    · exact ht.add
  simp [LatentVar.opIn, h3, Handle.attr, this]

omit [PyArith V] in
theorem class_attr (r : RVar V) : r.dist.className ∉ objectAttrs := by
  cases r.dist <;> simp only [Dist.className] <;> decide

/-- **C81**, a missing PyMC: exporting a variable raises the error that names it, unless it is impossible anyway
(no device variation, or a base value for a distribution without a centre). -/
theorem C81_missing_pymc {hs : Handles} {hint : String} (hp : hs.pymc = .failed hint) (lv : LatentVar V)
    (hv : lv.devDef = true) (hc : lv.deterVal = none ∨ ∃ mu sigma, lv.dev.dist = .normal mu sigma) :
    (lv.cbiExportIn hs "pymc").1 = .error (.missing hint) := by
  have hl : ∀ lv : LatentVar V, lv.cbiLayersIn hs "pymc" = .error (.missing hint) := by
    intro lv
    simp [LatentVar.cbiLayersIn, RVar.getCbiFormIn, hp, Handle.attr, class_attr, notImplementedHere, bind, Except.bind]
  unfold LatentVar.cbiExportIn
  simp only [hv, Bool.not_true, Bool.false_eq_true, if_false, LatentVar.opIn, if_true]
  rcases hc with hc | ⟨mu, sigma, hc⟩
  · rw [hc]
    simp only [hl]
  · cases hd : lv.deterVal with
    | none => simp only [hl]
    | some v =>
      simp only
      by_cases hz : PyArith.eq v (PyArith.ofRat 0) = true
      · simp only [hz, if_true, hl]
      · simp only [hz, if_false, RVar.getCentre, RVar.setCentre, hc, hl, Bool.false_eq_true]

/-- **C81**, a missing torch or Pyro: exports to Pyro raise the error that names the package; without torch the
variable is not touched. -/
theorem C81_missing_pyro {hs : Handles} {hint : String} (lv : LatentVar V) (hv : lv.devDef = true) :
    (hs.torch = .failed hint → lv.cbiExportIn hs "pyro" = (.error (.missing hint), lv)) ∧
    (hs.pyro = .failed hint → (∃ torch, hs.torch = .loaded torch ∧ torch "multiply" = true ∧ torch "add" = true) →
      (lv.deterVal = none ∨ ∃ mu sigma, lv.dev.dist = .normal mu sigma) →
      (lv.cbiExportIn hs "pyro").1 = .error (.missing hint)) := by
  constructor
  · intro ht
    unfold LatentVar.cbiExportIn
    have : (if lv.vrtnType = some VType.scaling then "multiply" else "add") ∉ objectAttrs := by
      split <;> decide
    simp [hv, LatentVar.opIn, ht, Handle.attr, this]
  · rintro hp ⟨torch, ht, t1, t2⟩ hc
    have hl : ∀ lv : LatentVar V, lv.cbiLayersIn hs "pyro" = .error (.missing hint) := by
      intro lv
      simp [LatentVar.cbiLayersIn, RVar.getCbiFormIn, hp, Handle.attr, notImplementedHere, bind, Except.bind,
        show "sample" ∉ objectAttrs by decide]
    have ho : lv.opIn hs "pyro" = .ok () := by
      have : torch (if lv.vrtnType = some VType.scaling then "multiply" else "add") = true := by
        split <;> assumption
      simp [LatentVar.opIn, ht, Handle.attr, this]
    unfold LatentVar.cbiExportIn
    simp only [hv, Bool.not_true, Bool.false_eq_true, if_false, ho]
    rcases hc with hc | ⟨mu, sigma, hc⟩
    · rw [hc]
      simp only [hl]
    · cases hd : lv.deterVal with
      | none => simp only [hl]
      | some v =>
        simp only
        by_cases hz : PyArith.eq v (PyArith.ofRat 0) = true
        · simp only [hz, if_true, hl]
        · simp only [hz, if_false, RVar.getCentre, RVar.setCentre, hc, hl, Bool.false_eq_true]

end

theorem failed_state {pyro dist torch : Handle} {hint : String} {lv : LatentVar (Ext ℚ)} (hv : lv.devDef = true)
    (hd : lv.deterVal = some (.fin 5)) (ht : lv.vrtnType = some .offset) (hc : lv.dev.dist = .normal (.fin 3) (.fin 1)) :
    (lv.cbiExportIn ⟨.failed hint, pyro, dist, torch⟩ "pymc").2.dev.dist = .normal (.fin 8) (.fin 1) := by
  have hl : ∀ lv : LatentVar (Ext ℚ), lv.cbiLayersIn ⟨.failed hint, pyro, dist, torch⟩ "pymc" =
      .error (.missing hint) := by
    intro lv
    simp [LatentVar.cbiLayersIn, RVar.getCbiFormIn, Handle.attr, class_attr, notImplementedHere, bind, Except.bind]
  have hz : PyArith.eq (.fin 5 : Ext ℚ) (PyArith.ofRat 0) = false := by decide +kernel
  have h8' : PyArith.add (.fin 5 : Ext ℚ) (.fin 3) = .fin 8 := by decide +kernel
  unfold LatentVar.cbiExportIn
  simp [hv, hd, ht, LatentVar.opIn, hz, RVar.getCentre, RVar.setCentre, hc, hl, VType.op, h8']

/-- **C81** is violated on the way out of a failed export: without PyMC, exporting a variable with a base value raises
the error but leaves its distribution shifted, so that later simulations with it are different. -/
theorem C81_state_violated : ∃ lv : LatentVar (Ext ℚ),
    LatentVar.mk' (some ⟨1, .normal (.fin 3) (.fin 1), none⟩) none none (some (.fin 5)) (some "v") "offset" = .ok lv ∧
    lv.dev.dist = .normal (.fin 3) (.fin 1) ∧ ∀ hs hint, hs.pymc = .failed hint →
      (lv.cbiExportIn hs "pymc").1 = .error (.missing hint) ∧
      (lv.cbiExportIn hs "pymc").2.dev.dist = .normal (.fin 8) (.fin 1) := by
  refine ⟨_, rfl, rfl, fun hs hint hp => ⟨C81_missing_pymc hp _ rfl (.inr ⟨_, _, rfl⟩), ?_⟩⟩
  obtain ⟨pymc, pyro, dist, torch⟩ := hs
  simp only at hp
  subst hp
  exact failed_state rfl rfl rfl rfl

/-- A machine with PyMC but neither Pyro nor torch. -/
def onlyPymc : String → Except Exc Attrs := fun m =>
  if m = "pymc" then .ok fun a => a ∈ ["Normal", "Gamma", "Uniform", "Deterministic"]
  else .error ⟨["ModuleNotFoundError", "ImportError", "Exception"]⟩

/-- The package can be imported there; a variable with chip variation can be exported to PyMC, and an export to Pyro
asks for torch. -/
example : (∀ m, (∃ has, onlyPymc m = .ok has) ∨ ImportFails (onlyPymc m)) ∧
    ∃ pymc pyro dist torch rest, runImports onlyPymc optionalImports = .ok (pymc :: pyro :: dist :: rest) ∧
      rest[3]? = some torch ∧ (∃ has, pymc = .loaded has ∧ PymcThere has) ∧
      ∃ lv : LatentVar (Ext ℚ), LatentVar.mk' (some ⟨1, .normal (.fin 3) (.fin 1), none⟩)
          (some ⟨2, .uniform (.fin 0) (.fin 1), none⟩) none (some (.fin 5)) (some "v") "offset" = .ok lv ∧
        (∃ e, (lv.cbiExportIn ⟨pymc, pyro, dist, torch⟩ "pymc").1 = .ok e ∧ e.layers.length = 2) ∧
        lv.cbiExportIn ⟨pymc, pyro, dist, torch⟩ "pyro" = (.error (.missing (importHint "torch" "torch")), lv) := by
  refine ⟨fun m => ?_, _, _, _, _, _, rfl, rfl, ⟨_, rfl, by constructor <;> rfl⟩, _, rfl, ?_, ?_⟩
  · by_cases h : m = "pymc"
    · exact .inl ⟨_, by simp only [onlyPymc, h, if_true]; rfl⟩
    · exact .inr ⟨_, by simp only [onlyPymc, h, if_false]; rfl, .inl (by simp)⟩
  · rw [C81_pymc (has := fun a => a ∈ ["Normal", "Gamma", "Uniform", "Deterministic"]) rfl (by constructor <;> rfl)]
    exact ⟨_, rfl, rfl⟩
  · exact (C81_missing_pyro _ rfl).1 rfl

end Gerabaldi.Props
