import Verif.Lemmas.Latent
import Verif.Spec.CountRng
import Verif.Spec.Names
import Verif.Model.Ext

/-! # Properties of latent variables: C10, C11, C12, C14, C16 -/

namespace Gerabaldi.Props
open Spec

variable {V : Type} [PyArith V] {W : Type} [Rng W V]

/-! ## C10: unspecified layers never change a value -/

/-- C10 for `LatentVar`: after construction and any history of assignments (failed ones included),
sampling is sampling of what the user configured last: layers that are not defined draw nothing and
contribute nothing. -/
theorem C10_latent [LawfulRng W V] [UnitLaws V] {dev chp lot : Option (RVar V)} {base : Option V}
    {name : Option String} {vt : String} {lv : LatentVar V}
    (h : LatentVar.mk' dev chp lot base name vt = .ok lv) (as : List (LatentAssign V))
    (L C D : Nat) (w : W) :
    (lv.history as).genLatentVals D C L w = sampleCfg (as.foldl LatentCfg.record
      ⟨layerOf dev, layerOf chp, layerOf lot, base, decide (vt = "scaling")⟩) L C D w :=
  ((LatentInv.mk' h).history as).sample L C D w

/-- A history with a rejected variation type, a removed layer and a changed type. -/
def exHistory : List (LatentAssign (Ext ℚ)) :=
  [.vrtnType "offset", .chp (some ⟨3, .uniform (.fin 0) (.fin 1), none⟩), .vrtnType "none",
   .lot none, .name (some "v")]

/-- The latent variable of the example: scaling, with device and lot distributions. -/
def exLatent : Except Err (LatentVar (Ext ℚ)) :=
  LatentVar.mk' (some ⟨1, .normal (.fin 0) (.fin 1), none⟩) none
    (some ⟨2, .normal (.fin 0) (.fin 1), none⟩) (some (.fin 7)) none "scaling"

example : exLatent.toOption.isSome = true := by decide +kernel

-- values 7 + dev (100, 101, ...) + chp (300, 301), the lot layer is gone, nothing is multiplied
example : (exLatent.toOption.map fun lv => ((lv.history exHistory).genLatentVals 2 2 1
      Counts.start).1.toOption.map (·.data)) =
    some (some [.fin 407, .fin 408, .fin 410, .fin 411]) := by decide +kernel

/-! ## C11: layered structure -/

/-- C11: whatever the numbers and generators are, a result of `gen_latent_vals` is a
lot x chip x device array built from exactly `L`, `L*C` and `L*C*D` draws, with lot and chip draws
shared. -/
theorem C11_layered (lv : LatentVar V) {L C D : Nat} {w w3 : W} {r : Arr3 V}
    (h : lv.genLatentVals D C L w = (.ok r, w3)) :
    r.nl = L ∧ r.nc = C ∧ r.nd = D ∧
    ∃ (lotS chpS devS : List V) (w1 w2 : W),
      lv.lot.sample L w = (.ok lotS, w1) ∧
      lv.chp.sample (L * C) w1 = (.ok chpS, w2) ∧
      lv.dev.sample (L * C * D) w2 = (.ok devS, w3) ∧
      lotS.length = L ∧ chpS.length = L * C ∧ devS.length = L * C * D ∧
      ∀ l c d, l < L → c < C → d < D →
        ∃ x y z, devS[(l * C + c) * D + d]? = some x ∧ chpS[l * C + c]? = some y ∧
          lotS[l]? = some z ∧
          r.at' l c d = match lv.deterVal with
            | some v => lv.op (lv.op (lv.op v x) y) z
            | none => lv.op (lv.op x y) z := by
  obtain ⟨lotS, chpS, devS, w1, w2, h1, h2, h3, l1, l2, l3⟩ := genLatentVals_ok_inv lv h
  rw [genLatentVals_run lv h1 h2 h3 l1 l2 l3] at h
  cases h
  refine ⟨rfl, rfl, rfl, lotS, chpS, devS, w1, w2, h1, h2, h3, l1, l2, l3, ?_⟩
  intro l c d hl hc hd
  have i3 : (l * C + c) * D + d < devS.length := by rw [l3]; exact Arr3.index_lt hl hc hd
  have i2 : l * C + c < chpS.length := by
    rw [l2]
    have := Arr3.index_lt (D := 1) hl hc Nat.zero_lt_one
    omega
  have i1 : l < lotS.length := by rw [l1]; exact hl
  refine ⟨devS[(l * C + c) * D + d], chpS[l * C + c], lotS[l], List.getElem?_eq_getElem i3,
    List.getElem?_eq_getElem i2, List.getElem?_eq_getElem i1, ?_⟩
  rw [Arr3.at_ofFn _ hl hc hd, List.getD_eq_getElem _ _ i3, List.getD_eq_getElem _ _ i2,
    List.getD_eq_getElem _ _ i1]
  cases lv.deterVal <;> rfl

/-- C11: the variation operation is addition for 'offset' and multiplication for 'scaling'. -/
theorem C11_operation {dev chp lot : Option (RVar V)} {base : Option V}
    {name : Option String} {vt : String} {lv : LatentVar V}
    (h : LatentVar.mk' dev chp lot base name vt = .ok lv) (as : List (LatentAssign V)) :
    (lv.history as).op =
      if (as.foldl LatentCfg.record
        ⟨layerOf dev, layerOf chp, layerOf lot, base, decide (vt = "scaling")⟩).scaling
      then PyArith.mul else PyArith.add := by
  have hi := (LatentInv.mk' h).history as
  unfold LatentVar.op
  rw [hi.vtype]
  cases (as.foldl LatentCfg.record
    ⟨layerOf dev, layerOf chp, layerOf lot, base, decide (vt = "scaling")⟩).scaling <;> rfl

example : (exLatent.toOption.map fun lv => (lv.genLatentVals 2 2 2 Counts.start).1.toOption.map
      fun r => (r.at' 1 0 1 : Ext ℚ)) =
    some (some (.fin (7 * 105 * 201))) := by decide +kernel

/-! ## C12: deterministic latents are constant -/

/-- C12: while no layer is defined and the base value is `v`, every value is `v` and the random
state is untouched, for any history of the object. -/
theorem C12_constant [LawfulRng W V] [UnitLaws V] {dev chp lot : Option (RVar V)} {base : Option V}
    {name : Option String} {vt : String} {lv : LatentVar V}
    (h : LatentVar.mk' dev chp lot base name vt = .ok lv) (as : List (LatentAssign V)) {v : V}
    (hcfg : ∀ cfg, cfg = as.foldl LatentCfg.record
        ⟨layerOf dev, layerOf chp, layerOf lot, base, decide (vt = "scaling")⟩ →
      cfg.dev = none ∧ cfg.chp = none ∧ cfg.lot = none ∧ cfg.base = some v)
    (L C D : Nat) (w : W) :
    (lv.history as).genLatentVals D C L w = (.ok (Arr3.full L C D v), w) := by
  rw [C10_latent h as L C D w]
  obtain ⟨h1, h2, h3, h4⟩ := hcfg _ rfl
  generalize as.foldl LatentCfg.record _ = cfg at h1 h2 h3 h4
  unfold sampleCfg layeredVals
  rw [h1, h2, h3, h4]
  rfl

/-- C12 in the plain case: `LatentVar(deter_val=v)`. -/
theorem C12_deter_only [LawfulRng W V] [UnitLaws V] (v : V) (name : Option String) {vt : String}
    (hvt : vt = "scaling" ∨ vt = "offset") : ∃ lv : LatentVar V,
      LatentVar.mk' none none none (some v) name vt = .ok lv ∧
      ∀ (L C D : Nat) (w : W), lv.genLatentVals D C L w = (.ok (Arr3.full L C D v), w) := by
  have hex : ∃ lv : LatentVar V, LatentVar.mk' none none none (some v) name vt = .ok lv := by
    rcases hvt with rfl | rfl <;> cases name <;> exact ⟨_, rfl⟩
  obtain ⟨lv, hlv⟩ := hex
  refine ⟨lv, hlv, fun L C D w => ?_⟩
  exact C12_constant hlv [] (fun cfg hc => by subst hc; exact ⟨rfl, rfl, rfl, rfl⟩) L C D w

example : ((LatentVar.mk' (V := Ext ℚ) (some ⟨1, .normal (.fin 0) (.fin 1), none⟩) none none
      (some (.fin 2)) none "scaling").toOption.map fun lv =>
      ((lv.history [.deterVal (some (.fin 5)), .vrtnType "offset", .dev none]).genLatentVals 2 1 1
        Counts.start).1.toOption.map (·.data)) =
    some (some [.fin 5, .fin 5]) := by decide +kernel

/-! ## C14: CBI export has no side effects -/

/-- Exporting several times: the results and the object afterwards. -/
def exportAll (lv : LatentVar V) : List String → List (Except Err (CbiExport V)) × LatentVar V
  | [] => ([], lv)
  | t :: ts =>
    let r := lv.cbiExport t
    let rs := exportAll r.2 ts
    (r.1 :: rs.1, rs.2)

/-- C14, one export: nothing changes, also on error, unless a base value is merged into a normal
device distribution of centre zero or a user-defined chip or lot layer cannot be exported. -/
theorem C14_unchanged_partial (lv : LatentVar V) (target : String)
    (hc : ∀ v, lv.deterVal = some v → PyArith.eq v (PyArith.ofRat 0) = false →
      ∀ mu sigma, lv.dev.dist = .normal mu sigma → PyArith.eq mu (PyArith.ofRat 0) = false)
    (hchp : lv.chpDef = true → ∀ v, lv.chp.dist ≠ .deterministic v)
    (hlot : lv.lotDef = true → ∀ v, lv.lot.dist ≠ .deterministic v) :
    (lv.cbiExport target).2 = lv := by
  unfold LatentVar.cbiExport
  split
  · rfl
  rename_i hdef
  dsimp only
  split
  · rfl
  rename_i htgt
  have ht : target = "pymc" ∨ target = "pyro" := by
    by_contra hcon
    simp only [not_or] at hcon
    exact htgt hcon
  -- a user-defined layer with a proper distribution can be exported
  have hform : ∀ r : RVar V, (∀ v, r.dist ≠ .deterministic v) →
      ∃ f, r.getCbiForm target = .ok f := by
    intro r hr
    obtain ⟨i, d, nm⟩ := r
    unfold RVar.getCbiForm
    rcases ht with rfl | rfl <;> cases d <;> first | exact ⟨_, rfl⟩ | exact absurd rfl (hr _)
  have hlayer : ∀ (b : Bool) (r : RVar V), (b = true → ∀ v, r.dist ≠ .deterministic v) →
      ∃ fs, layerForm b r target = .ok fs := by
    intro b r hr
    unfold layerForm
    cases b with
    | false => exact ⟨_, rfl⟩
    | true =>
      obtain ⟨f, hf⟩ := hform r (hr rfl)
      rw [hf]; exact ⟨_, rfl⟩
  -- whatever happens after the centre was handled, without a shift the object is unchanged
  have hnone : ∀ (ls : Except Err (List (CbiForm V))) (f : List (CbiForm V) → CbiExport V),
      (match ls with
        | .error e => ((Except.error e : Except Err (CbiExport V)), lv)
        | .ok ls => (Except.ok (f ls), lv)).2 = lv := by
    intro ls f; cases ls <;> rfl
  cases hdv : lv.deterVal with
  | none =>
    dsimp only
    exact hnone _ _
  | some v =>
    dsimp only
    by_cases hv : PyArith.eq v (PyArith.ofRat 0) = true
    · simp only [hv, if_true]
      exact hnone _ _
    · have hv' : PyArith.eq v (PyArith.ofRat 0) = false := by simpa using hv
      simp only [hv', Bool.false_eq_true, if_false]
      cases hd : lv.dev.dist with
      | normal mu sigma =>
        have hmu := hc v hdv hv' mu sigma hd
        have hg : lv.dev.getCentre = .ok mu := by unfold RVar.getCentre; rw [hd]
        let t : VType := if lv.vrtnType = some .scaling then .scaling else .offset
        have hs : lv.dev.setCentre v (some t.op) =
            .ok { lv.dev with dist := .normal (t.op v mu) sigma } := by
          unfold RVar.setCentre; rw [hd]
        rw [hg]
        dsimp only
        rw [hs]
        dsimp only
        have hls : ∃ ls, LatentVar.cbiLayers
            { lv with dev := { lv.dev with dist := .normal (t.op v mu) sigma } } target = .ok ls := by
          obtain ⟨f1, hf1⟩ := hform { lv.dev with dist := .normal (t.op v mu) sigma }
            (fun v h => by cases h)
          obtain ⟨cs, hcs⟩ := hlayer lv.chpDef lv.chp hchp
          obtain ⟨ls, hls⟩ := hlayer lv.lotDef lv.lot hlot
          unfold LatentVar.cbiLayers
          simp only
          rw [hf1, hcs, hls]
          exact ⟨_, rfl⟩
        obtain ⟨ls, hls⟩ := hls
        simp only [hdv] at hls
        rw [hls]
        simp only [hmu, Bool.false_eq_true, if_false]
        have hback : RVar.setCentre { lv.dev with dist := .normal (t.op v mu) sigma } mu none =
            .ok lv.dev := by
          unfold RVar.setCentre
          simp only
          obtain ⟨u, ⟨i, d, nm⟩, rest⟩ := lv
          simp only at hd
          rw [hd]
        rw [hback]
        simp only [← hdv]
      | _ =>
        have hg : lv.dev.getCentre = .error .notImplemented := by unfold RVar.getCentre; rw [hd]
        rw [hg]

/-- C14, any number of exports: every export gives the result of the first, the object stays the
same, so that sampling afterwards is sampling without exports. -/
theorem C14_repeat_partial (lv : LatentVar V) (targets : List String)
    (hc : ∀ v, lv.deterVal = some v → PyArith.eq v (PyArith.ofRat 0) = false →
      ∀ mu sigma, lv.dev.dist = .normal mu sigma → PyArith.eq mu (PyArith.ofRat 0) = false)
    (hchp : lv.chpDef = true → ∀ v, lv.chp.dist ≠ .deterministic v)
    (hlot : lv.lotDef = true → ∀ v, lv.lot.dist ≠ .deterministic v) :
    exportAll lv targets = (targets.map fun t => (lv.cbiExport t).1, lv) := by
  induction targets with
  | nil => rfl
  | cons t ts ih =>
    simp only [exportAll, List.map_cons]
    rw [C14_unchanged_partial lv t hc hchp hlot, ih]

/-- A variable with a base value whose device distribution has a nonzero centre. -/
def exExport : LatentVar (Ext ℚ) :=
  { unitary := .fin 0, dev := ⟨1, .normal (.fin 3) (.fin 1), some "v_dev"⟩,
    chp := ⟨2, .uniform (.fin 0) (.fin 1), some "v_chp"⟩, lot := detUnit (.fin 0), devDef := true,
    chpDef := true, lotDef := false, deterVal := some (.fin 4), name := some "v",
    vrtnType := some .offset }

set_option synthInstance.maxSize 1000 in
example : (exExport.cbiExport "pymc").1.toOption.map (fun e => e.layers.map (·.params)) =
      some [[("mu", .fin 7), ("sigma", .fin 1)], [("lower", .fin 0), ("upper", .fin 1)]] ∧
    (exportAll exExport ["pymc", "pyro", "stan", "pymc"]).2 = exExport := by decide +kernel

/-- C14 is violated for a device distribution of centre zero: `if old_centre:` does not restore it,
a second export gives another distribution. -/
theorem C14_zero_centre_violated : ∃ lv : LatentVar (Ext ℚ),
    LatentVar.mk' (some ⟨1, .normal (.fin 0) (.fin 1), none⟩) none none (some (.fin 5)) (some "v")
      "offset" = .ok lv ∧
    ((exportAll lv ["pymc", "pymc"]).1.map fun r => r.toOption.map fun e => e.layers.map (·.params)) =
      [some [[("mu", .fin 5), ("sigma", .fin 1)]], some [[("mu", .fin 10), ("sigma", .fin 1)]]] := by
  refine ⟨_, rfl, ?_⟩
  decide +kernel

/-- C14 is violated on the error path: a chip layer that cannot be exported makes the export raise
with the device centre still shifted. -/
theorem C14_error_path_violated : ∃ lv : LatentVar (Ext ℚ),
    LatentVar.mk' (some ⟨1, .normal (.fin 3) (.fin 1), none⟩)
      (some ⟨2, .deterministic (.fin 1), none⟩) none (some (.fin 5)) (some "v") "offset" = .ok lv ∧
    (lv.cbiExport "pymc").1 = .error .notImplemented ∧
    lv.dev.dist = .normal (.fin 3) (.fin 1) ∧
    (lv.cbiExport "pymc").2.dev.dist = .normal (.fin 8) (.fin 1) := by
  refine ⟨_, rfl, ?_⟩
  set_option synthInstance.maxSize 1000 in decide +kernel

/-! ## C16: names of layer distributions -/

omit [PyArith V] in
theorem namesOk_setName (lv : LatentVar V) (s : Option String) : NamesOk (lv.setName s) := by
  intro n hn
  cases s with
  | none => cases hn
  | some m =>
    cases hn
    obtain ⟨u, dev, chp, lot, d, c, l, dv, nm, vt⟩ := lv
    cases d <;> cases c <;> cases l <;> rfl

theorem namesOk_setVrtnType {lv lv' : LatentVar V} {s : String} (h : NamesOk lv)
    (hs : lv.setVrtnType s = .ok lv') : NamesOk lv' := by
  unfold LatentVar.setVrtnType at hs
  split at hs
  · cases hs
  · split at hs
    · cases hs; exact h
    · cases hs
      intro n hn
      have := h n
      obtain ⟨u, dev, chp, lot, d, c, l, dv, nm, vt⟩ := lv
      cases d <;> cases c <;> cases l <;> exact this hn

/-- C16: the constructor names the layers. -/
theorem C16_constructed_partial {dev chp lot : Option (RVar V)} {base : Option V}
    {name : Option String} {vt : String} {lv : LatentVar V}
    (h : LatentVar.mk' dev chp lot base name vt = .ok lv) : NamesOk lv := by
  unfold LatentVar.mk' at h
  simp only at h
  split at h
  · cases h
  · rename_i lv' heq
    split at h
    · cases h
    · cases h
      exact namesOk_setVrtnType (namesOk_setName _ _) heq

/-- C16: any history in which no distribution is assigned after the last naming keeps the names
right. -/
theorem C16_history_partial {lv : LatentVar V} (h : NamesOk lv) (as : List (LatentAssign V))
    (has : ∀ a ∈ as, assignsLayer a = false) : NamesOk (lv.history as) := by
  induction as generalizing lv with
  | nil => exact h
  | cons a as ih =>
    have ha := has a List.mem_cons_self
    have has' : ∀ a ∈ as, assignsLayer a = false := fun a h => has a (List.mem_cons_of_mem _ h)
    simp only [LatentVar.history]
    cases a with
    | dev r => simp [assignsLayer] at ha
    | chp r => simp [assignsLayer] at ha
    | lot r => simp [assignsLayer] at ha
    | deterVal v => exact ih (lv := { lv with deterVal := v }) h has'
    | name s => exact ih (namesOk_setName lv s) has'
    | vrtnType s =>
      simp only [LatentVar.assign]
      cases hs : lv.setVrtnType s with
      | error e => exact ih h has'
      | ok lv' => exact ih (namesOk_setVrtnType h hs) has'

/-- C16: after any history, naming the variable again makes the names right. -/
theorem C16_renamed_partial (lv : LatentVar V) (as bs : List (LatentAssign V)) (s : Option String)
    (hbs : ∀ a ∈ bs, assignsLayer a = false) :
    NamesOk ((lv.history as).history (.name s :: bs)) :=
  C16_history_partial (namesOk_setName _ s) bs hbs

/-- C16: the needed names are distinct. -/
theorem C16_distinct (n : String) (dev chp lot : Bool) : (neededNames n dev chp lot).Nodup := by
  have e1 : n ++ "_dev" ≠ n ++ "_chp" := fun h => by
    have := String.append_right_inj n |>.1 h; revert this; decide
  have e2 : n ++ "_dev" ≠ n ++ "_lot" := fun h => by
    have := String.append_right_inj n |>.1 h; revert this; decide
  have e3 : n ++ "_chp" ≠ n ++ "_lot" := fun h => by
    have := String.append_right_inj n |>.1 h; revert this; decide
  cases dev <;> cases chp <;> cases lot <;> simp [neededNames, e1, e2, e3]

example : (LatentVar.mk' (V := Ext ℚ) (some ⟨1, .normal (.fin 0) (.fin 1), none⟩)
      (some ⟨2, .normal (.fin 0) (.fin 1), some "other"⟩) none none (some "v") "offset").toOption.map
      layerNames = some [some "v_dev", some "v_chp"] := by decide +kernel

/-- C16 is violated when a layer is assigned after naming: the device distribution keeps the
variable's own name (which the exported combination also gets) and the new layer has none. -/
theorem C16_late_layer_violated : ∃ lv : LatentVar (Ext ℚ),
    LatentVar.mk' (some ⟨1, .normal (.fin 0) (.fin 1), none⟩) none none none (some "v") "offset" =
      .ok lv ∧
    layerNames (lv.history [.chp (some ⟨2, .normal (.fin 0) (.fin 1), none⟩)]) =
      [some "v", none] ∧
    ¬ NamesOk (lv.history [.chp (some ⟨2, .normal (.fin 0) (.fin 1), none⟩)]) := by
  refine ⟨_, rfl, rfl, ?_⟩
  intro h
  have := h "v" rfl
  revert this
  decide

/-- C16 violation, its effect: the export creates two PyMC variables with the same name. -/
theorem C16_export_clash_violated : ∃ (lv : LatentVar (Ext ℚ)) (e : CbiExport (Ext ℚ)),
    LatentVar.mk' (some ⟨1, .normal (.fin 0) (.fin 1), none⟩) none none none (some "v") "offset" =
      .ok lv ∧
    ((lv.history [.chp (some ⟨2, .normal (.fin 0) (.fin 1), none⟩)]).cbiExport "pymc").1 = .ok e ∧
    e.wrapped = some (some "v") ∧ (e.layers.map (·.name)).head? = some (some "v") := by
  refine ⟨_, _, rfl, rfl, rfl, rfl⟩

end Gerabaldi.Props
