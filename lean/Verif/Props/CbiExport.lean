import Verif.Spec.CbiExport
import Verif.Props.RandomVars
import Mathlib.Probability.Distributions.Gaussian.Real

/-!
# C15: CBI export describes the sampled distribution
-/

namespace Gerabaldi.Props
open Gerabaldi Gerabaldi.Spec MeasureTheory ProbabilityTheory

noncomputable section

attribute [local instance] fieldArith

/-- Framework, class and parameters of the exported layers. -/
def exportedLayers (e : CbiExport ℝ) : List (String × String × Dict ℝ) :=
  e.layers.map fun f => (f.framework, f.cls, f.params)

theorem normalLaw {m s : ℝ} (hs : 0 < s) :
    pdfLaw (numpyNormal m s) = gaussianReal m ⟨s ^ 2, sq_nonneg s⟩ := by
  have hv : (⟨s ^ 2, sq_nonneg s⟩ : NNReal) ≠ 0 := by
    intro h
    have h' : s ^ 2 = 0 := congrArg NNReal.toReal h
    exact hs.ne' (pow_eq_zero_iff two_ne_zero |>.1 h')
  rw [gaussianReal_of_var_ne_zero m hv]
  unfold pdfLaw
  congr 1
  funext x
  unfold gaussianPDF gaussianPDFReal numpyNormal
  rw [one_div]
  rfl

/-- What a successful export consists of. -/
theorem cbiExport_ok_inv {V : Type} [PyArith V] {lv : LatentVar V} {target : String}
    {e : CbiExport V} (h : (lv.cbiExport target).1 = .ok e) :
    lv.devDef = true ∧ (target = "pymc" ∨ target = "pyro") ∧
    e.op = (if lv.vrtnType = some .scaling then .scaling else .offset) ∧
    (((∀ v, lv.deterVal = some v → PyArith.eq v (PyArith.ofRat 0) = true) ∧
        lv.cbiLayers target = .ok e.layers) ∨
      ∃ v mu sigma, lv.deterVal = some v ∧ PyArith.eq v (PyArith.ofRat 0) = false ∧
        lv.dev.dist = .normal mu sigma ∧
        LatentVar.cbiLayers { lv with dev := { lv.dev with dist := .normal (e.op.op v mu) sigma } }
          target = .ok e.layers) := by
  unfold LatentVar.cbiExport at h
  split at h
  · cases h
  rename_i hdef
  dsimp only at h
  split at h
  · cases h
  rename_i htgt
  have ht : target = "pymc" ∨ target = "pyro" := by
    by_contra hcon
    simp only [not_or] at hcon
    exact htgt hcon
  refine ⟨by simpa using hdef, ht, ?_⟩
  have hnone : ∀ (ls : Except Err (List (CbiForm V))) (f : List (CbiForm V) → CbiExport V),
      (match ls with
        | .error e => ((Except.error e : Except Err (CbiExport V)), lv)
        | .ok ls => (Except.ok (f ls), lv)).1 = .ok e → ∃ l, ls = .ok l ∧ e = f l := by
    intro ls f h
    cases ls with
    | error _ => cases h
    | ok l => cases h; exact ⟨l, rfl, rfl⟩
  cases hdv : lv.deterVal with
  | none =>
    rw [hdv] at h
    dsimp only at h
    obtain ⟨l, h1, rfl⟩ := hnone _ _ h
    exact ⟨rfl, .inl ⟨fun v hv => (by cases hv), h1⟩⟩
  | some v =>
    rw [hdv] at h
    dsimp only at h
    by_cases hv : PyArith.eq v (PyArith.ofRat 0) = true
    · simp only [hv, if_true] at h
      obtain ⟨l, h1, rfl⟩ := hnone _ _ h
      exact ⟨rfl, .inl ⟨fun v' hv' => by cases hv'; exact hv, h1⟩⟩
    · have hv' : PyArith.eq v (PyArith.ofRat 0) = false := by simpa using hv
      simp only [hv', Bool.false_eq_true, if_false] at h
      cases hd : lv.dev.dist with
      | normal mu sigma =>
        have hg : lv.dev.getCentre = .ok mu := by unfold RVar.getCentre; rw [hd]
        rw [hg] at h
        dsimp only at h
        have hs : ∀ f : V → V → V, lv.dev.setCentre v (some f) =
            .ok { lv.dev with dist := .normal (f v mu) sigma } := by
          intro f; unfold RVar.setCentre; rw [hd]
        rw [hs] at h
        dsimp only at h
        split at h
        · cases h
        · rename_i ls hls
          have he : e.op = (if lv.vrtnType = some .scaling then .scaling else .offset) ∧
              e.layers = ls := by
            split at h
            · cases h; exact ⟨rfl, rfl⟩
            · split at h
              · cases h; exact ⟨rfl, rfl⟩
              · cases h
          refine ⟨he.1, .inr ⟨v, mu, sigma, rfl, hv', rfl, ?_⟩⟩
          rw [he.1, he.2]
          simp only [← hdv] at hls
          exact hls
      | _ =>
        have hg : lv.dev.getCentre = .error .notImplemented := by unfold RVar.getCentre; rw [hd]
        rw [hg] at h
        cases h

/-- The laws of exported layers: a first law combined with the valid user-defined chip and lot
layers. -/
theorem layers_law {lv : LatentVar ℝ} {target : String} {ls : List (CbiForm ℝ)} (scaling : Bool)
    (ht : target = "pymc" ∨ target = "pyro") (h : lv.cbiLayers target = .ok ls)
    (hdev : ValidDist lv.dev.dist) (hchp : lv.chpDef = true → ValidDist lv.chp.dist)
    (hlot : lv.lotDef = true → ValidDist lv.lot.dist) :
    (exportedLaw scaling (ls.map fun f => (f.framework, f.cls, f.params))) =
      sampledLaw scaling none lv.dev.dist (if lv.chpDef then some lv.chp.dist else none)
        (if lv.lotDef then some lv.lot.dist else none) ∧
    (sampledLaw scaling none lv.dev.dist (if lv.chpDef then some lv.chp.dist else none)
        (if lv.lotDef then some lv.lot.dist else none)).isSome = true := by
  have form : ∀ r : RVar ℝ, ValidDist r.dist → ∃ f form, intendedPdf r.dist = some f ∧
      r.getCbiForm target = .ok form ∧ libPdf form.framework form.cls form.params = some f := by
    intro r hr
    obtain ⟨f, hf, -, ⟨f1, a1, -, b1⟩, f2, a2, -, b2⟩ := C13_same_distribution r hr
    rcases ht with rfl | rfl
    · exact ⟨f, f1, hf, a1, b1⟩
    · exact ⟨f, f2, hf, a2, b2⟩
  obtain ⟨fd, formd, d1, d2, d3⟩ := form _ hdev
  unfold LatentVar.cbiLayers at h
  rw [d2] at h
  unfold sampledLaw layerLaw
  rw [d1]
  cases hc : lv.chpDef with
  | false =>
    cases hl : lv.lotDef with
    | false =>
      rw [hc, hl] at h
      cases h
      simp [exportedLaw, d3]
    | true =>
      obtain ⟨fl, forml, l1, l2, l3⟩ := form _ (hlot hl)
      rw [hc, hl] at h
      unfold layerForm at h
      rw [l2] at h
      cases h
      simp [exportedLaw, d3, l1, l3]
  | true =>
    obtain ⟨fc, formc, c1, c2, c3⟩ := form _ (hchp hc)
    cases hl : lv.lotDef with
    | false =>
      rw [hc, hl] at h
      unfold layerForm at h
      rw [c2] at h
      cases h
      simp [exportedLaw, d3, c1, c3]
    | true =>
      obtain ⟨fl, forml, l1, l2, l3⟩ := form _ (hlot hl)
      rw [hc, hl] at h
      unfold layerForm at h
      rw [c2, l2] at h
      cases h
      simp [exportedLaw, d3, c1, c3, l1, l3]

/-- C15: whenever an export succeeds, its law is the law of the sampled values, provided the type is
'offset' or the base value (if any) has absolute value one. -/
theorem C15_same_law_partial (lv : LatentVar ℝ) (target : String) {e : CbiExport ℝ}
    (h : (lv.cbiExport target).1 = .ok e)
    (hdev : ValidDist lv.dev.dist) (hchp : lv.chpDef = true → ValidDist lv.chp.dist)
    (hlot : lv.lotDef = true → ValidDist lv.lot.dist)
    (hbase : lv.vrtnType = some .offset ∨
      lv.vrtnType = some .scaling ∧ ∀ v, lv.deterVal = some v → |v| = 1) :
    let scaling := decide (lv.vrtnType = some .scaling)
    ∃ law, exportedLaw (decide (e.op = .scaling)) (exportedLayers e) = some law ∧
      sampledLaw scaling lv.deterVal lv.dev.dist (if lv.chpDef then some lv.chp.dist else none)
        (if lv.lotDef then some lv.lot.dist else none) = some law := by
  intro scaling
  obtain ⟨-, ht, hop, hcase⟩ := cbiExport_ok_inv h
  have hsc : decide (e.op = .scaling) = scaling := by
    rw [hop]
    by_cases hs : lv.vrtnType = some .scaling <;> simp [scaling, hs]
  rw [hsc]
  rcases hcase with ⟨hzero, hls⟩ | ⟨v, mu, sigma, hv, hv0, hd, hls⟩
  · obtain ⟨h1, h2⟩ := layers_law scaling ht hls hdev hchp hlot
    obtain ⟨law, hlaw⟩ := Option.isSome_iff_exists.1 h2
    refine ⟨law, by rw [← hlaw]; exact h1, ?_⟩
    rw [← hlaw]
    cases hdv : lv.deterVal with
    | none => rfl
    | some v =>
      have hv : v = 0 := by
        have := hzero v hdv
        have h' : decide (v = ((0 : ℚ) : ℝ)) = true := this
        simpa using h'
      have hoff : scaling = false := by
        rcases hbase with hb | ⟨_, hb⟩
        · simp [scaling, hb]
        · have := hb v hdv
          rw [hv] at this
          norm_num at this
      unfold sampledLaw
      rw [hoff, hv]
      simp
  · rw [hd] at hdev
    obtain ⟨h1, h2⟩ := layers_law scaling ht hls hdev hchp hlot
    obtain ⟨law, hlaw⟩ := Option.isSome_iff_exists.1 h2
    refine ⟨law, by rw [← hlaw]; exact h1, ?_⟩
    rw [← hlaw, hv, hd]
    unfold sampledLaw
    simp only [intendedPdf]
    have key : (pdfLaw (numpyNormal mu sigma)).map (fun x => if scaling = true then v * x else v + x) =
        pdfLaw (numpyNormal (e.op.op v mu) sigma) := by
      have hs : 0 < sigma := hdev
      rw [normalLaw hs, normalLaw hs]
      rcases hbase with hb | ⟨hb, habs⟩
      · have hs : scaling = false := by simp [scaling, hb]
        have hop' : e.op.op v mu = v + mu := by rw [hop, hb]; rfl
        rw [hop', hs, add_comm v mu]
        simp only [Bool.false_eq_true, if_false]
        exact gaussianReal_map_const_add v
      · have hs : scaling = true := by simp [scaling, hb]
        have hop' : e.op.op v mu = v * mu := by rw [hop, hb]; rfl
        rw [hop', hs]
        simp only [if_true]
        refine (gaussianReal_map_const_mul v).trans ?_
        congr 1
        have hv2 : v ^ 2 = 1 := by rw [← sq_abs, habs v hv]; norm_num
        apply NNReal.eq
        show v ^ 2 * sigma ^ 2 = sigma ^ 2
        rw [hv2, one_mul]
    simp only [Option.bind_eq_bind, Option.bind_some]
    rw [key]

/-- A base value of 4 added to a normal device layer, with a chip layer: exported as Normal(7, 1) and
the chip's uniform distribution. -/
def exOffset : LatentVar ℝ :=
  { unitary := 0, dev := ⟨1, .normal 3 1, some "v_dev"⟩, chp := ⟨2, .uniform 0 1, some "v_chp"⟩,
    lot := detUnit 0, devDef := true, chpDef := true, lotDef := false, deterVal := some 4,
    name := some "v", vrtnType := some .offset }

/-- Exporting a normal device layer with a nonzero base value. -/
theorem export_normal {lv : LatentVar ℝ} {v mu sigma : ℝ} (hdef : lv.devDef = true)
    (hc : lv.chpDef = false) (hl : lv.lotDef = false) (hv : lv.deterVal = some v) (h0 : v ≠ 0)
    (hd : lv.dev.dist = .normal mu sigma) : ∃ e, (lv.cbiExport "pymc").1 = .ok e ∧
      exportedLayers e = [("pymc", "Normal",
        [("mu", if lv.vrtnType = some .scaling then v * mu else v + mu), ("sigma", sigma)])] := by
  obtain ⟨u, ⟨i, d, nm⟩, chp, lot, a, b, c, dv, name, vt⟩ := lv
  simp only at hdef hc hl hv hd
  subst hdef hc hl hv hd
  have hz : PyArith.eq v (PyArith.ofRat 0) = false := by
    show decide (v = ((0 : ℚ) : ℝ)) = false
    simpa using h0
  unfold LatentVar.cbiExport
  simp only [Bool.not_true, Bool.false_eq_true, if_false, hz, ne_eq, not_true_eq_false, false_and,
    RVar.getCentre, RVar.setCentre]
  have hL : ∀ x : ℝ, ∃ f, LatentVar.cbiLayers (V := ℝ)
      ⟨u, ⟨i, .normal x sigma, nm⟩, chp, lot, true, false, false, some v, name, vt⟩ "pymc" =
        .ok [f] ∧ (f.framework, f.cls, f.params) =
          ("pymc", "Normal", [("mu", x), ("sigma", sigma)]) := fun x => ⟨_, rfl, rfl⟩
  obtain ⟨f, hf, hf'⟩ := hL (if vt = some .scaling then v * mu else v + mu)
  have hop : VType.op (if vt = some VType.scaling then VType.scaling else VType.offset) v mu =
      if vt = some .scaling then v * mu else v + mu := by
    split <;> rfl
  rw [hop, hf]
  simp only
  split
  · exact ⟨_, rfl, by simp [exportedLayers, hf']⟩
  · exact ⟨_, rfl, by simp [exportedLayers, hf']⟩

example : ValidDist exOffset.dev.dist ∧ (exOffset.chpDef = true → ValidDist exOffset.chp.dist) ∧
    exOffset.vrtnType = some .offset := by
  refine ⟨?_, fun _ => ?_, rfl⟩
  · show (0 : ℝ) < 1; norm_num
  · show (0 : ℝ) < 1; norm_num

/-- The hypotheses of `C15_same_law_partial` can be met with a base value. -/
example : ∃ e, (({ exOffset with chpDef := false, chp := detUnit 0 }).cbiExport "pymc").1 = .ok e ∧
    exportedLayers e = [("pymc", "Normal", [("mu", 7), ("sigma", 1)])] := by
  obtain ⟨e, h1, h2⟩ := export_normal (lv := { exOffset with chpDef := false, chp := detUnit 0 })
    (v := 4) (mu := 3) (sigma := 1) rfl rfl rfl rfl (by norm_num) rfl
  refine ⟨e, h1, ?_⟩
  rw [h2]
  have ht : ¬ VType.offset = VType.scaling := by decide
  norm_num [exOffset, ht]

/-- C15 is violated for 'scaling' (the default): for every base value of absolute value other than 0
and 1 the exported normal distribution has the wrong spread. -/
theorem C15_scaling_spread_violated (lv : LatentVar ℝ) {v mu sigma : ℝ} (hdef : lv.devDef = true)
    (hc : lv.chpDef = false) (hl : lv.lotDef = false) (hv : lv.deterVal = some v) (h0 : v ≠ 0)
    (h1 : |v| ≠ 1) (hd : lv.dev.dist = .normal mu sigma) (hs : 0 < sigma)
    (ht : lv.vrtnType = some .scaling) :
    ∃ e, (lv.cbiExport "pymc").1 = .ok e ∧
      exportedLaw true (exportedLayers e) = some (gaussianReal (v * mu) ⟨sigma ^ 2, sq_nonneg _⟩) ∧
      sampledLaw true lv.deterVal lv.dev.dist none none =
        some (gaussianReal (v * mu) ⟨(v * sigma) ^ 2, sq_nonneg _⟩) ∧
      exportedLaw true (exportedLayers e) ≠ sampledLaw true lv.deterVal lv.dev.dist none none := by
  obtain ⟨e, he, hlay⟩ := export_normal hdef hc hl hv h0 hd
  have a1 : exportedLaw true (exportedLayers e) =
      some (gaussianReal (v * mu) ⟨sigma ^ 2, sq_nonneg _⟩) := by
    rw [hlay, ht]
    simp only [exportedLaw, if_true]
    show some (pdfLaw (pymcNormal (v * mu) sigma)) = _
    rw [pymcNormal_eq hs, normalLaw hs]
  have a2 : sampledLaw true lv.deterVal lv.dev.dist none none =
      some (gaussianReal (v * mu) ⟨(v * sigma) ^ 2, sq_nonneg _⟩) := by
    rw [hv, hd]
    show some ((pdfLaw (numpyNormal mu sigma)).map (fun x => v * x)) = _
    rw [normalLaw hs]
    congr 1
    refine (gaussianReal_map_const_mul v).trans ?_
    congr 1
    apply NNReal.eq
    show v ^ 2 * sigma ^ 2 = (v * sigma) ^ 2
    ring
  refine ⟨e, he, a1, a2, ?_⟩
  rw [a1, a2]
  intro h
  have := (gaussianReal_ext_iff.1 (Option.some.inj h)).2
  have h2 : sigma ^ 2 = (v * sigma) ^ 2 := congrArg NNReal.toReal this
  have h3 : v ^ 2 = 1 := by
    have hsq : sigma ^ 2 ≠ 0 := by positivity
    have : (v ^ 2 - 1) * sigma ^ 2 = 0 := by ring_nf; ring_nf at h2; linarith
    rcases mul_eq_zero.1 this with h | h
    · linarith
    · exact absurd h hsq
  apply h1
  rw [← sq_abs] at h3
  nlinarith [abs_nonneg v]

/-- A variable of the violating kind: base 2, Normal(1, 1). -/
example : ∃ lv : LatentVar ℝ, LatentVar.mk' (some ⟨1, .normal 1 1, none⟩) none none (some 2)
      (some "v") "scaling" = .ok lv ∧ lv.devDef = true ∧ lv.chpDef = false ∧ lv.lotDef = false ∧
      lv.deterVal = some 2 ∧ lv.dev.dist = .normal 1 1 ∧ lv.vrtnType = some .scaling :=
  ⟨_, rfl, rfl, rfl, rfl, rfl, rfl, rfl⟩

end

end Gerabaldi.Props
