import Verif.Spec.Tapes
import Verif.Lemmas.Latent
import Verif.Props.CbiExport
import Mathlib.Probability.Independence.InfinitePi

/-! # C91: the random variation of lots, chips and devices -/

namespace Gerabaldi.Props
open Gerabaldi Spec MeasureTheory ProbabilityTheory

variable {N : Numpy}

/-- The tapes after a sample. -/
def afterSample (r : RVar (Ext ℝ)) (n : Nat) (next : Nat → Nat) : Nat → Nat :=
  match r.dist with
  | .deterministic _ => next
  | _ => fun j => if j = r.id then next r.id + n else next j

theorem tape_sample {r : RVar (Ext ℝ)} {f : ℝ → ℝ} (h : N.value r.dist = some f) (n : Nat) (w : Tapes N) :
    r.sample n w = (.ok ((List.range n).map fun i => .fin (f (w.tape r.id (w.next r.id + i)))),
      ⟨w.tape, afterSample r n w.next⟩) := by
  obtain ⟨id, dist, name⟩ := r
  unfold RVar.sample afterSample
  cases dist with
  | deterministic v =>
    cases v <;> simp only [Numpy.value, Option.some.injEq, reduceCtorEq] at h
    subst h
    simp only [M.pure_run, List.map_const', List.length_range]
  | normal a b =>
    cases a <;> cases b <;> simp only [Numpy.value, Option.some.injEq, reduceCtorEq] at h
    subst h
    rfl
  | gamma a b =>
    cases a <;> cases b <;> simp only [Numpy.value, reduceCtorEq] at h
    rename_i a b
    split_ifs at h with hb
    cases h
    have : PyArith.eq (Ext.fin b) (PyArith.ofRat 0) = false := by
      show decide (b = ((0 : ℚ) : ℝ)) = false
      simpa using hb
    simp only [Dist.getDistParams, Dist.paramsForNumpy, this, String.reduceEq, if_true, if_false, Bool.false_eq_true]
    have hd : PyArith.div (PyArith.ofRat 1) (Ext.fin b) = Ext.fin (1 / b) := by
      show Ext.div (Ext.fin ((1 : ℚ) : ℝ)) (Ext.fin b) = _
      simp [Ext.div, hb]
    rw [hd]
    rfl
  | uniform a b =>
    cases a <;> cases b <;> simp only [Numpy.value, Option.some.injEq, reduceCtorEq] at h
    subst h
    rfl

/-- What `gen_latent_vals` returns. -/
theorem tape_latent {lv : LatentVar (Ext ℝ)} {fl fc fd : ℝ → ℝ} (hl : N.value lv.lot.dist = some fl)
    (hc : N.value lv.chp.dist = some fc) (hd : N.value lv.dev.dist = some fd) (L C D : Nat) (w : Tapes N) :
    ∃ r w', lv.genLatentVals D C L w = (.ok r, w') ∧ r.nl = L ∧ r.nc = C ∧ r.nd = D ∧
      ∀ l < L, ∀ c < C, ∀ d < D,
        let x : Ext ℝ := .fin (fd (w.tape lv.dev.id (afterSample lv.chp (L * C) (afterSample lv.lot L w.next) lv.dev.id +
          ((l * C + c) * D + d))))
        let y : Ext ℝ := .fin (fc (w.tape lv.chp.id (afterSample lv.lot L w.next lv.chp.id + (l * C + c))))
        let z : Ext ℝ := .fin (fl (w.tape lv.lot.id (w.next lv.lot.id + l)))
        r.at' l c d = match lv.deterVal with
          | some v => lv.op (lv.op (lv.op v x) y) z
          | none => lv.op (lv.op x y) z := by
  have h1 := tape_sample hl L w
  have h2 := tape_sample hc (L * C) (⟨w.tape, afterSample lv.lot L w.next⟩ : Tapes N)
  have h3 := tape_sample hd (L * C * D) (⟨w.tape, afterSample lv.chp (L * C) (afterSample lv.lot L w.next)⟩ : Tapes N)
  refine ⟨_, _, genLatentVals_run lv h1 h2 h3 (by simp) (by simp) (by simp), rfl, rfl, rfl, ?_⟩
  intro l hl c hc d hd
  have i3 := Arr3.index_lt hl hc hd
  have i2 : l * C + c < L * C := by
    have := Arr3.index_lt (D := 1) hl hc Nat.zero_lt_one
    omega
  rw [Arr3.at_ofFn _ hl hc hd]
  rw [List.getD_eq_getElem _ _ (by simpa using i3), List.getD_eq_getElem _ _ (by simpa using i2),
    List.getD_eq_getElem _ _ (by simpa using hl)]
  simp only [List.getElem_map, List.getElem_range]
  cases lv.deterVal <;> rfl

/-- Whether a random variable uses its generator. -/
def draws (r : RVar (Ext ℝ)) : Bool :=
  match r.dist with
  | .deterministic _ => false
  | _ => true

theorem after_next {r : RVar (Ext ℝ)} (h : draws r = true) (n : Nat) (next : Nat → Nat) :
    afterSample r n next r.id = next r.id + n := by
  unfold afterSample
  unfold draws at h
  split at h <;> simp_all

theorem after_le (r : RVar (Ext ℝ)) (n : Nat) (next : Nat → Nat) (i : Nat) : next i ≤ afterSample r n next i := by
  have key : next i ≤ (fun j => if j = r.id then next r.id + n else next j) i := by
    dsimp only
    split_ifs with h
    · rw [h]
      omega
    · exact le_rfl
  unfold afterSample
  cases r.dist with
  | deterministic _ => exact le_rfl
  | _ => exact key

theorem value_const {r : RVar (Ext ℝ)} {f : ℝ → ℝ} (hf : N.value r.dist = some f) (h : draws r = false) (u v : ℝ) :
    f u = f v := by
  unfold draws at h
  split at h
  · rename_i a ha
    rw [ha] at hf
    cases a <;> simp only [Numpy.value, Option.some.injEq, reduceCtorEq] at hf
    rw [← hf]
  · cases h

/-- The place on the tapes where the number for a part comes from. Layers without variation use no number: they
are given places on tapes that nothing else uses. -/
def tapePlace (lv : LatentVar (Ext ℝ)) (next : Nat → Nat) {L C D : Nat} : Part L C D → Nat × Nat
  | .lot l => (if draws lv.lot then lv.lot.id else lv.lot.id + lv.chp.id + lv.dev.id + 1, next lv.lot.id + l)
  | .chp l c => (if draws lv.chp then lv.chp.id else lv.lot.id + lv.chp.id + lv.dev.id + 2,
      afterSample lv.lot L next lv.chp.id + (l * C + c))
  | .dev l c d => (if draws lv.dev then lv.dev.id else lv.lot.id + lv.chp.id + lv.dev.id + 3,
      afterSample lv.chp (L * C) (afterSample lv.lot L next) lv.dev.id + ((l * C + c) * D + d))

theorem pair_inj {C a b c d : Nat} (hb : b < C) (hd : d < C) (h : a * C + b = c * C + d) : a = c ∧ b = d := by
  have h1 : a = c := by
    have e := congrArg (· / C) h
    have hC : 0 < C := by omega
    simp only [Nat.mul_comm _ C, Nat.mul_add_div hC, Nat.div_eq_of_lt hb, Nat.div_eq_of_lt hd, Nat.add_zero] at e
    exact e
  subst h1
  exact ⟨rfl, by omega⟩

theorem tapePlace_injective (lv : LatentVar (Ext ℝ)) (next : Nat → Nat) {L C D : Nat} :
    Function.Injective (tapePlace lv next (L := L) (C := C) (D := D)) := by
  have hlc : ∀ (l : Fin L) (l' : Fin L) (c : Fin C), tapePlace lv next (.lot l : Part L C D) ≠ tapePlace lv next (.chp l' c : Part L C D) := by
    intro l l' c h
    simp only [tapePlace, Prod.mk.injEq] at h
    obtain ⟨h1, h2⟩ := h
    have := l.2
    split_ifs at h1 with a b <;> try omega
    rw [← h1, after_next a] at h2
    omega
  have hld : ∀ (l : Fin L) (l' : Fin L) (c : Fin C) (d : Fin D), tapePlace lv next (.lot l : Part L C D) ≠ tapePlace lv next (.dev l' c d) := by
    intro l l' c d h
    simp only [tapePlace, Prod.mk.injEq] at h
    obtain ⟨h1, h2⟩ := h
    have := l.2
    split_ifs at h1 with a b <;> try omega
    have h3 := after_le lv.chp (L * C) (afterSample lv.lot L next) lv.lot.id
    rw [after_next a] at h3
    rw [← h1] at h2
    omega
  have hcd : ∀ (l : Fin L) (c' : Fin C) (l' : Fin L) (c : Fin C) (d : Fin D),
      tapePlace lv next (.chp l c' : Part L C D) ≠ tapePlace lv next (.dev l' c d) := by
    intro l c' l' c d h
    simp only [tapePlace, Prod.mk.injEq] at h
    obtain ⟨h1, h2⟩ := h
    have : l.1 * C + c'.1 < L * C := by
      have := Arr3.index_lt (D := 1) l.2 c'.2 Nat.zero_lt_one
      omega
    split_ifs at h1 with a b <;> try omega
    rw [← h1, after_next a] at h2
    omega
  intro p q h
  cases p with
  | lot l =>
    cases q with
    | lot l' =>
      simp only [tapePlace, Prod.mk.injEq] at h
      congr 1
      exact Fin.ext (by omega)
    | chp l' c => exact absurd h (hlc _ _ _)
    | dev l' c d => exact absurd h (hld _ _ _ _)
  | chp l c =>
    cases q with
    | lot l' => exact absurd h.symm (hlc _ _ _)
    | chp l' c' =>
      simp only [tapePlace, Prod.mk.injEq] at h
      obtain ⟨h1, h2⟩ := pair_inj c.2 c'.2 (Nat.add_left_cancel h.2)
      congr 1
      · exact Fin.ext h1
      · exact Fin.ext h2
    | dev l' c' d => exact absurd h (hcd _ _ _ _ _)
  | dev l c d =>
    cases q with
    | lot l' => exact absurd h.symm (hld _ _ _ _)
    | chp l' c' => exact absurd h.symm (hcd _ _ _ _ _)
    | dev l' c' d' =>
      simp only [tapePlace, Prod.mk.injEq] at h
      obtain ⟨h0, h2⟩ := pair_inj d.2 d'.2 (Nat.add_left_cancel h.2)
      obtain ⟨h1, h3⟩ := pair_inj c.2 c'.2 h0
      congr 1
      · exact Fin.ext h1
      · exact Fin.ext h3
      · exact Fin.ext h2

theorem value_measurable {P₀ : Measure ℝ} (hN : N.Correct P₀) {d : Dist (Ext ℝ)} {f : ℝ → ℝ}
    (h : N.value d = some f) : Measurable f := by
  unfold Numpy.value at h
  split at h
  · cases h
    exact measurable_const
  · cases h
    exact hN.normal _ _
  · split_ifs at h
    cases h
    exact hN.gamma _ _
  · cases h
    exact hN.uniform _ _
  · cases h

section
variable {Ω : Type} [MeasurableSpace Ω] {P : Measure Ω} {P₀ : Measure ℝ} {raw : Nat → Nat → Ω → ℝ}

/-- The values that `gen_latent_vals` gives the devices are made of independent contributions: one for each lot,
one for each chip, one for each device, each with the distribution of its layer. -/
theorem C91_layers (hN : N.Correct P₀) (hr : Standard P P₀ raw) {lv : LatentVar (Ext ℝ)} {t : VType}
    (ht : lv.vrtnType = some t) {base : Option ℝ} (hb : lv.deterVal = base.map .fin) {fl fc fd : ℝ → ℝ}
    (hl : N.value lv.lot.dist = some fl) (hc : N.value lv.chp.dist = some fc) (hd : N.value lv.dev.dist = some fd)
    (L C D : Nat) (next : Nat → Nat) :
    ∃ X : Part L C D → Ω → ℝ, iIndepFun X P ∧ (∀ k, Measurable (X k)) ∧
      (∀ k, P.map (X k) = P₀.map (layerOfPart fl fc fd k)) ∧
      ∀ ω, ∃ r w', lv.genLatentVals D C L (⟨fun i j => raw i j ω, next⟩ : Tapes N) = (.ok r, w') ∧
        r.nl = L ∧ r.nc = C ∧ r.nd = D ∧
        ∀ (l : Fin L) (c : Fin C) (d : Fin D), r.at' l c d = .fin (layeredValue t base (fun k => X k ω) l c d) := by
  have hm : ∀ k : Part L C D, Measurable (layerOfPart fl fc fd k) := by
    intro k
    cases k
    · exact value_measurable hN hl
    · exact value_measurable hN hc
    · exact value_measurable hN hd
  refine ⟨fun k => layerOfPart fl fc fd k ∘ raw (tapePlace lv next k).1 (tapePlace lv next k).2, ?_, ?_, ?_, ?_⟩
  · exact (hr.indep.precomp (tapePlace_injective lv next)).comp _ hm
  · exact fun k => (hm k).comp (hr.meas _ _)
  · intro k
    rw [← Measure.map_map (hm k) (hr.meas _ _), hr.law]
  · intro ω
    obtain ⟨r, w', h1, e1, e2, e3, h2⟩ := tape_latent hl hc hd L C D (⟨fun i j => raw i j ω, next⟩ : Tapes N)
    refine ⟨r, w', h1, e1, e2, e3, ?_⟩
    intro l c d
    have hz : ∀ u, fl (raw lv.lot.id u ω) = fl (raw (if draws lv.lot then lv.lot.id else
        lv.lot.id + lv.chp.id + lv.dev.id + 1) u ω) := by
      intro u
      split_ifs with h
      · rfl
      · exact value_const hl (by simpa using h) _ _
    have hy : ∀ u, fc (raw lv.chp.id u ω) = fc (raw (if draws lv.chp then lv.chp.id else
        lv.lot.id + lv.chp.id + lv.dev.id + 2) u ω) := by
      intro u
      split_ifs with h
      · rfl
      · exact value_const hc (by simpa using h) _ _
    have hx : ∀ u, fd (raw lv.dev.id u ω) = fd (raw (if draws lv.dev then lv.dev.id else
        lv.lot.id + lv.chp.id + lv.dev.id + 3) u ω) := by
      intro u
      split_ifs with h
      · rfl
      · exact value_const hd (by simpa using h) _ _
    rw [h2 l l.2 c c.2 d d.2, hb]
    simp only [hz, hy, hx]
    have hop : lv.op = t.op := by
      unfold LatentVar.op
      rw [ht]
    rw [hop]
    cases t with
    | offset =>
      cases base with
      | none => simp only [Option.map_none, VType.op, layeredValue, Option.getD_none, zero_add]; rfl
      | some b => rfl
    | scaling =>
      cases base with
      | none => simp only [Option.map_none, VType.op, layeredValue, Option.getD_none, one_mul]; rfl
      | some b => rfl

variable (hN : N.Correct P₀) (hr : Standard P P₀ raw) {lv : LatentVar (Ext ℝ)} {t : VType}
  (ht : lv.vrtnType = some t) {base : Option ℝ} (hb : lv.deterVal = base.map .fin) {fl fc fd : ℝ → ℝ}
  (hl : N.value lv.lot.dist = some fl) (hc : N.value lv.chp.dist = some fc) (hd : N.value lv.dev.dist = some fd)
  {next : Nat → Nat} {L C D : Nat} {Y : Fin L → Fin C → Fin D → Ω → ℝ} (hY : RandomValues N raw lv next Y)

include hN hr ht hb hl hc hd

/-- There always are such values. -/
theorem C91_values : ∃ Y : Fin L → Fin C → Fin D → Ω → ℝ, RandomValues N raw lv next Y := by
  obtain ⟨X, -, -, -, h⟩ := C91_layers hN hr ht hb hl hc hd L C D next
  exact ⟨fun l c d ω => layeredValue t base (fun k => X k ω) l c d, h⟩

include hY

private theorem values_layers : ∃ X : Part L C D → Ω → ℝ, iIndepFun X P ∧ (∀ k, Measurable (X k)) ∧
    (∀ k, P.map (X k) = P₀.map (layerOfPart fl fc fd k)) ∧
    ∀ l c d ω, Y l c d ω = layeredValue t base (fun k => X k ω) l c d := by
  obtain ⟨X, h1, h2, h3, h4⟩ := C91_layers hN hr ht hb hl hc hd L C D next
  refine ⟨X, h1, h2, h3, fun l c d ω => ?_⟩
  obtain ⟨r, w', e1, -, -, -, e2⟩ := h4 ω
  obtain ⟨r', w'', e1', -, -, -, e2'⟩ := hY ω
  rw [e1] at e1'
  cases e1'
  exact (Ext.fin.inj ((e2 l c d).symm.trans (e2' l c d))).symm

omit hN hr ht hb hl hc hd hY in
private theorem layered_measurable (t : VType) (base : Option ℝ) (l : Fin L) (c : Fin C) (d : Fin D) :
    Measurable fun x : Part L C D → ℝ => layeredValue t base x l c d := by
  cases t <;> unfold layeredValue <;> fun_prop

variable [IsProbabilityMeasure P]

/-- Interchanging lots, chips within lots, and devices within chips does not change the joint distribution of the
values of all devices. In particular all devices have the same distribution. -/
theorem C91_exchangeable (σ : Equiv.Perm (Fin L)) (τ : Fin L → Equiv.Perm (Fin C))
    (υ : Fin L → Fin C → Equiv.Perm (Fin D)) :
    P.map (fun ω l c d => Y (σ l) (τ l c) (υ l c d) ω) = P.map (fun ω l c d => Y l c d ω) := by
  obtain ⟨X, h1, h2, h3, h4⟩ := values_layers hN hr ht hb hl hc hd hY
  let π : Part L C D → Part L C D := fun k => match k with
    | .lot l => .lot (σ l)
    | .chp l c => .chp (σ l) (τ l c)
    | .dev l c d => .dev (σ l) (τ l c) (υ l c d)
  have hπ : Function.Injective π := by
    intro p q h
    cases p <;> cases q <;> simp only [π, Part.lot.injEq, Part.chp.injEq, Part.dev.injEq, reduceCtorEq,
      EmbeddingLike.apply_eq_iff_eq] at h
    · rw [h]
    · obtain ⟨rfl, h⟩ := h
      rw [(τ _).injective h]
    · obtain ⟨rfl, h, h'⟩ := h
      cases (τ _).injective h
      rw [(υ _ _).injective h']
  have hlay : ∀ k, layerOfPart fl fc fd (π k) = layerOfPart fl fc fd k := by
    intro k
    cases k <;> rfl
  have e1 := (iIndepFun_iff_map_fun_eq_pi_map (fun k => (h2 k).aemeasurable)).1 h1
  have e2 := (iIndepFun_iff_map_fun_eq_pi_map (fun k => (h2 (π k)).aemeasurable)).1 (h1.precomp hπ)
  simp only [h3, hlay] at e1 e2
  let G : (Part L C D → ℝ) → Fin L → Fin C → Fin D → ℝ := fun x l c d => layeredValue t base x l c d
  have hG : Measurable G := by
    refine measurable_pi_lambda _ fun l => measurable_pi_lambda _ fun c => measurable_pi_lambda _ fun d => ?_
    exact layered_measurable t base l c d
  have g1 : (fun ω l c d => Y l c d ω) = G ∘ fun ω k => X k ω := by
    funext ω l c d
    exact h4 l c d ω
  have g2 : (fun ω l c d => Y (σ l) (τ l c) (υ l c d) ω) = G ∘ fun ω k => X (π k) ω := by
    funext ω l c d
    rw [h4]
    show _ = layeredValue t base (fun k => X (π k) ω) l c d
    cases t <;> rfl
  rw [g1, g2, ← Measure.map_map hG (measurable_pi_lambda _ fun k => h2 (π k)),
    ← Measure.map_map hG (measurable_pi_lambda _ fun k => h2 k), e1, e2]

/-- The lot of a part. -/
private def lotOfPart : Part L C D → Fin L
  | .lot l => l
  | .chp l _ => l
  | .dev l _ _ => l

omit [IsProbabilityMeasure P] in
/-- The devices of some lots are independent of the devices of other lots. -/
theorem C91_lots {A B : Finset (Fin L)} (hAB : Disjoint A B) :
    IndepFun (fun ω (i : A × Fin C × Fin D) => Y i.1 i.2.1 i.2.2 ω) (fun ω (i : B × Fin C × Fin D) => Y i.1 i.2.1 i.2.2 ω)
      P := by
  obtain ⟨X, h1, h2, h3, h4⟩ := values_layers hN hr ht hb hl hc hd hY
  obtain ⟨S, hS, hmem⟩ : ∃ S : Finset (Fin L) → Finset (Part L C D), Disjoint (S A) (S B) ∧
      ∀ A, ∀ l ∈ A, Part.lot l ∈ S A ∧ (∀ c, Part.chp l c ∈ S A) ∧ ∀ c d, Part.dev l c d ∈ S A := by
    refine ⟨fun A => Finset.univ.filter fun k => lotOfPart k ∈ A, ?_, ?_⟩
    · rw [Finset.disjoint_left]
      intro k ha hb
      exact Finset.disjoint_left.1 hAB (Finset.mem_filter.1 ha).2 (Finset.mem_filter.1 hb).2
    · intro A l hA
      exact ⟨Finset.mem_filter.2 ⟨Finset.mem_univ _, hA⟩, fun c => Finset.mem_filter.2 ⟨Finset.mem_univ _, hA⟩,
        fun c d => Finset.mem_filter.2 ⟨Finset.mem_univ _, hA⟩⟩
  let G : (A : Finset (Fin L)) → (S A → ℝ) → A × Fin C × Fin D → ℝ := fun A x i =>
    layeredValue t base (fun k => if h : k ∈ S A then x ⟨k, h⟩ else 0) i.1 i.2.1 i.2.2
  have hG : ∀ A, Measurable (G A) := by
    intro A
    have he : Measurable fun (x : S A → ℝ) (k : Part L C D) => if h : k ∈ S A then x ⟨k, h⟩ else 0 := by
      refine measurable_pi_lambda _ fun k => ?_
      split_ifs with h
      · exact measurable_pi_apply (⟨k, h⟩ : S A)
      · exact measurable_const
    refine measurable_pi_lambda _ fun i => ?_
    exact (layered_measurable t base i.1.1 i.2.1 i.2.2).comp he
  have hg : ∀ A : Finset (Fin L), (fun ω (i : A × Fin C × Fin D) => Y i.1 i.2.1 i.2.2 ω) =
      G A ∘ fun ω (k : S A) => X k ω := by
    intro A
    funext ω i
    obtain ⟨⟨l, hlA⟩, c, d⟩ := i
    have m1 := (hmem A l hlA).1
    have m2 := (hmem A l hlA).2.1 c
    have m3 := (hmem A l hlA).2.2 c d
    rw [h4]
    cases t <;> simp only [G, Function.comp, layeredValue, m1, m2, m3, dif_pos]
  rw [hg A, hg B]
  exact (h1.indepFun_finset _ _ hS h2).comp (hG A) (hG B)

/-- The covariance of the values of two devices, for additive variation: what they have in common. -/
theorem C91_covariance (hoff : t = .offset) (ml : MemLp fl 2 P₀) (mc : MemLp fc 2 P₀) (md : MemLp fd 2 P₀)
    (l l' : Fin L) (c c' : Fin C) (d d' : Fin D) :
    cov[Y l c d, Y l' c' d'; P] = (if l = l' then Var[fl; P₀] else 0) +
      (if l = l' ∧ c = c' then Var[fc; P₀] else 0) + (if l = l' ∧ c = c' ∧ d = d' then Var[fd; P₀] else 0) := by
  obtain ⟨X, h1, h2, h3, h4⟩ := values_layers hN hr ht hb hl hc hd hY
  subst hoff
  have hf : ∀ k : Part L C D, Measurable (layerOfPart fl fc fd k) := by
    intro k
    cases k
    · exact value_measurable hN hl
    · exact value_measurable hN hc
    · exact value_measurable hN hd
  have hm : ∀ k : Part L C D, MemLp (layerOfPart fl fc fd k) 2 P₀ := by
    intro k
    cases k <;> assumption
  have hx : ∀ k, MemLp (X k) 2 P := by
    intro k
    have : MemLp id 2 (P.map (X k)) := by
      rw [h3, memLp_map_measure_iff aestronglyMeasurable_id (hf k).aemeasurable]
      exact hm k
    exact (memLp_map_measure_iff aestronglyMeasurable_id (h2 k).aemeasurable).1 this
  have hv : ∀ k, Var[X k; P] = Var[layerOfPart fl fc fd k; P₀] := by
    intro k
    have e1 := variance_map (X := id) (μ := P) (Y := X k) aemeasurable_id (h2 k).aemeasurable
    have e2 := variance_map (X := id) (μ := P₀) (Y := layerOfPart fl fc fd k) aemeasurable_id (hf k).aemeasurable
    rw [h3, e2] at e1
    exact e1.symm
  have hcov : ∀ k k', cov[X k, X k'; P] = if k = k' then Var[layerOfPart fl fc fd k; P₀] else 0 := by
    intro k k'
    split_ifs with h
    · subst h
      rw [covariance_self (h2 k).aemeasurable, hv]
    · exact (h1.indepFun h).covariance_eq_zero (hx k) (hx k')
  have hy : ∀ l c d, Y l c d = fun ω => base.getD 0 + (X (.dev l c d) + X (.chp l c) + X (.lot l)) ω := by
    intro l c d
    funext ω
    rw [h4]
    simp only [layeredValue, Pi.add_apply]
    ring
  have hs : ∀ l c d, MemLp (X (.dev l c d) + X (.chp l c) + X (.lot l)) 2 P := fun l c d =>
    ((hx _).add (hx _)).add (hx _)
  have hi : ∀ l c d, Integrable (X (.dev l c d) + X (.chp l c) + X (.lot l)) P := fun l c d =>
    (hs l c d).integrable (by norm_num)
  rw [hy, hy, covariance_const_add_left (hi _ _ _), covariance_const_add_right (hi _ _ _),
    covariance_add_left ((hx _).add (hx _)) (hx _) (hs _ _ _), covariance_add_left (hx _) (hx _) (hs _ _ _),
    covariance_add_right (hx _) ((hx _).add (hx _)) (hx _), covariance_add_right (hx _) (hx _) (hx _),
    covariance_add_right (hx _) ((hx _).add (hx _)) (hx _), covariance_add_right (hx _) (hx _) (hx _),
    covariance_add_right (hx _) ((hx _).add (hx _)) (hx _), covariance_add_right (hx _) (hx _) (hx _)]
  simp only [hcov, Part.dev.injEq, Part.chp.injEq, Part.lot.injEq, reduceCtorEq, if_false, layerOfPart]
  ring

/-- The mean of the values: the sum of the means of the layers for additive variation, their product for scaling
variation. -/
theorem C91_mean (ml : Integrable fl P₀) (mc : Integrable fc P₀) (md : Integrable fd P₀)
    (l : Fin L) (c : Fin C) (d : Fin D) :
    P[Y l c d] = match t with
      | .offset => base.getD 0 + P₀[fd] + P₀[fc] + P₀[fl]
      | .scaling => base.getD 1 * P₀[fd] * P₀[fc] * P₀[fl] := by
  obtain ⟨X, h1, h2, h3, h4⟩ := values_layers hN hr ht hb hl hc hd hY
  have hf : ∀ k : Part L C D, Measurable (layerOfPart fl fc fd k) := by
    intro k
    cases k
    · exact value_measurable hN hl
    · exact value_measurable hN hc
    · exact value_measurable hN hd
  have hi : ∀ k, Integrable (X k) P := by
    intro k
    have : Integrable id (P.map (X k)) := by
      rw [h3, integrable_map_measure aestronglyMeasurable_id (hf k).aemeasurable]
      cases k <;> assumption
    exact (integrable_map_measure aestronglyMeasurable_id (h2 k).aemeasurable).1 this
  have he : ∀ k, P[X k] = P₀[layerOfPart fl fc fd k] := by
    intro k
    have e1 := integral_map (μ := P) (h2 k).aemeasurable (f := id) aestronglyMeasurable_id
    have e2 := integral_map (μ := P₀) (hf k).aemeasurable (f := id) aestronglyMeasurable_id
    rw [h3, e2] at e1
    exact e1.symm
  cases t with
  | offset =>
    have hy : Y l c d = fun ω => base.getD 0 + X (.dev l c d) ω + X (.chp l c) ω + X (.lot l) ω := by
      funext ω
      rw [h4]
      rfl
    have i1 : Integrable (fun ω => base.getD 0 + X (.dev l c d) ω) P := (integrable_const _).add (hi _)
    have i2 : Integrable (fun ω => base.getD 0 + X (.dev l c d) ω + X (.chp l c) ω) P := i1.add (hi _)
    rw [hy]
    show ∫ ω, base.getD 0 + X (.dev l c d) ω + X (.chp l c) ω + X (.lot l) ω ∂P = _
    rw [integral_add i2 (hi _), integral_add i1 (hi _), integral_add (integrable_const _) (hi _), he, he, he]
    simp [layerOfPart]
  | scaling =>
    have hy : Y l c d = fun ω => base.getD 1 * (X (.dev l c d) * X (.chp l c) * X (.lot l)) ω := by
      funext ω
      rw [h4]
      simp only [layeredValue, Pi.mul_apply]
      ring
    have p1 := (h1.indepFun (i := .dev l c d) (j := .chp l c) (by simp)).integral_mul_eq_mul_integral
      (h2 _).aestronglyMeasurable (h2 _).aestronglyMeasurable
    have p2 := (h1.indepFun_mul_left h2 (.dev l c d) (.chp l c) (.lot l) (by simp)
      (by simp)).integral_mul_eq_mul_integral ((h2 _).mul (h2 _)).aestronglyMeasurable (h2 _).aestronglyMeasurable
    rw [hy]
    show ∫ ω, base.getD 1 * (X (.dev l c d) * X (.chp l c) * X (.lot l)) ω ∂P = _
    rw [integral_const_mul, p2, p1, he, he, he]
    simp only [layerOfPart]
    ring

omit hl hc hd in
/-- Additive normal variation: the value of every device is normally distributed, the means and the variances of
the layers add up, and the covariance of two devices is the variance of the layers they share. -/
theorem C91_normal (hoff : t = .offset) {ml mc md : ℝ} {sl sc sd : NNReal} (nl : NormalLayer lv.lot ml sl)
    (nc : NormalLayer lv.chp mc sc) (nd : NormalLayer lv.dev md sd) (l : Fin L) (c : Fin C) (d : Fin D) :
    P.map (Y l c d) = gaussianReal (base.getD 0 + md + mc + ml) (sd ^ 2 + sc ^ 2 + sl ^ 2) ∧
    ∀ l' c' d', cov[Y l c d, Y l' c' d'; P] = (if l = l' then (sl : ℝ) ^ 2 else 0) +
      (if l = l' ∧ c = c' then (sc : ℝ) ^ 2 else 0) + (if l = l' ∧ c = c' ∧ d = d' then (sd : ℝ) ^ 2 else 0) := by
  have hP₀ : IsProbabilityMeasure P₀ := by
    rw [← hr.law 0 0]
    exact Measure.isProbabilityMeasure_map (hr.meas 0 0).aemeasurable
  have layer : ∀ {r : RVar (Ext ℝ)} {m : ℝ} {s : NNReal}, NormalLayer r m s →
      ∃ f, N.value r.dist = some f ∧ Measurable f ∧ P₀.map f = gaussianReal m (s ^ 2) := by
    intro r m s h
    rcases h with h | ⟨h, rfl⟩
    · exact ⟨N.normal m s, by rw [h]; rfl, hN.normal _ _, hN.gaussian m s⟩
    · refine ⟨fun _ => m, by rw [h]; rfl, measurable_const, ?_⟩
      rw [zero_pow two_ne_zero, gaussianReal_zero_var, Measure.map_const, measure_univ, one_smul]
  obtain ⟨fl, hl, fl1, fl2⟩ := layer nl
  obtain ⟨fc, hc, fc1, fc2⟩ := layer nc
  obtain ⟨fd, hd, fd1, fd2⟩ := layer nd
  have mem : ∀ {f : ℝ → ℝ} {m : ℝ} {v : NNReal}, Measurable f → P₀.map f = gaussianReal m v →
      MemLp f 2 P₀ ∧ Var[f; P₀] = v := by
    intro f m v hf h
    constructor
    · have : MemLp id 2 (P₀.map f) := by
        rw [h]
        exact memLp_id_gaussianReal 2
      exact (memLp_map_measure_iff aestronglyMeasurable_id hf.aemeasurable).1 this
    · have e := variance_map (X := id) (μ := P₀) (Y := f) aemeasurable_id hf.aemeasurable
      rw [h, variance_id_gaussianReal] at e
      exact e.symm
  constructor
  · obtain ⟨X, h1, h2, h3, h4⟩ := values_layers hN hr ht hb hl hc hd hY
    subst hoff
    have hy : Y l c d = fun ω => base.getD 0 + (X (.dev l c d) + X (.chp l c) + X (.lot l)) ω := by
      funext ω
      rw [h4]
      simp only [layeredValue, Pi.add_apply]
      ring
    have a1 := gaussianReal_add_gaussianReal_of_indepFun (h1.indepFun (i := .dev l c d) (j := .chp l c) (by simp))
      ((h3 _).trans fd2) ((h3 _).trans fc2)
    have a2 := gaussianReal_add_gaussianReal_of_indepFun
      (h1.indepFun_add_left h2 (.dev l c d) (.chp l c) (.lot l) (by simp) (by simp)) a1 ((h3 _).trans fl2)
    have hm : Measurable (X (.dev l c d) + X (.chp l c) + X (.lot l)) := ((h2 _).add (h2 _)).add (h2 _)
    have : Y l c d = (fun x => base.getD 0 + x) ∘ (X (.dev l c d) + X (.chp l c) + X (.lot l)) := hy
    rw [this, ← Measure.map_map (by fun_prop) hm, a2, gaussianReal_map_const_add]
    congr 1
    ring
  · intro l' c' d'
    rw [C91_covariance hN hr ht hb hl hc hd hY hoff (mem fl1 fl2).1 (mem fc1 fc2).1 (mem fd1 fd2).1,
      (mem fl1 fl2).2, (mem fc1 fc2).2, (mem fd1 fd2).2]
    simp only [NNReal.coe_pow]

omit hN hr ht hb hl hc hd hY in
private theorem op_law {U V : Ω → ℝ} (h : IndepFun U V P) (hU : Measurable U) (hV : Measurable V) (s : Bool) :
    P.map (fun ω => if s then U ω * V ω else U ω + V ω) = opLaw s (P.map U) (P.map V) := by
  unfold opLaw
  rw [← (indepFun_iff_map_prod_eq_prod_map_map hU.aemeasurable hV.aemeasurable).1 h, Measure.map_map]
  · rfl
  · cases s
    · simp only [Bool.false_eq_true, if_false]
      fun_prop
    · simp only [if_true]
      fun_prop
  · exact hU.prodMk hV

omit hl hc hd in
/-- The law by which `C15` describes the sampled values is the law of the value of every device. -/
theorem C91_sampled {dd : Dist ℝ} {dc dl : Option (Dist ℝ)} (nd : OptLayer N P₀ t lv.dev (some dd))
    (nc : OptLayer N P₀ t lv.chp dc) (nl : OptLayer N P₀ t lv.lot dl) (l : Fin L) (c : Fin C) (d : Fin D) :
    sampledLaw (decide (t = .scaling)) base dd dc dl = some (P.map (Y l c d)) := by
  obtain ⟨e1, fd, gd, hd, hg, hd2⟩ := nd
  rw [← e1] at hd
  have layer : ∀ {r : RVar (Ext ℝ)} {o : Option (Dist ℝ)}, OptLayer N P₀ t r o → ∃ f, N.value r.dist = some f := by
    intro r o h
    cases o with
    | none =>
      rw [show r.dist = _ from h]
      exact ⟨_, rfl⟩
    | some d =>
      obtain ⟨e, f, g, h1, -, -⟩ := h
      rw [e]
      exact ⟨f, h1⟩
  obtain ⟨fc, hc⟩ := layer nc
  obtain ⟨fl, hl⟩ := layer nl
  obtain ⟨X, h1, h2, h3, h4⟩ := values_layers hN hr ht hb hl hc hd hY
  have hP₀ : IsProbabilityMeasure P₀ := by
    rw [← hr.law 0 0]
    exact Measure.isProbabilityMeasure_map (hr.meas 0 0).aemeasurable
  -- combining with an optional layer
  have step : ∀ {r : RVar (Ext ℝ)} {o : Option (Dist ℝ)} {f : ℝ → ℝ}, OptLayer N P₀ t r o → N.value r.dist = some f →
      ∀ {U V : Ω → ℝ}, IndepFun U V P → Measurable U → Measurable V → P.map V = P₀.map f →
      layerLaw (decide (t = .scaling)) (P.map U) o =
        some (P.map fun ω => if decide (t = .scaling) then U ω * V ω else U ω + V ω) := by
    intro r o f ho hf U V hUV hU hV hVl
    cases o with
    | some d =>
      obtain ⟨e, f', g, a1, a2, a3⟩ := ho
      rw [e, a1] at hf
      cases hf
      show (intendedPdf d).map _ = _
      rw [a2, op_law hUV hU hV, hVl, a3]
      rfl
    | none =>
      rw [show r.dist = _ from ho] at hf
      cases hf
      rw [Measure.map_const, measure_univ, one_smul] at hVl
      have hae : ∀ᵐ ω ∂P, V ω = neutralOf t := ae_of_ae_map hV.aemeasurable (p := fun x => x = neutralOf t) (by
        rw [hVl]
        exact (ae_dirac_iff (measurableSet_singleton _)).2 rfl)
      show some (P.map U) = _
      congr 1
      apply Measure.map_congr
      filter_upwards [hae] with ω hω
      rw [hω]
      cases t <;> simp [neutralOf]
  have tail : ∀ q : ℝ → ℝ, Measurable q →
      ((layerLaw (decide (t = .scaling)) (P.map (q ∘ X (.dev l c d))) dc).bind fun m =>
        layerLaw (decide (t = .scaling)) m dl) = some (P.map fun ω => if decide (t = .scaling) then
          q (X (.dev l c d) ω) * X (.chp l c) ω * X (.lot l) ω else
          q (X (.dev l c d) ω) + X (.chp l c) ω + X (.lot l) ω) := by
    intro q hq
    have hop : Measurable fun p : ℝ × ℝ => if decide (t = .scaling) then q p.1 * p.2 else q p.1 + p.2 := by
      cases decide (t = .scaling) <;> simp only [Bool.false_eq_true, if_false, if_true] <;> fun_prop
    have i1 := (h1.indepFun (i := .dev l c d) (j := .chp l c) (by simp)).comp hq measurable_id
    have s1 := step nc hc i1 (hq.comp (h2 _)) (h2 _) (h3 _)
    have i2 := (h1.indepFun_prodMk h2 (.dev l c d) (.chp l c) (.lot l) (by simp) (by simp)).comp hop measurable_id
    have s2 := step nl hl i2 (hop.comp ((h2 _).prodMk (h2 _))) (h2 _) (h3 _)
    rw [s1]
    refine s2.trans ?_
    congr 2
    funext ω
    cases decide (t = .scaling) <;> rfl
  have e : P.map (X (.dev l c d)) = pdfLaw gd := (h3 _).trans hd2
  have hy : Y l c d = fun ω => layeredValue t base (fun k => X k ω) l c d := funext fun ω => h4 l c d ω
  unfold sampledLaw
  rw [hg, hy]
  simp only [Option.bind_eq_bind, Option.bind_some]
  cases base with
  | none =>
    have := tail id measurable_id
    rw [Function.id_comp, e] at this
    refine this.trans ?_
    cases t <;> simp [layeredValue]
  | some v =>
    have hq : Measurable fun x : ℝ => if decide (t = VType.scaling) then v * x else v + x := by
      cases decide (t = .scaling) <;> simp only [Bool.false_eq_true, if_false, if_true] <;> fun_prop
    have := tail _ hq
    rw [← Measure.map_map hq (h2 _), e] at this
    refine this.trans ?_
    cases t <;> simp [layeredValue]

end

/-! ### An example: threshold voltages with lot and device variation -/

section

/-- Numpy makes normally distributed numbers by `loc + scale * z`. -/
def linearNumpy : Numpy := ⟨fun a b z => a + b * z, fun _ b z => b * z, fun a b z => a + (b - a) * z⟩

theorem linear_correct : linearNumpy.Correct (gaussianReal 0 1) := by
  refine ⟨fun a b => by unfold linearNumpy; fun_prop, fun a b => by unfold linearNumpy; fun_prop,
    fun a b => by unfold linearNumpy; fun_prop, fun mu sigma => ?_⟩
  have : linearNumpy.normal mu sigma = (fun x => mu + x) ∘ fun x => (sigma : ℝ) * x := rfl
  rw [this, ← Measure.map_map (by fun_prop) (by fun_prop), gaussianReal_map_const_mul, gaussianReal_map_const_add]
  congr 1
  · ring
  · rw [mul_one]
    rfl

/-- There are independent standard normal numbers. -/
theorem exists_standard : Standard (Measure.infinitePi fun _ : Nat × Nat => gaussianReal 0 1) (gaussianReal 0 1)
    fun i j ω => ω (i, j) where
  indep := iIndepFun_infinitePi (X := fun _ => id) fun _ => measurable_id
  meas := fun _ _ => measurable_pi_apply _
  law := fun _ _ => Measure.infinitePi_map_eval _ _

/-- Threshold voltages around 7, with standard deviations 1 between devices and 2 between lots. -/
def lotLatent : LatentVar (Ext ℝ) where
  unitary := .fin 0
  dev := ⟨1, .normal (.fin 0) (.fin 1), none⟩
  chp := ⟨0, .deterministic (.fin 0), none⟩
  lot := ⟨1, .normal (.fin 0) (.fin 2), none⟩
  devDef := true
  chpDef := false
  lotDef := true
  deterVal := some (.fin 7)
  name := none
  vrtnType := some .offset

/-- It is what the constructor makes, and its values are as the theorem says. -/
example : LatentVar.mk' (some ⟨1, .normal (.fin 0) (.fin 1), none⟩) none (some ⟨1, .normal (.fin 0) (.fin 2), none⟩)
    (some (.fin 7)) none "offset" = .ok lotLatent ∧
    ∃ Y : Fin 3 → Fin 2 → Fin 4 → (Nat × Nat → ℝ) → ℝ,
      RandomValues linearNumpy (fun i j ω => ω (i, j)) lotLatent (fun _ => 0) Y ∧
      (Measure.infinitePi fun _ : Nat × Nat => gaussianReal 0 1).map (Y 2 1 3) = gaussianReal 7 5 ∧
      cov[Y 2 1 3, Y 2 0 1; Measure.infinitePi fun _ : Nat × Nat => gaussianReal 0 1] = 4 ∧
      cov[Y 2 1 3, Y 1 1 3; Measure.infinitePi fun _ : Nat × Nat => gaussianReal 0 1] = 0 := by
  have z : (PyArith.ofRat 0 : Ext ℝ) = .fin 0 := congrArg Ext.fin Rat.cast_zero
  refine ⟨?_, ?_⟩
  · simp [LatentVar.mk', LatentVar.blank, LatentVar.setDev, LatentVar.setChp, LatentVar.setLot, LatentVar.setName,
      LatentVar.setVrtnType, VType.ofString, VType.unitary, detUnit, lotLatent, z]
  · obtain ⟨Y, hY⟩ := C91_values (L := 3) (C := 2) (D := 4) (next := fun _ => 0) linear_correct exists_standard
      (lv := lotLatent) rfl (base := some 7) rfl rfl rfl rfl
    have h := C91_normal linear_correct exists_standard (lv := lotLatent) rfl (base := some 7) rfl hY rfl
      (ml := 0) (sl := 2) (mc := 0) (sc := 0) (md := 0) (sd := 1) (.inl rfl) (.inr ⟨rfl, rfl⟩) (.inl rfl) 2 1 3
    refine ⟨Y, hY, ?_, ?_, ?_⟩
    · rw [h.1]
      congr 1 <;> norm_num
    · rw [h.2]
      norm_num
    · have : (2 : Fin 3) ≠ 1 := by decide
      rw [h.2]
      simp [this]

/-- `C91_sampled` applies to it. -/
example {Y : Fin 3 → Fin 2 → Fin 4 → (Nat × Nat → ℝ) → ℝ}
    (hY : RandomValues linearNumpy (fun i j ω => ω (i, j)) lotLatent (fun _ => 0) Y) (l : Fin 3) (c : Fin 2) (d : Fin 4) :
    sampledLaw false (some 7) (.normal 0 1) none (some (.normal 0 2)) =
      some ((Measure.infinitePi fun _ : Nat × Nat => gaussianReal 0 1).map (Y l c d)) := by
  have sam : ∀ s : ℝ, 0 < s → linearNumpy.Samples (gaussianReal 0 1) (.normal 0 s) := by
    intro s hs
    refine ⟨_, _, rfl, rfl, ?_⟩
    rw [normalLaw hs]
    exact linear_correct.gaussian 0 ⟨s, hs.le⟩
  exact C91_sampled (t := .offset) linear_correct exists_standard rfl (base := some 7) rfl hY (dl := some (.normal 0 2))
    ⟨rfl, sam 1 one_pos⟩ (show OptLayer _ _ _ _ none from rfl) ⟨rfl, sam 2 two_pos⟩ l c d

end
end Gerabaldi.Props
