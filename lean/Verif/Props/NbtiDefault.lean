import Verif.Props.Nbti
import Verif.Props.Tapes

/-! # C60: the distribution of the prebuilt NBTI mechanism -/

namespace Gerabaldi.Spec
open Gerabaldi

/-- The latent variables of the mechanism. -/
def nbtiNames : Fin 4 → String := !["a_0", "e_aa", "alpha", "n"]

/-- Their means, `gerabaldi/cookbook/mech_mdls.py:33-36`: prefactor, energy in eV, exponents of voltage and
time. -/
noncomputable def nbtiMean : Fin 4 → ℝ := ![6 / 1000, 5 / 100, 34 / 10, 21 / 100]

/-- Their standard deviations. -/
noncomputable def nbtiDeviation : Fin 4 → NNReal := ![2 / 10000, 2 / 10000, 4 / 1000, 5 / 1000]

end Gerabaldi.Spec

namespace Gerabaldi.Props
open Gerabaldi Spec MeasureTheory ProbabilityTheory

variable {N : Numpy} {Ω : Type} [MeasurableSpace Ω] {P : Measure Ω} {P₀ : Measure ℝ} {raw : Nat → Nat → Ω → ℝ}

/-- A latent variable with normal variation between devices only. -/
structure DevNormal (lv : LatentVar (Ext ℝ)) (i : Nat) (mu : ℝ) (sigma : NNReal) : Prop where
  id : lv.dev.id = i
  dev : lv.dev.dist = .normal (.fin mu) (.fin sigma)
  chp : lv.chp.dist = .deterministic (.fin 1)
  lot : lv.lot.dist = .deterministic (.fin 1)
  base : lv.deterVal = none
  op : lv.vrtnType = some .scaling

theorem devNormal_is (i : Nat) (mu sigma : ℚ) {m : ℝ} {s : NNReal} (hm : m = mu) (hs : (s : ℝ) = sigma) :
    ∃ lv, devNormal i mu sigma = .ok lv ∧ DevNormal lv i m s := by
  have h1 : (PyArith.ofRat 1 : Ext ℝ) = .fin 1 := by
    show Ext.fin ((1 : ℚ) : ℝ) = _
    norm_num
  refine ⟨_, rfl, rfl, ?_, congrArg Dist.deterministic h1, congrArg Dist.deterministic h1, rfl, rfl⟩
  rw [hm, hs]
  rfl

theorem DevNormal.named {lv : LatentVar (Ext ℝ)} {i : Nat} {mu : ℝ} {sigma : NNReal} (h : DevNormal lv i mu sigma)
    (s : Option String) : DevNormal (lv.setName s) i mu sigma := by
  cases s with
  | none => exact ⟨h.id, h.dev, h.chp, h.lot, h.base, h.op⟩
  | some n =>
    refine ⟨?_, ?_, ?_, ?_, h.base, h.op⟩
    · show (if lv.devDef then _ else _ : RVar (Ext ℝ)).id = _
      split <;> exact h.id
    · show (if lv.devDef then _ else _ : RVar (Ext ℝ)).dist = _
      split <;> exact h.dev
    · show (if lv.chpDef then _ else _ : RVar (Ext ℝ)).dist = _
      split <;> exact h.chp
    · show (if lv.lotDef then _ else _ : RVar (Ext ℝ)).dist = _
      split <;> exact h.lot

theorem jedec_latents {k : MechMdl (Tapes N) (Ext ℝ)} (hk : jedecNbti = .ok k) :
    ∃ lv : Fin 4 → LatentVar (Ext ℝ), k.mdl.latentVars = (List.finRange 4).map (fun j => (nbtiNames j, lv j)) ∧
      ∀ j, DevNormal (lv j) (j + 1) (nbtiMean j) (nbtiDeviation j) := by
  obtain ⟨a, a1, a2⟩ := devNormal_is 1 (6 / 1000) (2 / 10000) (m := nbtiMean 0) (s := nbtiDeviation 0)
    (by simp [nbtiMean]) (by simp [nbtiDeviation])
  obtain ⟨b, b1, b2⟩ := devNormal_is 2 (5 / 100) (2 / 10000) (m := nbtiMean 1) (s := nbtiDeviation 1)
    (by simp [nbtiMean]) (by simp [nbtiDeviation])
  obtain ⟨c, c1, c2⟩ := devNormal_is 3 (34 / 10) (4 / 1000) (m := nbtiMean 2) (s := nbtiDeviation 2)
    (by simp [nbtiMean]) (by simp [nbtiDeviation])
  obtain ⟨d, d1, d2⟩ := devNormal_is 4 (21 / 100) (5 / 1000) (m := nbtiMean 3) (s := nbtiDeviation 3)
    (by simp [nbtiMean]) (by simp [nbtiDeviation])
  unfold jedecNbti at hk
  rw [a1, b1, c1, d1] at hk
  cases hk
  let nm : String → LatentVar (Ext ℝ) → LatentVar (Ext ℝ) := fun k lv =>
    if lv.name = none ∨ lv.name = some "" then lv.setName (some k) else lv
  have hn : ∀ {k lv i mu sigma}, DevNormal lv i mu sigma → DevNormal (nm k lv) i mu sigma := by
    intro k lv i mu sigma h
    simp only [nm]
    split_ifs
    · exact h.named _
    · exact h
  refine ⟨fun j => nm (nbtiNames j) (![a, b, c, d] j), rfl, fun j => ?_⟩
  fin_cases j
  · exact hn a2
  · exact hn b2
  · exact hn c2
  · exact hn d2

theorem DevNormal.tape {lv : LatentVar (Ext ℝ)} {i : Nat} {mu : ℝ} {sigma : NNReal} (h : DevNormal lv i mu sigma)
    (L C D : Nat) (w : Tapes N) : ∃ r, lv.genLatentVals D C L w =
        (.ok r, ⟨w.tape, fun j => if j = i then w.next i + L * C * D else w.next j⟩) ∧ r.HasDims L C D ∧
      ∀ l < L, ∀ c < C, ∀ d < D, r.at' l c d = .fin (N.normal mu sigma (w.tape i (w.next i + ((l * C + c) * D + d)))) := by
  have hl : N.value lv.lot.dist = some fun _ => 1 := by rw [h.lot]; rfl
  have hc : N.value lv.chp.dist = some fun _ => 1 := by rw [h.chp]; rfl
  have hd : N.value lv.dev.dist = some (N.normal mu sigma) := by rw [h.dev]; rfl
  have n1 : afterSample lv.lot L w.next = w.next := by unfold afterSample; rw [h.lot]
  have n2 : afterSample lv.chp (L * C) w.next = w.next := by unfold afterSample; rw [h.chp]
  have n3 : afterSample lv.dev (L * C * D) w.next = fun j => if j = i then w.next i + L * C * D else w.next j := by
    unfold afterSample
    rw [h.dev, h.id]
  have h1 := tape_sample hl L w
  rw [n1] at h1
  have h2 := tape_sample hc (L * C) (⟨w.tape, w.next⟩ : Tapes N)
  simp only [n2] at h2
  have h3 := tape_sample hd (L * C * D) (⟨w.tape, w.next⟩ : Tapes N)
  simp only [n3] at h3
  obtain ⟨r, w', g1, g2, g3, g4, g5⟩ := tape_latent hl hc hd L C D w
  have g6 := genLatentVals_run lv h1 h2 h3 (by simp) (by simp) (by simp)
  rw [g1] at g6
  refine ⟨r, ?_, ⟨g2, g3, g4⟩, fun l hl c hc d hd => ?_⟩
  · rw [g1]
    exact congrArg (Prod.mk _) (congrArg Prod.snd g6)
  · rw [g5 l hl c hc d hd]
    simp only [h.base, LatentVar.op, h.op, n1, n2, h.id]
    show Ext.fin (_ * 1 * 1) = _
    rw [mul_one, mul_one]

/-- **C60**, the variation between devices: with ideal generators, the four latent values of all devices are
independent and normally distributed with the means and deviations of the cookbook. -/
theorem C60_latents (hN : N.Correct P₀) (hr : Standard P P₀ raw) {k : MechMdl (Tapes N) (Ext ℝ)}
    (hk : jedecNbti = .ok k) (L C D : Nat) (next : Nat → Nat) :
    ∃ Y : Fin 4 × Fin L × Fin C × Fin D → Ω → ℝ, iIndepFun Y P ∧ (∀ x, Measurable (Y x)) ∧
      (∀ j x, P.map (Y (j, x)) = gaussianReal (nbtiMean j) (nbtiDeviation j ^ 2)) ∧
      ∀ ω, ∃ lat w', k.mdl.genLatentVals D C L (⟨fun i j => raw i j ω, next⟩ : Tapes N) = (.ok lat, w') ∧
        (∀ p, (∃ a, lat.get? p = some a) ↔ ∃ j, p = nbtiNames j) ∧
        ∀ j, ∃ a, lat.get? (nbtiNames j) = some a ∧ a.HasDims L C D ∧
          ∀ (l : Fin L) (c : Fin C) (d : Fin D), a.at' l c d = .fin (Y (j, l, c, d) ω) := by
  obtain ⟨lv, h1, h2⟩ := jedec_latents hk
  let pl : Fin 4 × Fin L × Fin C × Fin D → Nat × Nat := fun x =>
    (x.1 + 1, next (x.1 + 1) + ((x.2.1 * C + x.2.2.1) * D + x.2.2.2))
  have hpl : Function.Injective pl := by
    rintro ⟨i, l, c, d⟩ ⟨i', l', c', d'⟩ e
    simp only [pl, Prod.mk.injEq] at e
    obtain ⟨e1, e2⟩ := e
    have e3 : i = i' := Fin.ext (by omega)
    subst e3
    obtain ⟨j3, j4⟩ := pair_inj d.2 d'.2 (Nat.add_left_cancel e2)
    obtain ⟨j5, j6⟩ := pair_inj c.2 c'.2 j3
    simp only [Prod.mk.injEq, Fin.ext_iff]
    exact ⟨trivial, j5, j6, j4⟩
  have hm : ∀ x : Fin 4 × Fin L × Fin C × Fin D, Measurable (N.normal (nbtiMean x.1) (nbtiDeviation x.1)) := fun x => hN.normal _ _
  refine ⟨fun x ω => N.normal (nbtiMean x.1) (nbtiDeviation x.1) (raw (pl x).1 (pl x).2 ω), ?_, ?_, ?_, fun ω => ?_⟩
  · exact (hr.indep.precomp hpl).comp _ hm
  · exact fun x => (hm x).comp (hr.meas _ _)
  · intro j x
    rw [← hN.gaussian, ← hr.law (pl (j, x)).1 (pl (j, x)).2, Measure.map_map (hN.normal _ _) (hr.meas _ _)]
    rfl
  · have key : ∀ (js : List (Fin 4)), js.Nodup → ∀ nx : Nat → Nat, (∀ j ∈ js, nx (j + 1) = next (j + 1)) →
        ∃ (r : Fin 4 → Arr3 (Ext ℝ)) (w' : Tapes N), M.mapList (genLatent D C L) (js.map fun j => (nbtiNames j, lv j))
          ⟨fun i j => raw i j ω, nx⟩ = (.ok (js.map fun j => (nbtiNames j, r j)), w') ∧
          ∀ j ∈ js, (r j).HasDims L C D ∧ ∀ l < L, ∀ c < C, ∀ d < D, (r j).at' l c d =
            .fin (N.normal (nbtiMean j) (nbtiDeviation j) (raw (j + 1) (next (j + 1) + ((l * C + c) * D + d)) ω)) := by
      intro js
      induction js with
      | nil => exact fun _ nx _ => ⟨fun _ => Arr3.full 0 0 0 .nan, _, rfl, fun j hj => nomatch hj⟩
      | cons j js ih =>
        intro hnd nx hnx
        obtain ⟨hj, hjs⟩ := List.nodup_cons.1 hnd
        obtain ⟨r, a1, a2, a3⟩ := (h2 j).tape (N := N) L C D ⟨fun i j => raw i j ω, nx⟩
        obtain ⟨r', w', b1, b2⟩ := ih hjs (fun i => if i = j + 1 then nx (j + 1) + L * C * D else nx i) fun i hi => by
          rw [if_neg]
          · exact hnx i (List.mem_cons_of_mem _ hi)
          · intro e
            have : i = j := Fin.ext (by omega)
            exact hj (this ▸ hi)
        refine ⟨fun i => if i = j then r else r' i, w', ?_, fun i hi => ?_⟩
        · have c1 : genLatent D C L (nbtiNames j, lv j) (⟨fun i j => raw i j ω, nx⟩ : Tapes N) = _ := M.bind_ok a1
          simp only [List.map_cons, M.mapList]
          rw [M.bind_ok c1, M.bind_ok b1]
          simp only [M.pure_run, if_true]
          congr 3
          refine List.map_congr_left fun i hi => ?_
          rw [if_neg (fun e : i = j => hj (e ▸ hi))]
        · by_cases e : i = j
          · subst e
            simp only [if_true]
            refine ⟨a2, fun l hl c hc d hd => ?_⟩
            rw [a3 l hl c hc d hd]
            simp only
            rw [hnx i List.mem_cons_self]
          · simp only [if_neg e]
            exact b2 i ((List.mem_cons.1 hi).resolve_left e)
    obtain ⟨r, w', k1, k2⟩ := key (List.finRange 4) (List.nodup_finRange 4) next fun _ _ => rfl
    refine ⟨_, w', by unfold LatentMdl.genLatentVals; rw [h1]; exact k1, fun p => ?_, fun j => ?_⟩
    · constructor
      · rintro ⟨a, ha⟩
        obtain ⟨j, -, e⟩ := List.mem_map.1 (Dict.mem_of_get? ha)
        exact ⟨j, (congrArg Prod.fst e).symm⟩
      · rintro ⟨j, rfl⟩
        refine ⟨r j, ?_⟩
        fin_cases j <;> rfl
    · refine ⟨r j, by fin_cases j <;> rfl, (k2 j (List.mem_finRange j)).1, fun l c d => ?_⟩
      exact (k2 j (List.mem_finRange j)).2 l l.2 c c.2 d d.2

theorem gaussian_nonpos {m : ℝ} (hm : 0 < m) (s : NNReal) :
    gaussianReal m (s ^ 2) (Set.Iic 0) ≤ ENNReal.ofReal ((s / m) ^ 2) := by
  have h := meas_ge_le_variance_div_sq (μ := gaussianReal m (s ^ 2)) (X := id) (memLp_id_gaussianReal 2) hm
  simp only [id] at h
  rw [integral_id_gaussianReal, variance_id_gaussianReal] at h
  refine le_trans (measure_mono fun x hx => ?_) (h.trans (le_of_eq ?_))
  · have hx : x ≤ 0 := hx
    show m ≤ |x - m|
    rw [abs_of_nonpos (by linarith)]
    linarith
  · rw [div_pow]
    push_cast
    rfl

/-- **C60**: for nearly all devices the prefactor, the energy and both exponents are positive. So nearly all
devices degrade more with time (`C60_time`) and with voltage (`C60_voltage`), and less with temperature
(`C60_temperature_violated`). -/
theorem C60_devices {Y : Fin 4 → Ω → ℝ} (hm : ∀ j, Measurable (Y j))
    (hY : ∀ j, P.map (Y j) = gaussianReal (nbtiMean j) (nbtiDeviation j ^ 2)) {T T' v v' : ℝ} (hT : 0 < T) (hTT : T < T')
    (hv : 0 < v) (hvv : v < v') :
    P {ω | ¬ (StrictMonoOn (nbtiShift (Y 0 ω) (Y 1 ω) T v (Y 2 ω) (Y 3 ω)) (Set.Ici 0) ∧
      ∀ t, 0 < t → nbtiShift (Y 0 ω) (Y 1 ω) T v (Y 2 ω) (Y 3 ω) t < nbtiShift (Y 0 ω) (Y 1 ω) T v' (Y 2 ω) (Y 3 ω) t ∧
        nbtiShift (Y 0 ω) (Y 1 ω) T' v (Y 2 ω) (Y 3 ω) t < nbtiShift (Y 0 ω) (Y 1 ω) T v (Y 2 ω) (Y 3 ω) t)} ≤
      ENNReal.ofReal (1 / 500) := by
  have hpos : ∀ j, 0 < nbtiMean j := by
    intro j
    fin_cases j <;> simp [nbtiMean]
  have one : ∀ j, P {ω | Y j ω ≤ 0} ≤ ENNReal.ofReal ((nbtiDeviation j / nbtiMean j) ^ 2) := by
    intro j
    have h := gaussian_nonpos (hpos j) (nbtiDeviation j)
    rw [← hY j, Measure.map_apply (hm j) measurableSet_Iic] at h
    exact h
  refine le_trans (measure_mono (t := ⋃ j, {ω | Y j ω ≤ 0}) fun ω h => ?_)
    ((measure_iUnion_fintype_le P _).trans ((Finset.sum_le_sum fun j _ => one j).trans ?_))
  · by_contra hc
    simp only [Set.mem_iUnion, Set.mem_ofPred_eq, not_exists, not_le] at hc
    exact h ⟨(C60_time (hc 0) hv (hc 3)).1, fun t ht => ⟨C60_voltage (hc 0) hv hvv (hc 2) ht,
      C60_temperature_violated (hc 0) (hc 1) hv hT hTT ht⟩⟩
  · rw [← ENNReal.ofReal_sum_of_nonneg fun j _ => sq_nonneg _]
    refine ENNReal.ofReal_le_ofReal ?_
    rw [Fin.sum_univ_four]
    show ((2 / 10000 : NNReal) / (6 / 1000) : ℝ) ^ 2 + ((2 / 10000 : NNReal) / (5 / 100) : ℝ) ^ 2 +
      ((4 / 1000 : NNReal) / (34 / 10) : ℝ) ^ 2 + ((5 / 1000 : NNReal) / (21 / 100) : ℝ) ^ 2 ≤ 1 / 500
    push_cast
    norm_num

/-- Ten devices on each of two chips, with generators that make normal numbers. -/
example : ∃ (k : MechMdl (Tapes linearNumpy) (Ext ℝ)) (Y : Fin 4 × Fin 1 × Fin 2 × Fin 10 → (Nat × Nat → ℝ) → ℝ),
    jedecNbti = .ok k ∧ iIndepFun Y (Measure.infinitePi fun _ : Nat × Nat => gaussianReal 0 1) ∧
      (Measure.infinitePi fun _ : Nat × Nat => gaussianReal 0 1).map (Y (0, 0, 1, 9)) =
        gaussianReal (6 / 1000) ((2 / 10000) ^ 2) := by
  obtain ⟨k, hk⟩ : ∃ k : MechMdl (Tapes linearNumpy) (Ext ℝ), jedecNbti = .ok k := ⟨_, rfl⟩
  obtain ⟨Y, h1, -, h2, -⟩ := C60_latents linear_correct exists_standard hk 1 2 10 fun _ => 0
  exact ⟨k, Y, hk, h1, h2 0 (0, 1, 9)⟩

end Gerabaldi.Props
