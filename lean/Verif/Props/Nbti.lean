import Verif.Lemmas.NumExpr
import Verif.Props.Degrade
import Verif.Props.Split
import Verif.Props.DegradeEx

/-!
# C60: the prebuilt NBTI mechanism
-/

set_option linter.unusedSectionVars false

namespace Gerabaldi.Spec

/-- The threshold voltage shift of JEP122H equation 5.3.1 as the code states it: prefactor `a`, energy `e`
in eV, temperature `T` in K, voltage `v` with exponent `α`, time `t` with exponent `n`. -/
noncomputable def nbtiShift (a e T v α n t : ℝ) : ℝ :=
  a * Real.exp (e / (8617 / 100000000 * T)) * v ^ α * t ^ n

/-- A mechanism made by `jedec_nbti_mdl`, whatever time unit and name it was given afterwards. -/
def IsNbti {W : Type} (k : MechMdl W (Ext ℝ)) : Prop :=
  ∃ k₀ : MechMdl W (Ext ℝ), jedecNbti = .ok k₀ ∧ k.kind = k₀.kind ∧ k.unitary = k₀.unitary ∧
    k.mdl.compute = k₀.mdl.compute ∧ k.mdl.latentVars = k₀.mdl.latentVars

/-- Temperature, voltage and the latent values of one sample. -/
structure NbtiSample (cs lat : Dict (Arr3 (Ext ℝ))) (l c d : Nat) (a e T v α n : ℝ) : Prop where
  temp : ∃ x, cs.get? "temp" = some x ∧ x.at' l c d = .fin T
  vdd : ∃ x, cs.get? "vdd" = some x ∧ x.at' l c d = .fin v
  a_0 : ∃ x, lat.get? "a_0" = some x ∧ x.at' l c d = .fin a
  e_aa : ∃ x, lat.get? "e_aa" = some x ∧ x.at' l c d = .fin e
  alpha : ∃ x, lat.get? "alpha" = some x ∧ x.at' l c d = .fin α
  n : ∃ x, lat.get? "n" = some x ∧ x.at' l c d = .fin n

/-- The conditions and latent values of all samples are there, and latent values do not hide conditions. -/
structure NbtiInputs (cs lat : Dict (Arr3 (Ext ℝ))) (L C D : Nat) : Prop where
  condDims : ∀ k a, cs.get? k = some a → a.HasDims L C D
  latDims : ∀ k a, lat.get? k = some a → a.HasDims L C D
  conds : ∀ k ∈ ["temp", "vdd"], ∃ a, cs.get? k = some a
  lats : ∀ k, (∃ a, lat.get? k = some a) ↔ k ∈ ["a_0", "e_aa", "alpha", "n"]
  noTime : cs.get? "time" = none

end Gerabaldi.Spec

namespace Gerabaldi.Props

open Gerabaldi Gerabaldi.Spec

variable {W : Type} [Rng W (Ext ℝ)]

theorem nbti_uses : (nbtiExpr : NumExpr (Ext ℝ)).Uses nbtiParams := by
  intro k
  simp only [nbtiExpr, NumExpr.uses, nbtiParams, List.mem_append, List.mem_cons, List.not_mem_nil,
    or_false, or_assoc]
  tauto

theorem nbti_eq {k : MechMdl W (Ext ℝ)} (h : IsNbti k) :
    k.kind = .deg ∧ k.unitary = .fin 0 ∧ k.mdl.compute = nbtiExpr.fn nbtiParams ∧
      k.mdl.latentVars.keys = ["a_0", "e_aa", "alpha", "n"] := by
  obtain ⟨k₀, h0, h1, h2, h3, h4⟩ := h
  rw [h1, h2, h3, h4]
  cases h0
  refine ⟨rfl, ?_, rfl, rfl⟩
  show Ext.fin ((0 : ℚ) : ℝ) = _
  norm_num

theorem nbti_args {k : MechMdl W (Ext ℝ)} (hk : IsNbti k)
    {cs lat : Dict (Arr3 (Ext ℝ))} {L C D : Nat} (h : NbtiInputs cs lat L C D) (times : Arr3 (Ext ℝ))
    (p : String) : (k.args times cs lat).get? p =
      if p = "time" then some (.arr times)
      else if p ∈ ["a_0", "e_aa", "alpha", "n"] then (lat.get? p).map .arr
      else if p ∈ ["temp", "vdd"] then (cs.get? p).map .arr else none := by
  have hn : k.mdl.compute.argNames = nbtiParams := by rw [(nbti_eq hk).2.2.1]; rfl
  have hlt : lat.get? "time" = none := by
    by_contra hne
    have := (h.lats "time").1 (Option.ne_none_iff_exists'.1 hne)
    simp at this
  unfold MechMdl.args
  rw [fillArgs_get?, hn]
  by_cases hp : p = "time"
  · subst hp
    simp [nbtiParams, lookup2, hlt, h.noTime, Dict.get?]
  · rw [if_neg hp]
    have h0 : Dict.get? [("time", PyVal.arr times)] p = none := by
      simp [Dict.get?, Ne.symm hp]
    rw [h0]
    by_cases hl : p ∈ ["a_0", "e_aa", "alpha", "n"]
    · rw [if_pos hl, if_pos (by simp [nbtiParams] at hl ⊢; tauto)]
      obtain ⟨a, ha⟩ := (h.lats p).2 hl
      simp [lookup2, ha]
    · rw [if_neg hl]
      have hln : lat.get? p = none := by
        by_contra hne
        exact hl ((h.lats p).1 (Option.ne_none_iff_exists'.1 hne))
      by_cases hc : p ∈ ["temp", "vdd"]
      · rw [if_pos hc, if_pos (by simp [nbtiParams] at hc ⊢; tauto)]
        simp [lookup2, hln]
      · rw [if_neg hc, if_neg (by simp [nbtiParams] at hc hl ⊢; tauto)]

/-- The mechanism works on each sample separately, so the theorems on stress steps (C30, C31, C33, C55,
C56) apply to it. -/
theorem C60_samplewise {k : MechMdl W (Ext ℝ)} (hk : IsNbti k)
    {cs lat : Dict (Arr3 (Ext ℝ))} {L C D : Nat} (h : NbtiInputs cs lat L C D) :
    SampleWise k (fun args => nbtiExpr.val args) cs lat L C D where
  eqn := by rw [(nbti_eq hk).2.2.1]; exact NumExpr.elementwise nbti_uses
  condDims := h.condDims
  latDims := h.latDims
  acc := by
    intro times
    have key := nbti_args hk h times
    unfold PyFun.accepts
    rw [(nbti_eq hk).2.2.1, Bool.and_eq_true]
    constructor
    · rw [List.all_eq_true]
      intro q hq
      simp only [NumExpr.fn, List.mem_map] at hq
      obtain ⟨p, hp, rfl⟩ := hq
      simp only [Bool.false_or, Dict.has]
      rw [key p]
      by_cases h1 : p = "time"
      · rw [if_pos h1]; rfl
      · rw [if_neg h1]
        by_cases h2 : p ∈ ["a_0", "e_aa", "alpha", "n"]
        · rw [if_pos h2]
          obtain ⟨a, ha⟩ := (h.lats p).2 h2
          rw [ha]; rfl
        · rw [if_neg h2]
          have h3 : p ∈ ["temp", "vdd"] := by simp [nbtiParams] at hp h2 ⊢; tauto
          rw [if_pos h3]
          obtain ⟨a, ha⟩ := h.conds p h3
          rw [ha]; rfl
    · have hnd : (k.args times cs lat).Nodup := fillArgs_nodup _ _ (by simp [Dict.Nodup, Dict.keys])
      rw [show (nbtiExpr.fn nbtiParams : PyFun W (Ext ℝ)).kwName = none from rfl, Option.isSome_none,
        Bool.false_or, List.all_eq_true]
      rintro ⟨p, v⟩ hpv
      have hg := Dict.get?_of_mem hnd hpv
      rw [key p] at hg
      rw [List.any_eq_true]
      refine ⟨(p, false), ?_, by simp⟩
      simp only [NumExpr.fn, List.mem_map]
      refine ⟨p, ?_, rfl⟩
      by_contra hp
      simp only [nbtiParams, List.mem_cons, List.not_mem_nil, or_false, not_or] at hp
      simp [hp] at hg

/-- **C60**, the curve: under positive temperature and voltage the degradation of a sample after the time
`t` is the JEDEC shift with the sample's own conditions and latent values. -/
theorem C60_curve {k : MechMdl W (Ext ℝ)} (hk : IsNbti k) {cs lat : Dict (Arr3 (Ext ℝ))} {L C D : Nat}
    (h : NbtiInputs cs lat L C D) {l c d : Nat} (hl : l < L) (hc : c < C) (hd : d < D)
    {a e T v α n : ℝ} (hx : NbtiSample cs lat l c d a e T v α n) (hT : 0 < T) (hv : 0 < v) {t : ℝ}
    (ht : 0 < t) :
    curve k (fun args => nbtiExpr.val args) cs lat L C D l c d (.fin t) =
      .fin (nbtiShift a e T v α n t) := by
  obtain ⟨⟨xT, hT1, hT2⟩, ⟨xv, hv1, hv2⟩, ⟨xa, ha1, ha2⟩, ⟨xe, he1, he2⟩, ⟨xα, hα1, hα2⟩,
    ⟨xn, hn1, hn2⟩⟩ := hx
  have key : ∀ p x y, (k.args (Arr3.full L C D (.fin t)) cs lat).get? p = some (.arr x) →
      x.at' l c d = .fin y → (NumExpr.arg p).val
        (sampleArgs (k.args (Arr3.full L C D (.fin t)) cs lat) l c d) = Ext.fin y := by
    intro p x y h1 h2
    simp only [NumExpr.val, sampleArgs_get?, h1, Option.map_some]
    exact h2
  have kT := key "temp" xT T (by rw [nbti_args hk h]; simp [hT1]) hT2
  have kv := key "vdd" xv v (by rw [nbti_args hk h]; simp [hv1]) hv2
  have ka := key "a_0" xa a (by rw [nbti_args hk h]; simp [ha1]) ha2
  have ke := key "e_aa" xe e (by rw [nbti_args hk h]; simp [he1]) he2
  have kα := key "alpha" xα α (by rw [nbti_args hk h]; simp [hα1]) hα2
  have kn := key "n" xn n (by rw [nbti_args hk h]; simp [hn1]) hn2
  have kt := key "time" _ t (by rw [nbti_args hk h]; rw [if_pos rfl]) (Arr3.at_full _ hl hc hd)
  unfold curve
  generalize sampleArgs (k.args (Arr3.full L C D (.fin t)) cs lat) l c d = args at *
  simp only [nbtiExpr, NumExpr.val] at kT kv ka ke kα kn kt ⊢
  rw [kT, kv, ka, ke, kα, kn, kt]
  have hb : ((8617 / 100000000 : ℚ) : ℝ) * T ≠ 0 := by
    have : (0 : ℝ) < ((8617 / 100000000 : ℚ) : ℝ) := by norm_num
    positivity
  have e1 : PyArith.div (Ext.fin e) (PyArith.mul (PyArith.ofRat (8617 / 100000000)) (.fin T)) =
      .fin (e / (8617 / 100000000 * T)) := by
    show (if ((8617 / 100000000 : ℚ) : ℝ) * T = 0 then _ else _) = _
    rw [if_neg hb]
    norm_num
  have e2 : ∀ x y : ℝ, 0 < x → PyTrans.pow (Ext.fin x) (.fin y) = .fin (x ^ y) := by
    intro x y hx
    show (if 0 < x then _ else _) = _
    rw [if_pos hx]
  rw [e1, e2 v α hv, e2 t n ht]
  rfl

/-- **C60**, acceleration by time: with positive prefactor and exponent the shift grows strictly with time,
from its neutral value 0. -/
theorem C60_time {a e T v α n : ℝ} (ha : 0 < a) (hv : 0 < v) (hn : 0 < n) :
    StrictMonoOn (nbtiShift a e T v α n) (Set.Ici 0) ∧ nbtiShift a e T v α n 0 = 0 := by
  have hA : 0 < a * Real.exp (e / (8617 / 100000000 * T)) * v ^ α := by
    have := Real.rpow_pos_of_pos hv α
    have := Real.exp_pos (e / (8617 / 100000000 * T))
    positivity
  refine ⟨fun s hs t _ hst => ?_, ?_⟩
  · unfold nbtiShift
    exact mul_lt_mul_of_pos_left (Real.rpow_lt_rpow hs hst hn) hA
  · unfold nbtiShift
    rw [Real.zero_rpow hn.ne', mul_zero]

/-- **C60**, acceleration by voltage. -/
theorem C60_voltage {a e T v v' α n t : ℝ} (ha : 0 < a) (hv : 0 < v) (hvv : v < v') (hα : 0 < α)
    (ht : 0 < t) : nbtiShift a e T v α n t < nbtiShift a e T v' α n t := by
  unfold nbtiShift
  have h1 := Real.exp_pos (e / (8617 / 100000000 * T))
  have h2 := Real.rpow_pos_of_pos ht n
  have h3 := Real.rpow_lt_rpow hv.le hvv hα
  have hA : 0 < a * Real.exp (e / (8617 / 100000000 * T)) := by positivity
  exact mul_lt_mul_of_pos_right (mul_lt_mul_of_pos_left h3 hA) h2

/-- **C60**, acceleration by temperature, fails for positive energies (the default mean is 0.05 eV): hotter
devices degrade less. -/
theorem C60_temperature_violated {a e T T' v α n t : ℝ} (ha : 0 < a) (he : 0 < e) (hv : 0 < v)
    (hT : 0 < T) (hTT : T < T') (ht : 0 < t) :
    nbtiShift a e T' v α n t < nbtiShift a e T v α n t := by
  unfold nbtiShift
  have h2 := Real.rpow_pos_of_pos ht n
  have h3 := Real.rpow_pos_of_pos hv α
  have h1 : Real.exp (e / (8617 / 100000000 * T')) < Real.exp (e / (8617 / 100000000 * T)) := by
    apply Real.exp_lt_exp.2
    apply div_lt_div_of_pos_left he (by positivity)
    exact mul_lt_mul_of_pos_left hTT (by norm_num)
  exact mul_lt_mul_of_pos_right (mul_lt_mul_of_pos_right (mul_lt_mul_of_pos_left h1 ha) h3) h2

/-! ## Examples -/

/-- `n` devices on one chip, all with the value `x`. -/
noncomputable def flat (n : Nat) (x : ℝ) : Arr3 (Ext ℝ) := Arr3.full 1 1 n (.fin x)

/-- 1.2 V at 400 K. -/
noncomputable def nbtiConds (n : Nat) : Dict (Arr3 (Ext ℝ)) := [("temp", flat n 400), ("vdd", flat n (6 / 5))]

/-- The default means as latent values. -/
noncomputable def nbtiLats (n : Nat) : Dict (Arr3 (Ext ℝ)) :=
  [("a_0", flat n (6 / 1000)), ("e_aa", flat n (5 / 100)), ("alpha", flat n (34 / 10)),
    ("n", flat n (21 / 100))]

theorem nbtiInputs (n : Nat) : NbtiInputs (nbtiConds n) (nbtiLats n) 1 1 n where
  condDims := by
    intro k a h
    rcases List.mem_cons.1 (Dict.mem_of_get? h) with h | h
    · cases h; exact ⟨rfl, rfl, rfl⟩
    · cases List.mem_singleton.1 h; exact ⟨rfl, rfl, rfl⟩
  latDims := by
    intro k a h
    have := Dict.mem_of_get? h
    simp only [nbtiLats, List.mem_cons, Prod.mk.injEq, List.not_mem_nil, or_false] at this
    rcases this with ⟨-, rfl⟩ | ⟨-, rfl⟩ | ⟨-, rfl⟩ | ⟨-, rfl⟩ <;> exact ⟨rfl, rfl, rfl⟩
  conds := by
    intro k hk
    simp only [List.mem_cons, List.not_mem_nil, or_false] at hk
    rcases hk with rfl | rfl <;> exact ⟨_, rfl⟩
  lats := by
    intro k
    constructor
    · rintro ⟨a, h⟩
      have := Dict.mem_of_get? h
      simp only [nbtiLats, List.mem_cons, Prod.mk.injEq, List.not_mem_nil, or_false] at this
      rcases this with ⟨rfl, -⟩ | ⟨rfl, -⟩ | ⟨rfl, -⟩ | ⟨rfl, -⟩ <;> simp
    · intro hk
      simp only [List.mem_cons, List.not_mem_nil, or_false] at hk
      rcases hk with rfl | rfl | rfl | rfl <;> exact ⟨_, rfl⟩
  noTime := rfl

theorem nbtiSample {n d : Nat} (hd : d < n) :
    NbtiSample (nbtiConds n) (nbtiLats n) 0 0 d (6 / 1000) (5 / 100) 400 (6 / 5) (34 / 10) (21 / 100) where
  temp := ⟨_, rfl, Arr3.at_full _ Nat.one_pos Nat.one_pos hd⟩
  vdd := ⟨_, rfl, Arr3.at_full _ Nat.one_pos Nat.one_pos hd⟩
  a_0 := ⟨_, rfl, Arr3.at_full _ Nat.one_pos Nat.one_pos hd⟩
  e_aa := ⟨_, rfl, Arr3.at_full _ Nat.one_pos Nat.one_pos hd⟩
  alpha := ⟨_, rfl, Arr3.at_full _ Nat.one_pos Nat.one_pos hd⟩
  n := ⟨_, rfl, Arr3.at_full _ Nat.one_pos Nat.one_pos hd⟩

/-- Three devices at the default means after 1000 hours: the curve is the JEDEC shift, which is less at
425 K and more at 1.3 V. -/
example : ∃ k : MechMdl Counts (Ext ℝ), jedecNbti = .ok k ∧
    curve k (fun args => nbtiExpr.val args) (nbtiConds 3) (nbtiLats 3) 1 1 3 0 0 2 (.fin 1000) =
      .fin (nbtiShift (6 / 1000) (5 / 100) 400 (6 / 5) (34 / 10) (21 / 100) 1000) ∧
    nbtiShift (6 / 1000) (5 / 100) 425 (6 / 5) (34 / 10) (21 / 100) 1000 <
      nbtiShift (6 / 1000) (5 / 100) 400 (6 / 5) (34 / 10) (21 / 100) 1000 ∧
    nbtiShift (6 / 1000) (5 / 100) 400 (6 / 5) (34 / 10) (21 / 100) 1000 <
      nbtiShift (6 / 1000) (5 / 100) 400 (13 / 10) (34 / 10) (21 / 100) 1000 := by
  obtain ⟨k, hk⟩ : ∃ k : MechMdl Counts (Ext ℝ), jedecNbti = .ok k := ⟨_, rfl⟩
  refine ⟨k, hk, ?_, ?_, ?_⟩
  · exact C60_curve ⟨k, hk, rfl, rfl, rfl, rfl⟩ (nbtiInputs 3) Nat.one_pos Nat.one_pos (by decide)
      (nbtiSample (by decide)) (by norm_num) (by norm_num) (by norm_num)
  · exact C60_temperature_violated (by norm_num) (by norm_num) (by norm_num) (by norm_num) (by norm_num)
      (by norm_num)
  · exact C60_voltage (by norm_num) (by norm_num) (by norm_num) (by norm_num) (by norm_num)

end Gerabaldi.Props
