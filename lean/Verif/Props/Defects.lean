import Verif.Spec.Defects
import Verif.Props.Tapes
import Verif.Props.TddbRun

/-! # C92: how many defects form -/

namespace Gerabaldi.Props
open Gerabaldi Spec MeasureTheory ProbabilityTheory

variable {N : Numpy}

/-- The tapes after `n` numbers for defects. -/
def afterDefects (n : Nat) (w : Tapes N) : Tapes N :=
  ⟨w.tape, fun j => if j = 20 then w.next 20 + n else w.next j⟩

theorem afterDefects_add (m n : Nat) (w : Tapes N) : afterDefects n (afterDefects m w) = afterDefects (m + n) w := by
  unfold afterDefects
  simp only [if_true, Nat.add_assoc]
  congr 1
  funext j
  split_ifs <;> rfl

theorem defect_draw (w : Tapes N) : (defectVar : RVar (Ext ℝ)).sample 1 w =
    (.ok [.fin (N.uniform 0 1 (w.tape 20 (w.next 20)))], afterDefects 1 w) := by
  have h : N.value (defectVar : RVar (Ext ℝ)).dist = some (N.uniform 0 1) := by
    show some (N.uniform ((0 : ℚ) : ℝ) ((1 : ℚ) : ℝ)) = _
    norm_num
  rw [tape_sample h 1 w]
  rfl

/-- The number for a defect: 1 if it forms. -/
noncomputable def formed (N : Numpy) (u p : ℝ) : Ext ℝ := .fin (if N.uniform 0 1 u < p then 1 else 0)

theorem defect_number {x : PyVal (Ext ℝ)} {p : ℝ} (hx : onlyElem x = .ok (.fin p)) (u : ℝ) :
    defectBranch [.fin (N.uniform 0 1 u)] x = .ok (.scal (formed N u p)) := by
  unfold defectBranch formed
  rw [hx]
  show Except.ok (PyVal.scal (if decide (N.uniform 0 1 u < p) = true then Ext.fin ((1 : ℚ) : ℝ) else Ext.fin ((0 : ℚ) : ℝ))) = _
  by_cases h : N.uniform 0 1 u < p <;> simp [h]

theorem defect_single {args : Dict (PyVal (Ext ℝ))} {p : ℝ} (hn : Numbers args)
    (hacc : (defectFn : PyFun (Tapes N) (Ext ℝ)).accepts args = true) (hv : defectExpr.val args = .fin p) (w : Tapes N) :
    (defectFn : PyFun (Tapes N) (Ext ℝ)).invoke args w =
      (.ok (.scal (formed N (w.tape 20 (w.next 20)) p)), afterDefects 1 w) := by
  have hu : uniformShape args 1 1 1 := fun k a h => by obtain ⟨x, hx⟩ := hn k _ h; cases hx
  obtain ⟨v, h1, h2, h3, h4⟩ := (defectExpr : NumExpr (Ext ℝ)).eval_is hu (defect_present hacc)
  have hargs : sampleArgs args 0 0 0 = args := by
    unfold sampleArgs
    conv_rhs => rw [← List.map_id args]
    refine List.map_congr_left fun kv hkv => ?_
    obtain ⟨x, hx⟩ := hn kv.1 kv.2 hkv
    refine Prod.ext rfl ?_
    simp only [hx, sampleVal, id]
  have hx : onlyElem v = .ok (.fin p) := by
    cases v with
    | arr a =>
      obtain ⟨k, -, b, hb⟩ := h3.2 ⟨a, rfl⟩
      obtain ⟨x, hx⟩ := hn _ _ (Dict.mem_of_get? hb)
      cases hx
    | scal x =>
      have : defectExpr.val (sampleArgs args 0 0 0) = x := h2 0 0 0
      rw [hargs, hv] at this
      rw [← this]; rfl
    | npscal x =>
      have : defectExpr.val (sampleArgs args 0 0 0) = x := h2 0 0 0
      rw [hargs, hv] at this
      rw [← this]; rfl
  unfold PyFun.invoke
  rw [if_pos hacc, defectFn_call h1 (defect_draw w), defect_number hx]

/-- The loop over the samples draws one number for each. -/
theorem defect_loop {args : Dict (PyVal (Ext ℝ))} {L C D : Nat} (hu : uniformShape args L C D)
    (hp : plainScalars args) (hacc : (defectFn : PyFun (Tapes N) (Ext ℝ)).accepts args = true)
    {p : Nat → Nat → Nat → ℝ}
    (hv : ∀ l < L, ∀ c < C, ∀ d < D, defectExpr.val (sampleArgs args l c d) = .fin (p l c d)) (w : Tapes N) :
    loopCompute (defectFn : PyFun (Tapes N) (Ext ℝ)) args L C D w =
      (.ok (Arr3.ofFn L C D fun l c d => formed N (w.tape 20 (w.next 20 + ((l * C + c) * D + d))) (p l c d)),
        afterDefects (L * C * D) w) := by
  have key : ∀ (ps : List (Nat × Nat × Nat)) (w : Tapes N), (∀ q ∈ ps, q.1 < L ∧ q.2.1 < C ∧ q.2.2 < D) →
      M.mapList (loopBody (defectFn : PyFun (Tapes N) (Ext ℝ)) args) ps w =
        (.ok (ps.mapIdx fun i q => formed N (w.tape 20 (w.next 20 + i)) (p q.1 q.2.1 q.2.2)),
          afterDefects ps.length w) := by
    intro ps
    induction ps with
    | nil =>
      intro w _
      show (Except.ok [], w) = _
      unfold afterDefects
      simp only [List.mapIdx_nil, List.length_nil, Nat.add_zero]
      congr 1
      obtain ⟨t, n⟩ := w
      congr 1
      funext j
      simp only
      split_ifs with h
      · rw [h]
      · rfl
    | cons q ps ih =>
      intro w hq
      obtain ⟨a, b, c⟩ := hq q List.mem_cons_self
      have hs := defect_single (N := N) (sampleArgs_numbers args q.1 q.2.1 q.2.2)
        (by rw [sampleArgs_accepts]; exact hacc) (hv _ a _ b _ c) w
      have h1 := loopBody_eq hu hp a b c hs
      have h2 := ih (afterDefects 1 w) fun q hq' => hq q (List.mem_cons_of_mem _ hq')
      simp only [M.mapList]
      rw [M.bind_ok h1, M.bind_ok h2]
      simp only [M.pure_run, afterDefects_add, List.mapIdx_cons, List.length_cons, Nat.add_zero]
      rw [Nat.add_comm 1]
      congr 4
      funext i q
      simp only [afterDefects, if_true]
      congr 2
      omega
  obtain ⟨r, h1, ⟨e1, e2, e3⟩, h2⟩ := loopCompute_run (key (idx3 L C D) w fun q hq => mem_idx3 hq)
  rw [h1, idx3_length]
  congr 2
  refine Arr3.ext' e1 e2 e3 ?_
  rw [h2, idx3_eq]
  apply List.ext_getElem
  · simp [Arr3.ofFn]
  · intro n h3 h4
    simp only [List.getElem_mapIdx, List.getElem_map, List.getElem_range, Arr3.ofFn, sampleAt]
    have h5 : n < L * C * D := by simpa using h3
    obtain ⟨-, -, -, h6⟩ := Arr3.decode_lt h5
    congr 3
    omega

/-- How many numbers are drawn before those of the samples: one for the attempt with arrays, which only
works for a single sample. -/
def attempt (n : Nat) : Nat := if n = 1 then 0 else 1

theorem defect_compute {args : Dict (PyVal (Ext ℝ))} {L C D : Nat} (hu : uniformShape args L C D)
    (hp : plainScalars args) (hacc : (defectFn : PyFun (Tapes N) (Ext ℝ)).accepts args = true)
    {times : Arr3 (Ext ℝ)} (ht : args.get? "time" = some (.arr times)) {p : Nat → Nat → Nat → ℝ}
    (hv : ∀ l < L, ∀ c < C, ∀ d < D, defectExpr.val (sampleArgs args l c d) = .fin (p l c d)) (w : Tapes N) :
    ∃ v, computeOrLoop (defectFn : PyFun (Tapes N) (Ext ℝ)) args L C D w =
        (.ok v, afterDefects (attempt (L * C * D) + L * C * D) w) ∧
      v.toArr = Arr3.ofFn L C D fun l c d =>
        formed N (w.tape 20 (w.next 20 + attempt (L * C * D) + ((l * C + c) * D + d))) (p l c d) := by
  obtain ⟨v, h1, h2, h3, -⟩ := (defectExpr : NumExpr (Ext ℝ)).eval_is hu (defect_present hacc)
  obtain ⟨a, rfl⟩ := h3.1 ⟨"time", by simp [defectExpr, NumExpr.uses], times, ht⟩
  obtain ⟨ha, h4⟩ := h2
  have hcall : (defectFn : PyFun (Tapes N) (Ext ℝ)).invoke args w =
      (defectBranch [.fin (N.uniform 0 1 (w.tape 20 (w.next 20)))] (.arr a), afterDefects 1 w) := by
    unfold PyFun.invoke
    rw [if_pos hacc, defectFn_call h1 (defect_draw w)]
  by_cases hn : L * C * D = 1
  · have hL : L = 1 := Nat.eq_one_of_mul_eq_one_right (Nat.eq_one_of_mul_eq_one_right hn)
    have hC : C = 1 := Nat.eq_one_of_mul_eq_one_left (Nat.eq_one_of_mul_eq_one_right hn)
    have hD : D = 1 := Nat.eq_one_of_mul_eq_one_left hn
    subst hL hC hD
    have hx : onlyElem (.arr a) = .ok (.fin (p 0 0 0)) := by
      have h5 := (h4 0 Nat.one_pos 0 Nat.one_pos 0 Nat.one_pos).trans
        (hv 0 Nat.one_pos 0 Nat.one_pos 0 Nat.one_pos)
      have h6 := a.wf
      rw [ha.1, ha.2.1, ha.2.2] at h6
      obtain ⟨x, hx⟩ := List.length_eq_one_iff.1 (h6.trans hn)
      unfold Arr3.at' at h5
      rw [hx] at h5
      simp only [Nat.zero_mul, Nat.zero_add, List.getD_cons_zero] at h5
      simp only [onlyElem, hx, h5]
    refine ⟨.scal (formed N (w.tape 20 (w.next 20)) (p 0 0 0)), ?_, ?_⟩
    · unfold computeOrLoop M.catchValueError
      rw [hcall, defect_number hx]
      rfl
    · rfl
  · have hloop := defect_loop hu hp hacc hv (afterDefects 1 w)
    refine ⟨.arr (Arr3.ofFn L C D fun l c d =>
      formed N (w.tape 20 (w.next 20 + attempt (L * C * D) + ((l * C + c) * D + d))) (p l c d)), ?_, rfl⟩
    unfold computeOrLoop M.catchValueError
    rw [hcall]
    unfold defectBranch
    rw [onlyElem_arr ha hn]
    show M.bind (loopCompute _ args L C D) _ (afterDefects 1 w) = _
    rw [show M.bind (loopCompute (defectFn : PyFun (Tapes N) (Ext ℝ)) args L C D) _ (afterDefects 1 w) = _ from
      M.bind_ok hloop]
    rw [afterDefects_add]
    unfold attempt
    rw [if_neg hn]
    simp only [M.pure_run, afterDefects, if_true]

theorem isDefect_eq {k : MechMdl (Tapes N) (Ext ℝ)} (h : IsDefect k) :
    k.kind = .fail ∧ k.unitary = .fin 0 ∧ k.mdl.compute = defectFn := by
  obtain ⟨c, th, k₀, h1, h2, h3, h4⟩ := h
  rw [h2, h3, h4]
  rw [tddbMech_eq] at h1
  cases h1
  refine ⟨rfl, ?_, rfl⟩
  show Ext.fin ((0 : ℚ) : ℝ) = _
  norm_num

/-- The formula for the chance, before it is cut to the interval from 0 to 1. -/
noncomputable def rawChance (t T v d c b h : ℝ) : ℝ := t * (c * (v / d) * (T ^ h / b))

theorem defect_args {k : MechMdl (Tapes N) (Ext ℝ)} (hk : IsDefect k) {ph : DefectPhase} {L C D : Nat}
    {q : Nat → Nat → Nat → ℝ} (h : PhaseChances ph L C D q) (p : String) :
    (k.args ph.times ph.conds ph.lats).get? p =
      if p = "time" then some (.arr ph.times)
      else if p ∈ ["t_diel", "c", "bond_strength", "thermal_dist"] then (ph.lats.get? p).map .arr
      else if p ∈ ["temp", "v_g"] then (ph.conds.get? p).map .arr else none := by
  have hn : k.mdl.compute.argNames = defectParams := by
    rw [(isDefect_eq hk).2.2]
    rfl
  have hl : ∀ p, p ∉ ["t_diel", "c", "bond_strength", "thermal_dist"] → ph.lats.get? p = none := by
    intro p hp
    by_contra hne
    obtain ⟨a, ha⟩ := Option.ne_none_iff_exists'.1 hne
    exact hp (h.onlyLats p a ha)
  obtain ⟨t, T, v, d, c, b, e, -, -, -, ⟨a1, b1, -⟩, ⟨a2, b2, -⟩, ⟨a3, b3, -⟩, ⟨a4, b4, -⟩⟩ := h.values
  have hsome : p ∈ ["t_diel", "c", "bond_strength", "thermal_dist"] → ∃ a, ph.lats.get? p = some a := by
    intro hp
    simp only [List.mem_cons, List.not_mem_nil, or_false] at hp
    rcases hp with rfl | rfl | rfl | rfl
    · exact ⟨_, b1⟩
    · exact ⟨_, b2⟩
    · exact ⟨_, b3⟩
    · exact ⟨_, b4⟩
  unfold MechMdl.args
  rw [fillArgs_get?, hn]
  by_cases hp : p = "time"
  · subst hp
    simp [defectParams, lookup2, hl "time" (by simp), h.noTime, Dict.get?]
  · rw [if_neg hp]
    have h0 : Dict.get? [("time", PyVal.arr ph.times)] p = none := by
      simp [Dict.get?, Ne.symm hp]
    rw [h0]
    by_cases hq : p ∈ ["t_diel", "c", "bond_strength", "thermal_dist"]
    · rw [if_pos hq, if_pos (by simp [defectParams] at hq ⊢; tauto)]
      obtain ⟨a, ha⟩ := hsome hq
      simp [lookup2, ha]
    · rw [if_neg hq]
      by_cases hc : p ∈ ["temp", "v_g"]
      · rw [if_pos hc, if_pos (by simp [defectParams] at hc ⊢; tauto)]
        simp [lookup2, hl p hq]
      · rw [if_neg hc, if_neg (by simp [defectParams] at hc hq ⊢; tauto)]

theorem defect_accepts {k : MechMdl (Tapes N) (Ext ℝ)} (hk : IsDefect k) {ph : DefectPhase} {L C D : Nat}
    {q : Nat → Nat → Nat → ℝ} (h : PhaseChances ph L C D q) :
    (defectFn : PyFun (Tapes N) (Ext ℝ)).accepts (k.args ph.times ph.conds ph.lats) = true := by
  have key := defect_args hk h
  obtain ⟨t, T, v, d, c, b, e, -, ⟨a5, b5, -⟩, ⟨a6, b6, -⟩, ⟨a1, b1, -⟩, ⟨a2, b2, -⟩, ⟨a3, b3, -⟩, ⟨a4, b4, -⟩⟩ := h.values
  unfold PyFun.accepts
  rw [Bool.and_eq_true]
  constructor
  · rw [List.all_eq_true]
    intro x hx
    obtain ⟨p, hp, rfl⟩ := List.mem_map.1 (show x ∈ defectParams.map fun p => (p, false) from hx)
    simp only [Bool.false_or, Dict.has]
    rw [key p]
    simp only [defectParams, List.mem_cons, List.not_mem_nil, or_false] at hp
    rcases hp with rfl | rfl | rfl | rfl | rfl | rfl | rfl <;> simp [b1, b2, b3, b4, b5, b6]
  · have hnd : (k.args ph.times ph.conds ph.lats).Nodup := fillArgs_nodup _ _ (by simp [Dict.Nodup, Dict.keys])
    rw [show (defectFn : PyFun (Tapes N) (Ext ℝ)).kwName = none from rfl, Option.isSome_none,
      Bool.false_or, List.all_eq_true]
    rintro ⟨p, v⟩ hpv
    have hg := Dict.get?_of_mem hnd hpv
    rw [key p] at hg
    rw [List.any_eq_true]
    refine ⟨(p, false), ?_, by simp⟩
    refine List.mem_map.2 ⟨p, ?_, rfl⟩
    by_contra hp
    simp only [defectParams, List.mem_cons, List.not_mem_nil, or_false, not_or] at hp
    simp [hp] at hg

/-- One phase. -/
theorem defect_phase {k : MechMdl (Tapes N) (Ext ℝ)} (hk : IsDefect k) {ph : DefectPhase} {L C D : Nat}
    {q : Nat → Nat → Nat → ℝ} (h : PhaseChances ph L C D q) :
    ∃ r : Nat → Nat → Nat → ℝ, (∀ l < L, ∀ c < C, ∀ d < D, q l c d = min 1 (max 0 (r l c d))) ∧
      ∀ (pre : Arr3 (Ext ℝ)), pre.HasDims L C D → ∀ w : Tapes N,
        k.calcDegVals ph.times pre ph.conds ph.lats L C D w =
          (.ok (Arr3.ofFn L C D fun l c d => if pre.at' l c d = .fin 0 then
              formed N (w.tape 20 (w.next 20 + attempt (L * C * D) + ((l * C + c) * D + d))) (r l c d)
            else pre.at' l c d), afterDefects (attempt (L * C * D) + L * C * D) w) := by
  have hacc := defect_accepts hk h
  have key := defect_args hk h
  obtain ⟨hkind, hunit, hfn⟩ := isDefect_eq hk
  have hdims := h.dims
  obtain ⟨t, T, v, d, c, b, e, hx, ⟨a1, b1, c1, d1⟩, ⟨a2, b2, c2, d2⟩, ⟨a3, b3, c3, d3⟩, ⟨a4, b4, c4, d4⟩,
    ⟨a5, b5, c5, d5⟩, ⟨a6, b6, c6, d6⟩⟩ := h.values
  have hu : uniformShape (k.args ph.times ph.conds ph.lats) L C D := by
    intro p a hpa
    have hnd : (k.args ph.times ph.conds ph.lats).Nodup := fillArgs_nodup _ _ (by simp [Dict.Nodup, Dict.keys])
    have hg := Dict.get?_of_mem hnd hpa
    have hmem := accepts_mem hacc rfl hg
    have hp : p ∈ defectParams := by simpa [defectFn, Function.comp_def] using hmem
    rw [key p] at hg
    simp only [defectParams, List.mem_cons, List.not_mem_nil, or_false] at hp
    rcases hp with rfl | rfl | rfl | rfl | rfl | rfl | rfl <;>
      simp [b1, b2, b3, b4, b5, b6] at hg <;> subst hg <;> assumption
  have hp : plainScalars (k.args ph.times ph.conds ph.lats) := by
    refine fillArgs_plain ?_ ?_
    · intro p v hpv
      simp at hpv
    · intro p v hpv
      unfold lookup2 at hpv
      split at hpv
      · cases hpv
      · cases hc : ph.conds.get? p <;> simp [hc] at hpv
  have hv : ∀ i < L, ∀ j < C, ∀ n < D, defectExpr.val (sampleArgs (k.args ph.times ph.conds ph.lats) i j n) =
      .fin (rawChance (t i j n) (T i j n) (v i j n) (d i j n) (c i j n) (b i j n) (e i j n)) := by
    intro i hi j hj n hn
    obtain ⟨y1, y2, y3, y4, y5, -⟩ := hx i hi j hj n hn
    have get : ∀ p x y, (k.args ph.times ph.conds ph.lats).get? p = some (.arr x) → x.at' i j n = .fin y →
        (NumExpr.arg p).val (sampleArgs (k.args ph.times ph.conds ph.lats) i j n) = Ext.fin y := by
      intro p x y h1 h2
      simp only [NumExpr.val, Gerabaldi.sampleArgs_get?, h1, Option.map_some]
      exact h2
    have k1 := get "temp" a1 _ (by rw [key]; simp [b1]) (d1 i hi j hj n hn)
    have k2 := get "v_g" a2 _ (by rw [key]; simp [b2]) (d2 i hi j hj n hn)
    have k3 := get "t_diel" a3 _ (by rw [key]; simp [b3]) (d3 i hi j hj n hn)
    have k4 := get "c" a4 _ (by rw [key]; simp [b4]) (d4 i hi j hj n hn)
    have k5 := get "bond_strength" a5 _ (by rw [key]; simp [b5]) (d5 i hi j hj n hn)
    have k6 := get "thermal_dist" a6 _ (by rw [key]; simp [b6]) (d6 i hi j hj n hn)
    have k7 := get "time" ph.times _ (by rw [key]; simp) y1
    generalize sampleArgs (k.args ph.times ph.conds ph.lats) i j n = args at *
    simp only [defectExpr, NumExpr.val] at k1 k2 k3 k4 k5 k6 k7 ⊢
    rw [k1, k2, k3, k4, k5, k6, k7]
    have e1 : PyTrans.pow (Ext.fin (T i j n)) (.fin (e i j n)) = .fin (T i j n ^ e i j n) := by
      show (if 0 < T i j n then _ else _) = _
      rw [if_pos y3]
    have e2 : ∀ x y : ℝ, y ≠ 0 → PyArith.div (Ext.fin x) (.fin y) = .fin (x / y) := by
      intro x y hy
      show (if y = 0 then _ else _) = _
      rw [if_neg hy]
    rw [e1, e2 _ _ y4, e2 _ _ y5]
    rfl
  refine ⟨fun i j n => rawChance (t i j n) (T i j n) (v i j n) (d i j n) (c i j n) (b i j n) (e i j n),
    fun i hi j hj n hn => (hx i hi j hj n hn).2.2.2.2.2, fun pre hpre w => ?_⟩
  obtain ⟨val, g1, g2⟩ := defect_compute hu hp hacc (times := ph.times) (by rw [key]; simp) hv w
  unfold MechMdl.calcDegVals
  rw [hkind]
  have hbase : k.calcDegBase ph.times pre ph.conds ph.lats L C D w = (.ok val.toArr,
      afterDefects (attempt (L * C * D) + L * C * D) w) := by
    unfold MechMdl.calcDegBase
    rw [Arr3.bcast2_same _ _ _ hdims hpre, M.bind_ok (rfl : M.ofExcept (Except.ok _) w = (.ok _, w)), hfn, M.bind_ok g1,
      g2, Arr3.bcast2_same _ _ _ (Arr3.ofFn_hasDims _ _ _ _) (Arr3.ofFn_hasDims _ _ _ _), M.ofExcept_run]
    congr 2
    refine Arr3.ext_at rfl rfl rfl fun i hi j hj n hn => ?_
    have hi : i < L := hi
    have hj : j < C := hj
    have hn : n < D := hn
    obtain ⟨y1, y2, -⟩ := hx i hi j hj n hn
    simp only [Arr3.at_ofFn _ hi hj hn, y1]
    have : pastLimit (Ext.fin (t i j n)) = false := by
      show decide (((9000000000 : ℚ) : ℝ) < t i j n) = false
      push_cast
      simpa using y2
    rw [this]
    simp only [Bool.false_eq_true, if_false]
    rfl
  show M.bind (k.calcDegBase ph.times pre ph.conds ph.lats L C D) _ w = _
  rw [show M.bind (k.calcDegBase ph.times pre ph.conds ph.lats L C D) _ w = _ from M.bind_ok hbase, g2,
    Arr3.bcast2_same _ _ _ hpre (Arr3.ofFn_hasDims _ _ _ _), M.ofExcept_run, hunit]
  congr 2
  refine Arr3.ext_at rfl rfl rfl fun i hi j hj n hn => ?_
  have hi : i < L := hi
  have hj : j < C := hj
  have hn : n < D := hn
  simp only [Arr3.at_ofFn _ hi hj hn]
  by_cases h0 : pre.at' i j n = .fin 0
  · rw [if_pos h0, h0]
    have : PyArith.eq (Ext.fin (0 : ℝ)) (.fin 0) = true := by
      show decide ((0 : ℝ) = 0) = true
      simp
    rw [this]
    rfl
  · rw [if_neg h0]
    have : PyArith.eq (pre.at' i j n) (.fin 0) = false := by
      cases hz : pre.at' i j n with
      | fin x =>
        show decide (x = 0) = false
        rw [hz] at h0
        simpa using h0
      | pinf => rfl
      | ninf => rfl
      | nan => rfl
    rw [this]
    rfl

/-- Several phases. -/
theorem defect_phases {k : MechMdl (Tapes N) (Ext ℝ)} (hk : IsDefect k) {L C D : Nat} {phs : List DefectPhase}
    {q : Nat → Nat → Nat → Nat → ℝ} (h : ∀ (i : Nat) (hi : i < phs.length), PhaseChances phs[i] L C D (q i)) :
    ∃ r : Nat → Nat → Nat → Nat → ℝ,
      (∀ i < phs.length, ∀ l < L, ∀ c < C, ∀ d < D, q i l c d = min 1 (max 0 (r i l c d))) ∧
      ∀ (pre : Arr3 (Ext ℝ)), pre.HasDims L C D → ∀ w : Tapes N, ∃ a w',
        defectsAfter k L C D phs pre w = (.ok a, w') ∧ a.HasDims L C D ∧ ∀ l < L, ∀ c < C, ∀ d < D,
          a.at' l c d = if pre.at' l c d = .fin 0 then
              .fin (if ∃ i < phs.length, N.uniform 0 1 (w.tape 20 (w.next 20 +
                  i * (attempt (L * C * D) + L * C * D) + attempt (L * C * D) + ((l * C + c) * D + d))) < r i l c d
                then 1 else 0)
            else pre.at' l c d := by
  induction phs generalizing q with
  | nil =>
    refine ⟨q, fun i hi => absurd hi (Nat.not_lt_zero i), fun pre hpre w => ⟨pre, w, rfl, hpre, fun l hl c hc d hd => ?_⟩⟩
    simp only [List.length_nil, Nat.not_lt_zero, false_and, exists_false, if_false]
    split_ifs with h0
    · exact h0
    · rfl
  | cons ph rest ih =>
    obtain ⟨r₀, a1, a2⟩ := defect_phase hk (h 0 (Nat.succ_pos _))
    obtain ⟨r, b1, b2⟩ := ih (q := fun i => q (i + 1)) fun i hi => h (i + 1) (Nat.succ_lt_succ hi)
    refine ⟨fun i => match i with
      | 0 => r₀
      | i + 1 => r i, ?_, fun pre hpre w => ?_⟩
    · intro i hi
      cases i with
      | zero => exact a1
      | succ i => exact b1 i (Nat.lt_of_succ_lt_succ hi)
    · obtain ⟨a, w', c1, c2, c3⟩ := b2 _ (Arr3.ofFn_hasDims _ _ _ _) (afterDefects (attempt (L * C * D) + L * C * D) w)
      refine ⟨a, w', (M.bind_ok (a2 pre hpre w)).trans c1, c2, fun l hl c hc d hd => ?_⟩
      rw [c3 l hl c hc d hd, Arr3.at_ofFn _ hl hc hd]
      by_cases h0 : pre.at' l c d = .fin 0
      · rw [if_pos h0, if_pos h0]
        unfold formed
        by_cases h1 : N.uniform 0 1 (w.tape 20 (w.next 20 + attempt (L * C * D) + ((l * C + c) * D + d))) < r₀ l c d
        · rw [if_pos h1, if_neg (by simp), if_pos ⟨0, Nat.succ_pos _, by simpa using h1⟩]
        · rw [if_neg h1, if_pos rfl]
          congr 2
          refine propext ⟨?_, ?_⟩
          · rintro ⟨i, hi, h2⟩
            refine ⟨i + 1, Nat.succ_lt_succ hi, ?_⟩
            simp only [afterDefects, if_true] at h2
            rwa [show w.next 20 + (i + 1) * (attempt (L * C * D) + L * C * D) = w.next 20 +
              (attempt (L * C * D) + L * C * D) + i * (attempt (L * C * D) + L * C * D) by ring]
          · rintro ⟨i, hi, h2⟩
            cases i with
            | zero => exact absurd (by simpa using h2) h1
            | succ i =>
              refine ⟨i, Nat.lt_of_succ_lt_succ hi, ?_⟩
              simp only [afterDefects, if_true]
              rwa [show w.next 20 + (i + 1) * (attempt (L * C * D) + L * C * D) = w.next 20 +
                (attempt (L * C * D) + L * C * D) + i * (attempt (L * C * D) + L * C * D) by ring] at h2
      · rw [if_neg h0, if_neg h0, if_neg h0]

/-- The chance that a uniform number is below a bound. -/
theorem uniform_below (p : ℝ) : pdfLaw (uniformPdf 0 1) (Set.Iio p) = ENNReal.ofReal (min 1 (max 0 p)) := by
  have e : ∀ x : ℝ, ENNReal.ofReal (uniformPdf 0 1 x) = (Set.Ioo (0 : ℝ) 1).indicator 1 x := by
    intro x
    unfold uniformPdf Set.indicator
    by_cases h : 0 < x ∧ x < 1
    · rw [if_pos h, if_pos (Set.mem_Ioo.2 h)]
      simp
    · rw [if_neg h, if_neg (by simpa [Set.mem_Ioo] using h)]
      simp
  unfold pdfLaw
  rw [withDensity_apply _ measurableSet_Iio]
  simp only [e]
  rw [lintegral_indicator_one measurableSet_Ioo, Measure.restrict_apply measurableSet_Ioo, Set.Ioo_inter_Iio,
    Real.volume_Ioo, sub_zero]
  rcases le_total p 0 with h | h
  · rw [max_eq_left h, min_eq_right zero_le_one, ENNReal.ofReal_zero]
    exact ENNReal.ofReal_eq_zero.2 (min_le_of_right_le h)
  · rw [max_eq_right h]

variable {Ω : Type} [MeasurableSpace Ω] {P : Measure Ω} {P₀ : Measure ℝ} {raw : Nat → Nat → Ω → ℝ}

/-- **C92**: with independent standard random numbers and a correct uniform generator, the defects of all
devices in all phases form independently of each other, each with the stated chance, and a device has the
defect in the end if it formed in any of the phases. -/
theorem C92_defects (hm : Measurable (N.uniform 0 1)) (hu : N.Samples P₀ (.uniform 0 1)) (hr : Standard P P₀ raw)
    {k : MechMdl (Tapes N) (Ext ℝ)} (hk : IsDefect k) {L C D : Nat} {phs : List DefectPhase}
    {q : Nat → Nat → Nat → Nat → ℝ} (h : ∀ (i : Nat) (hi : i < phs.length), PhaseChances phs[i] L C D (q i))
    (next : Nat → Nat) :
    ∃ E : Fin phs.length × Fin L × Fin C × Fin D → Set Ω, iIndepSet E P ∧ (∀ x, MeasurableSet (E x)) ∧
      (∀ i l c d, P (E (i, l, c, d)) = ENNReal.ofReal (q i l c d)) ∧
      ∀ ω, ∃ a w', defectsAfter k L C D phs (k.genInitVals D C L) ⟨fun i j => raw i j ω, next⟩ = (.ok a, w') ∧
        a.HasDims L C D ∧ ∀ (l : Fin L) (c : Fin C) (d : Fin D),
          ((∃ i, ω ∈ E (i, l, c, d)) → a.at' l c d = .fin 1) ∧ ((∀ i, ω ∉ E (i, l, c, d)) → a.at' l c d = .fin 0) := by
  obtain ⟨r, h1, h2⟩ := defect_phases hk h
  obtain ⟨f, g, hf, hg, hfg⟩ := hu
  cases hf
  cases hg
  let pl : Fin phs.length × Fin L × Fin C × Fin D → Nat × Nat := fun x => (20, next 20 +
    x.1 * (attempt (L * C * D) + L * C * D) + attempt (L * C * D) + ((x.2.1 * C + x.2.2.1) * D + x.2.2.2))
  have hpl : Function.Injective pl := by
    rintro ⟨i, l, c, d⟩ ⟨i', l', c', d'⟩ e
    simp only [pl, Prod.mk.injEq, true_and] at e
    have b1 := Arr3.index_lt l.2 c.2 d.2
    have b2 := Arr3.index_lt l'.2 c'.2 d'.2
    have e1 : (i : Nat) * (attempt (L * C * D) + L * C * D) + ((l * C + c) * D + d) =
        i' * (attempt (L * C * D) + L * C * D) + ((l' * C + c') * D + d') := by omega
    obtain ⟨j1, j2⟩ := pair_inj (by omega) (by omega) e1
    obtain ⟨j3, j4⟩ := pair_inj d.2 d'.2 j2
    obtain ⟨j5, j6⟩ := pair_inj c.2 c'.2 j3
    simp only [Prod.mk.injEq, Fin.ext_iff]
    exact ⟨j1, j5, j6, j4⟩
  have hind : iIndepFun (fun x => raw (pl x).1 (pl x).2) P := hr.indep.precomp hpl
  let S : Fin phs.length × Fin L × Fin C × Fin D → Set ℝ := fun x => {u | N.uniform 0 1 u < r x.1 x.2.1 x.2.2.1 x.2.2.2}
  have hS : ∀ x, MeasurableSet (S x) := fun x => measurableSet_lt hm measurable_const
  refine ⟨fun x => raw (pl x).1 (pl x).2 ⁻¹' S x, ?_, fun x => hr.meas _ _ (hS x), ?_, fun ω => ?_⟩
  · rw [iIndepSet_iff_meas_biInter fun x => hr.meas _ _ (hS x)]
    intro T
    exact (iIndepFun_iff_measure_inter_preimage_eq_mul.1 hind) T fun x _ => hS x
  · intro i l c d
    rw [← Measure.map_apply (hr.meas _ _) (hS _), hr.law]
    show P₀ (N.uniform 0 1 ⁻¹' Set.Iio _) = _
    rw [← Measure.map_apply hm measurableSet_Iio, hfg, uniform_below, h1 i i.2 l l.2 c c.2 d d.2]
  · have hinit : (k.genInitVals D C L).HasDims L C D := Arr3.ofFn_hasDims _ _ _ _
    obtain ⟨a, w', g1, g2, g3⟩ := h2 _ hinit ⟨fun i j => raw i j ω, next⟩
    refine ⟨a, w', g1, g2, fun l c d => ?_⟩
    have h0 : (k.genInitVals D C L).at' l c d = .fin 0 := by
      unfold MechMdl.genInitVals
      rw [Arr3.at_full _ l.2 c.2 d.2, (isDefect_eq hk).2.1]
    have h4 := g3 l l.2 c c.2 d d.2
    rw [if_pos h0] at h4
    rw [h4]
    constructor
    · rintro ⟨i, hi⟩
      rw [if_pos ⟨i, i.2, hi⟩]
    · intro hi
      rw [if_neg]
      rintro ⟨i, hlt, hx⟩
      exact hi ⟨i, hlt⟩ hx

/-- **C92**: the devices are independent, and a device is without the defect after all phases with the
product of the chances that it does not form in each of them. -/
theorem C92_survival (hm : Measurable (N.uniform 0 1)) (hu : N.Samples P₀ (.uniform 0 1)) (hr : Standard P P₀ raw)
    {k : MechMdl (Tapes N) (Ext ℝ)} (hk : IsDefect k) {L C D : Nat} {phs : List DefectPhase}
    {q : Nat → Nat → Nat → Nat → ℝ} (h : ∀ (i : Nat) (hi : i < phs.length), PhaseChances phs[i] L C D (q i))
    {next : Nat → Nat} {Y : Fin L × Fin C × Fin D → Ω → ℝ}
    (hY : ∀ ω, ∃ a w', defectsAfter k L C D phs (k.genInitVals D C L) ⟨fun i j => raw i j ω, next⟩ = (.ok a, w') ∧
      ∀ (l : Fin L) (c : Fin C) (d : Fin D), a.at' l c d = .fin (Y (l, c, d) ω)) :
    (∀ x ω, Y x ω = 0 ∨ Y x ω = 1) ∧ iIndepSet (fun x => {ω | Y x ω = 0}) P ∧
      ∀ l c d, P {ω | Y (l, c, d) ω = 0} = ENNReal.ofReal (∏ i : Fin phs.length, (1 - q i l c d)) := by
  obtain ⟨E, h1, h2, h3, h4⟩ := C92_defects hm hu hr hk h next
  have hP₀ : IsProbabilityMeasure P := h1.isProbabilityMeasure
  have hYE : ∀ x ω, ((∃ i, ω ∈ E (i, x)) → Y x ω = 1) ∧ ((∀ i, ω ∉ E (i, x)) → Y x ω = 0) := by
    rintro ⟨l, c, d⟩ ω
    obtain ⟨a, w', g1, g2⟩ := hY ω
    obtain ⟨a', w'', g3, g4, g5⟩ := h4 ω
    rw [g1] at g3
    cases g3
    obtain ⟨g6, g7⟩ := g5 l c d
    rw [g2 l c d] at g6 g7
    exact ⟨fun hi => by simpa using g6 hi, fun hi => by simpa using g7 hi⟩
  have hset : ∀ x, {ω | Y x ω = 0} = ⋂ i, (E (i, x))ᶜ := by
    intro x
    ext ω
    simp only [Set.mem_ofPred_eq, Set.mem_iInter, Set.mem_compl_iff]
    refine ⟨fun h0 i hi => ?_, (hYE x ω).2⟩
    have := (hYE x ω).1 ⟨i, hi⟩
    linarith
  have hc : ∀ T : Finset (Fin phs.length × Fin L × Fin C × Fin D), P (⋂ y ∈ T, (E y)ᶜ) = ∏ y ∈ T, P (E y)ᶜ := by
    intro T
    exact (iIndepSet_iff E P).1 h1 T fun y _ =>
      (MeasurableSpace.measurableSet_generateFrom (Set.mem_singleton _)).compl
  have hbox : ∀ X : Finset (Fin L × Fin C × Fin D), P (⋂ x ∈ X, {ω | Y x ω = 0}) = ∏ x ∈ X, ∏ i, P (E (i, x))ᶜ := by
    intro X
    have e : (⋂ x ∈ X, {ω | Y x ω = 0}) = ⋂ y ∈ (Finset.univ ×ˢ X : Finset _), (E y)ᶜ := by
      ext ω
      simp only [hset, Set.mem_iInter, Finset.mem_product, Finset.mem_univ, true_and, Prod.forall]
      tauto
    rw [e, hc, Finset.prod_product, Finset.prod_comm]
  have hone : ∀ x, P {ω | Y x ω = 0} = ∏ i, P (E (i, x))ᶜ := by
    intro x
    have := hbox {x}
    simpa using this
  refine ⟨fun x ω => ?_, ?_, fun l c d => ?_⟩
  · by_cases hi : ∃ i, ω ∈ E (i, x)
    · exact .inr ((hYE x ω).1 hi)
    · exact .inl ((hYE x ω).2 fun i hx => hi ⟨i, hx⟩)
  · rw [iIndepSet_iff_meas_biInter]
    · intro X
      rw [hbox]
      exact Finset.prod_congr rfl fun x _ => (hone x).symm
    · intro x
      rw [hset]
      exact MeasurableSet.iInter fun i => (h2 _).compl
  · have hq : ∀ i : Fin phs.length, 0 ≤ q i l c d ∧ q i l c d ≤ 1 := by
      intro i
      obtain ⟨t, T, v, d', c', b, e, hx, -⟩ := (h i i.2).values
      rw [(hx l l.2 c c.2 d d.2).2.2.2.2.2]
      unfold defectChance
      exact ⟨le_min zero_le_one (le_max_left _ _), min_le_left _ _⟩
    rw [hone, ENNReal.ofReal_prod_of_nonneg fun i _ => sub_nonneg.2 (hq i).2]
    refine Finset.prod_congr rfl fun i _ => ?_
    rw [prob_compl_eq_one_sub (h2 _), h3, ENNReal.ofReal_sub _ (hq i).1, ENNReal.ofReal_one]

/-- **C92**: the chance is linear in the time, so that splitting a phase matters: a device survives two
phases more often than one phase of the same conditions and the same total length. -/
theorem C92_split {t t' T v d c b h : ℝ} (h1 : 0 < t * (c * (v / d) * (T ^ h / b)))
    (h2 : 0 < t' * (c * (v / d) * (T ^ h / b))) (h3 : (t + t') * (c * (v / d) * (T ^ h / b)) ≤ 1) :
    1 - defectChance (t + t') T v d c b h < (1 - defectChance t T v d c b h) * (1 - defectChance t' T v d c b h) := by
  unfold defectChance
  generalize c * (v / d) * (T ^ h / b) = x at *
  rw [max_eq_right (by nlinarith), max_eq_right h1.le, max_eq_right h2.le, min_eq_right h3, min_eq_right (by nlinarith),
    min_eq_right (by nlinarith)]
  nlinarith [mul_pos h1 h2]

/-! ## A device with three oxides under moderate load for 30 hours, twice -/

/-- Uniform numbers. -/
noncomputable def unitLaw : Measure ℝ := volume.restrict (Set.Ioo 0 1)

instance : IsProbabilityMeasure unitLaw := ⟨by simp [unitLaw]⟩

theorem linear_uniform : linearNumpy.Samples unitLaw (.uniform 0 1) := by
  refine ⟨_, _, rfl, rfl, ?_⟩
  have e : linearNumpy.uniform 0 1 = id := by
    funext z
    show 0 + (1 - 0) * z = z
    ring
  rw [e, Measure.map_id]
  unfold pdfLaw unitLaw
  rw [← withDensity_indicator_one measurableSet_Ioo]
  congr 1
  funext x
  unfold uniformPdf Set.indicator
  by_cases h : 0 < x ∧ x < 1
  · rw [if_pos h, if_pos (Set.mem_Ioo.2 h)]
    simp
  · rw [if_neg h, if_neg (by simpa [Set.mem_Ioo] using h)]
    simp

theorem exists_uniform : Standard (Measure.infinitePi fun _ : Nat × Nat => unitLaw) unitLaw fun i j ω => ω (i, j) where
  indep := iIndepFun_infinitePi (X := fun _ => id) fun _ => measurable_id
  meas := fun _ _ => measurable_pi_apply _
  law := fun _ _ => Measure.infinitePi_map_eval _ _

/-- The phase. -/
noncomputable def moderate : DefectPhase where
  times := Arr3.full 1 1 3 (.fin 30)
  conds := [("temp", Arr3.full 1 1 3 (.fin 300)), ("v_g", Arr3.full 1 1 3 (.fin (9 / 10)))]
  lats := [("c", Arr3.full 1 1 3 (.fin (1 / 1000))), ("t_diel", Arr3.full 1 1 3 (.fin 3)),
    ("bond_strength", Arr3.full 1 1 3 (.fin 200)), ("thermal_dist", Arr3.full 1 1 3 (.fin 1))]

theorem moderate_chances : PhaseChances moderate 1 1 3 fun _ _ _ => 27 / 2000 where
  dims := Arr3.ofFn_hasDims _ _ _ _
  noTime := rfl
  onlyLats := by
    intro k a h
    have := Dict.mem_of_get? h
    simp only [moderate, List.mem_cons, Prod.mk.injEq, List.not_mem_nil, or_false] at this
    rcases this with ⟨rfl, -⟩ | ⟨rfl, -⟩ | ⟨rfl, -⟩ | ⟨rfl, -⟩ <;> simp
  values := by
    have full : ∀ (x : Dict (Arr3 (Ext ℝ))) (k : String) (v : ℝ), x.get? k = some (Arr3.full 1 1 3 (.fin v)) →
        ArrayOf x k 1 1 3 fun _ _ _ => v := fun x k v h =>
      ⟨_, h, Arr3.ofFn_hasDims _ _ _ _, fun l hl c hc d hd => Arr3.at_full _ hl hc hd⟩
    refine ⟨fun _ _ _ => 30, fun _ _ _ => 300, fun _ _ _ => 9 / 10, fun _ _ _ => 3, fun _ _ _ => 1 / 1000,
      fun _ _ _ => 200, fun _ _ _ => 1, fun i hi j hj n hn => ⟨Arr3.at_full _ hi hj hn, by norm_num, by norm_num,
        by norm_num, by norm_num, ?_⟩, full _ _ _ rfl, full _ _ _ rfl, full _ _ _ rfl, full _ _ _ rfl, full _ _ _ rfl,
      full _ _ _ rfl⟩
    unfold defectChance
    rw [Real.rpow_one]
    norm_num

/-- Each of the three oxides is without the defect after the two phases with a chance of `(1 - 27/2000)²`. -/
example : ∃ (k : MechMdl (Tapes linearNumpy) (Ext ℝ)) (Y : Fin 1 × Fin 1 × Fin 3 → (Nat × Nat → ℝ) → ℝ),
    IsDefect k ∧ (∀ ω, ∃ a w', defectsAfter k 1 1 3 [moderate, moderate] (k.genInitVals 3 1 1)
      ⟨fun i j => ω (i, j), fun _ => 0⟩ = (.ok a, w') ∧ ∀ (l : Fin 1) (c : Fin 1) (d : Fin 3),
        a.at' l c d = .fin (Y (l, c, d) ω)) ∧
      ∀ d, (Measure.infinitePi fun _ : Nat × Nat => unitLaw) {ω | Y (0, 0, d) ω = 0} =
        ENNReal.ofReal ((1 - 27 / 2000) ^ 2) := by
  obtain ⟨k, hk⟩ : ∃ k : MechMdl (Tapes linearNumpy) (Ext ℝ), defectMech (1 / 1000) 1 = .ok k := ⟨_, tddbMech_eq _ _⟩
  have hd : IsDefect k := ⟨_, _, k, hk, rfl, rfl, rfl⟩
  have hc : ∀ (i : Nat) (hi : i < [moderate, moderate].length),
      PhaseChances [moderate, moderate][i] 1 1 3 ((fun _ _ _ _ => 27 / 2000 : Nat → Nat → Nat → Nat → ℝ) i) := by
    intro i hi
    have : [moderate, moderate][i] = moderate := by
      match i, hi with
      | 0, _ => rfl
      | 1, _ => rfl
    rw [this]
    exact moderate_chances
  have hm : Measurable (linearNumpy.uniform 0 1) := by unfold linearNumpy; fun_prop
  obtain ⟨E, -, -, -, h4⟩ := C92_defects hm linear_uniform exists_uniform hd hc fun _ => 0
  classical
  have hY : ∀ ω : Nat × Nat → ℝ, ∃ a w', defectsAfter k 1 1 3 [moderate, moderate] (k.genInitVals 3 1 1)
      ⟨fun i j => ω (i, j), fun _ => 0⟩ = (.ok a, w') ∧ ∀ (l : Fin 1) (c : Fin 1) (d : Fin 3),
        a.at' l c d = .fin (if ∃ i, ω ∈ E (i, l, c, d) then 1 else 0) := by
    intro ω
    obtain ⟨a, w', g1, -, g2⟩ := h4 ω
    refine ⟨a, w', g1, fun l c d => ?_⟩
    by_cases hi : ∃ i, ω ∈ E (i, l, c, d)
    · rw [if_pos hi, (g2 l c d).1 hi]
    · rw [if_neg hi, (g2 l c d).2 fun i hx => hi ⟨i, hx⟩]
  refine ⟨k, fun x ω => if ∃ i, ω ∈ E (i, x) then 1 else 0, hd, hY, fun d => ?_⟩
  refine ((C92_survival (Y := fun x ω => if ∃ i, ω ∈ E (i, x) then 1 else 0) hm linear_uniform exists_uniform hd hc
    hY).2.2 0 0 d).trans ?_
  simp [Finset.prod_const]

/-- One phase of 60 hours instead would be survived less often. -/
example : 1 - defectChance (30 + 30) 300 (9 / 10) 3 (1 / 1000) 200 1 <
    (1 - defectChance 30 300 (9 / 10) 3 (1 / 1000) 200 1) * (1 - defectChance 30 300 (9 / 10) 3 (1 / 1000) 200 1) :=
  C92_split (by rw [Real.rpow_one]; norm_num) (by rw [Real.rpow_one]; norm_num) (by rw [Real.rpow_one]; norm_num)

end Gerabaldi.Props
