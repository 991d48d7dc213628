import Verif.Props.SplitEx
import Verif.Props.River
import Verif.Props.Htol
import Verif.Props.Units
import Verif.Props.Instrument
import Verif.Props.TestSpec
import Verif.Props.Time

/-!
# Concrete cases for theorems whose own files only show their hypotheses or have no case
-/

namespace Gerabaldi.Props

open Gerabaldi Gerabaldi.Spec

/-! ## Times -/

theorem no_minutes (k : ℚ) : ((some "minutes" : Option String), k) ∉ acceptedUnits := by simp [acceptedUnits]

/-- `"minutes"` is no unit. -/
example : convertTime (.num 3) (some "minutes") = .error .userConfig := C01_invalid_unit no_minutes _

/-- 1/3 ms and 5/2 ms. -/
example {a b : Int} (ha : convertTime (.num (1 / 3)) (some "ms") = .ok (.td a))
    (hb : convertTime (.num (5 / 2)) (some "ms") = .ok (.td b)) : a ≤ b :=
  C01_number_monotone (k := 1000) (by simp [acceptedUnits]) (by norm_num) ha hb

/-- 1/3 ms there and back. -/
example : ∃ us q', convertTime (.num (1 / 3)) (some "ms") = .ok (.td us) ∧
    convertTime (.td us) (some "ms") = .ok (.num q') ∧ |q' - 1 / 3| * 1000 ≤ 1 / 2 :=
  C01_number_roundtrip (by simp [acceptedUnits]) _ (by norm_num) (by norm_num)

example : StrsSpec.mk' (V := Nat) [("temp", 300)] (.num 3) "s" (some "minutes") = .error .userConfig :=
  C02_invalid_unit _ _ no_minutes (by intro us h; cases h)

/-- A tenth of a microsecond. -/
example : StrsSpec.mk' (V := Nat) [("temp", 300)] (.num (1 / 10000)) "s" (some "ms") = .error .userConfig :=
  C02_number_zero_rejected _ _ (k := 1000) (by simp [acceptedUnits]) _ (by norm_num [abs_of_pos])

example {s : StrsSpec Nat} (h : StrsSpec.mk' [("temp", 300)] (.num (5 / 2)) "s" (some "h") = .ok s) :
    ∃ us : Int, s.duration = .td us ∧ us ≠ 0 :=
  (C02_never_zero_partial (by intro us h; cases h) h).2.2

/-! ## Looped steps: 2.5 h of steps of one hour -/

theorem case_loop_td : allTimedelta [Step.strs exStrs, .meas exMeas] := by
  intro s hs; simp at hs; subst hs; exact ⟨_, rfl⟩

example : ∃ n : Nat, ((n : Int) - 1) * 3600000000 < 9000000000 ∧ (9000000000 : Int) ≤ n * 3600000000 ∧
    ∀ fuel, n < fuel → ∃ out new, appendSteps fuel [] (.many [.strs exStrs, .meas exMeas]) (some (.td 9000000000)) none =
      some (out, new) ∧ new = copies n [Step.strs exStrs, .meas exMeas] := by
  obtain ⟨n, h1, h2, h3⟩ := C04_loop_minimal (lf := .td 9000000000) (u := none) (.inl rfl) (by decide) case_loop_td (by decide)
    (by decide) []
  refine ⟨n, h1, h2, fun fuel hf => ?_⟩
  obtain ⟨out, new, a1, -, a2, -⟩ := h3 fuel hf
  exact ⟨out, new, a1, a2⟩

example : appendSteps 1 [.meas exMeas] (.many [.strs exStrs]) (some (.td (-5))) none = some (.ok (), [.meas exMeas]) :=
  C04_negative (.inl rfl) (by decide) ⟨.strs exStrs, by simp, fun m h => by cases h⟩ _ _ (by decide)

example : appendSteps 7 [.meas exMeas] (.many [.strs exStrs]) (some (.num 3)) (some "minutes") =
    some (.error .userConfig, [.meas exMeas]) :=
  (C04_rejections _ _ _ _).2.2 _ no_minutes

example : ∃ N, ∀ fuel, N < fuel → ∃ out new,
    appendSteps fuel [] (.many [.strs exStrs, .meas exMeas]) (some (.td 9000000000)) none = some (out, new) ∧
    (out = .error .userWarning ↔ stressTime new - stressTime ([] : List (Step Nat)) ≠ 9000000000) := by
  obtain ⟨N, h⟩ := C05_warning_partial (lf := .td 9000000000) (u := none) (.inl rfl) (by decide) case_loop_td (by decide)
    (by decide) [] (.inl (by decide))
  refine ⟨N, fun fuel hf => ?_⟩
  obtain ⟨out, new, a1, a2, -⟩ := h fuel hf
  exact ⟨out, new, a1, a2⟩

example : ∃ fuel r, appendSteps fuel [] (.many [.strs exStrs, .meas exMeas]) (some (.td 9000000000)) none = some r :=
  C06_terminates_partial (.inl rfl) (by decide) (by decide) []

/-- Measuring every 300 h of 1000 h. -/
example : htol 9 [("vth", 5)] (.fin 1 : Ext ℚ) (.fin 2) 300 1000 3 2 (.fin 400) = some (.error .userConfig) :=
  C09_htol_reject _ _ _ _ _ (by decide) (by decide) (by decide) (by decide) _ _

/-! ## Time units -/

example (o : Nat) (s : String) (h : UnitHeap) (hs : h o = some s) :
    [exUnits none, exUnits (some "d")].foldl (fun h d => d.propagate h) h o = some s := C32_stable _ _ hs

example (h : UnitHeap) : (exUnits (some "d")).propagate ((exUnits (some "d")).propagate h) = (exUnits (some "d")).propagate h :=
  C32_idempotent _ _

/-! ## Erosion: no reading and no value of the final state is infinite or NaN -/

example (ord : SetOrder) : ∃ s r w', simulateFull ord (riverSteps 10 5 10) (riverDev (W := Counts) (K := ℚ)) riverWorld
    none Counts.start = (.ok (s, r), w') ∧ StateIn finRanges s := by
  have h : FiniteNormals Counts ℚ := fun i mu sigma n w _ =>
    ⟨(List.range n).map fun j => ((100 * i + w.next i + j : Nat) : ℚ), _, by
      show (_, _) = (_, _)
      rw [List.map_map]
      rfl⟩
  obtain ⟨r, w', h1, -⟩ := C53_finite ord (riverDev_works h) (riverDev_finite h) (riverWorld_draws h)
    (riverWorld_finite h) (riverTest_ok h 10 5 (years := 10) (by norm_num)) (river_conditions 10 5 10) Counts.start
  rw [simulate, M.bind_run] at h1
  cases hf : simulateFull ord (riverSteps 10 5 10) (riverDev (W := Counts) (K := ℚ)) riverWorld none Counts.start with
  | mk o w₁ =>
    rw [hf] at h1
    cases o with
    | error e => cases h1
    | ok sr => exact ⟨sr.1, sr.2, w₁, rfl, (C63_finite (riverDev_finite h) (riverWorld_finite h) (river_conditions 10 5 10) hf).1⟩

/-! ## 900 s and then 9000 s, or 9900 s at once -/

example (w : Counts) (d : Nat) (hd : d < 2) : ∃ s₁ r₁ w₁ s₂ r₂ w₂ v₁ v₂,
    runSteps Ex.orderA (timeDev (timeMech .deg "s" exMech)) ⟨[], []⟩ 0
      [.strs (timeStep 900000000), .strs (timeStep 9000000000)] (timeState (exMech 100) 2, timeReport 2) w =
        (.ok (s₁, r₁), w₁) ∧
    runSteps Ex.orderA (timeDev (timeMech .deg "s" exMech)) ⟨[], []⟩ 0 [.strs (timeStep 9900000000)]
      (timeState (exMech 100) 2, timeReport 2) w = (.ok (s₂, r₂), w₂) ∧
    mechVal s₁ "vth" "m" = some v₁ ∧ mechVal s₂ "vth" "m" = some v₂ ∧
    ∃ τ τ' : ℝ, v₁.at' 0 0 d = .fin (exMech τ) ∧ v₂.at' 0 0 d = .fin (exMech τ') ∧
      |Real.logb 10 (τ / τ')| ≤ 3 / 100000 := by
  obtain ⟨s₁, r₁, w₁, run1, h1, n1⟩ := time_step (kind := .deg) (by decide) (unit := "s") (by decide)
    (timeState_start .deg "s" exMech (exMech 100) 2) (us := 900000000) (by decide) (by decide) 0 w
  obtain ⟨log, hlog⟩ := exMech_run
  have v1 := time_value (R := fun u => (u - 2) * (u - 2)) exMech_residue hlog h1 rfl (q := 900)
    (by decide +kernel) (by norm_num)
  norm_num at v1
  have t1 := n1 _ v1 (full_dims ..)
  obtain ⟨s₂, r₂, w₂, run2, h2, -⟩ := time_step (kind := .deg) (by decide) (unit := "s") (by decide)
    t1 (us := 9000000000) (by decide) (by decide) 1 w₁
  obtain ⟨-, -, v2, -, -, -, -, -, hv2, -⟩ := stressed_deg h2 rfl
    (time_sampleWise .deg "s" exMech r₁.info.numLots r₁.info.numChps 2)
  have chain : SameStress Ex.orderA (timeDev (timeMech .deg "s" exMech)) ⟨[], []⟩ "vth" "m"
      (timeMech .deg "s" exMech) [] [] 2 0 (timeState (exMech 100) 2) (timeReport 2) w
      (Arr3.full 1 1 2 (.fin (exMech 100))) [timeStep 900000000, timeStep 9000000000] s₂ r₂ w₂ v2 := by
    refine .cons h1 (exMech_converges .deg) run1 v1 (.cons h2 ?_ run2 hv2 (.nil hv2))
    rw [t1.info]
    exact exMech_converges'
  obtain ⟨s₃, r₃, w₃, run3, h3, -⟩ := time_step (kind := .deg) (by decide) (unit := "s") (by decide)
    (timeState_start .deg "s" exMech (exMech 100) 2) (us := 9900000000) (by decide) (by decide) 0 w
  have v3 := time_value (R := fun u => (u - 2) * (u - 2)) exMech_residue hlog h3 rfl (q := 9900)
    (by decide +kernel) (by norm_num)
  have chain' := SameStress.cons h3 (exMech_converges .deg) run3 v3 (.nil v3)
  have hF : timeSecondFactor .seconds = 1 := rfl
  have hp := pow_small
  have hp2 : (10 : ℝ) ^ ((2 : ℝ) / 100000) ≤ 2 := by
    have : (10 : ℝ) ^ ((2 : ℝ) / 100000) = 10 ^ (1 / 100000 : ℝ) * 10 ^ (1 / 100000 : ℝ) := by
      rw [← Real.rpow_add (by norm_num)]; norm_num
    rw [this]
    have h0 : (0 : ℝ) < 10 ^ (1 / 100000 : ℝ) := Real.rpow_pos_of_pos (by norm_num) _
    nlinarith
  obtain ⟨τ, τ', a1, a2, -, -, a3⟩ := C55_split chain chain' rfl (time_sampleWise _ _ _ 1 1 2)
    (uss := [900000000, 9000000000]) (uss' := [9900000000]) ⟨rfl, by norm_num, rfl, by norm_num, trivial⟩
    ⟨rfl, by norm_num, trivial⟩ (by norm_num) (u := .seconds) rfl
    (l := 0) (c := 0) (d := d) Nat.one_pos Nat.one_pos hd (f := exMech) (T := 100)
    (Arr3.at_full _ Nat.one_pos Nat.one_pos hd)
    (fun t _ => (time_curve _ _ _ Nat.one_pos Nat.one_pos hd t).trans (by rw [hF]; simp))
    (.inl exMech_mono)
    (by
      intro m hm
      simp only [List.length_cons, List.length_nil, List.mem_cons, List.not_mem_nil, or_false] at hm
      rcases hm with rfl | rfl <;> (rw [hF]; norm_num at hp hp2 ⊢; linarith))
    (by
      intro m hm
      simp only [List.length_cons, List.length_nil, List.mem_cons, List.not_mem_nil, or_false] at hm
      rcases hm with rfl | rfl <;> (rw [hF]; norm_num at hp hp2 ⊢; linarith))
  refine ⟨s₂, r₂, w₂, s₃, r₃, w₃, v2, _, (sameStress_run chain).1, (sameStress_run chain').1, hv2, v3, τ, τ', a1, a2, ?_⟩
  norm_num at a3 ⊢
  exact a3

end Gerabaldi.Props
