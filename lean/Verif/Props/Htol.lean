import Verif.Props.TestSpec

/-!
# C09: the HTOL test builder
-/

namespace Gerabaldi.Props
open Gerabaldi Spec
variable {V : Type} [PyArith V]

/-- The measurement at room conditions that an HTOL test starts and ends with. -/
def roomMeas (toMeas : Dict Nat) (vddNom : V) : Step V :=
  .meas ⟨toMeas, [("temp", PyArith.add (PyArith.ofRat 25) (PyArith.ofRat (27315 / 100))), ("vdd", vddNom)],
    "Room Temp Measurement"⟩

/-- Stress conditions of an HTOL test: stress temperature in kelvin, stressed supply voltage. -/
def htolConds (vddNom mult temp : V) : Dict V :=
  [("temp", PyArith.add temp (PyArith.ofRat (27315 / 100))), ("vdd", PyArith.mul vddNom mult)]

/-- The measurement at stress conditions. -/
def stressMeas (toMeas : Dict Nat) (vddNom mult temp : V) : Step V :=
  .meas ⟨toMeas, htolConds vddNom mult temp, "Stress Temp Measurement"⟩

/-- `h` hours at stress conditions. -/
def htolStress (vddNom mult temp : V) (h : Int) : Step V :=
  .strs ⟨htolConds vddNom mult temp, .td (h * 3600000000), "HTOL Stress"⟩

/-- The test an HTOL builder call must return, given its list of steps. -/
def htolTest (chps lots : Nat) (steps : List (Step V)) : TestSpec V :=
  { steps := steps, numChps := chps, numLots := lots, name := "Standard HTOL",
    description := "A typical HTOL test with configurable measurements during stress." }

theorem tdOfNum_hours (h : Int) (h0 : 0 ≤ h) (h1 : h ≤ 23999999976) :
    tdOfNum .hours (h : ℚ) = .ok (h * 3600000000) := by
  have e : roundHalfEven ((h : ℚ) * 3600000000) = h * 3600000000 := by
    have := roundHalfEven_intCast (h * 3600000000)
    rw [← this]; push_cast; rfl
  have hv : tdValid (h * 3600000000) := by unfold tdValid; norm_num [tdMin, tdMax]; omega
  simp [tdOfNum, tdKwMicros, e, tdMk, hv]

/-- Interval not smaller than the duration: room measurement, one stress phase of the whole duration,
room measurement. -/
theorem C09_htol_no_interval (fuel : Nat) (toMeas : Dict Nat) (vddNom mult temp : V) {i d : Int}
    (hd : 0 < d) (hdm : d ≤ 23999999976) (hi : d ≤ i) (chps lots : Nat) :
    htol fuel toMeas vddNom mult i d chps lots temp = some (.ok (htolTest chps lots
      [roomMeas toMeas vddNom, htolStress vddNom mult temp d, roomMeas toMeas vddNom])) := by
  have hne : ¬ (d * 3600000000 = 0) := by omega
  simp only [htol, tdOfNum_hours d hd.le hdm, C02_td, hne, if_false, ge_iff_le, hi, if_true]
  rfl
where
  C02_td {V : Type} (conds : Dict V) (name : String) (u : Option String) (us : Int) :
    StrsSpec.mk' conds (.td us) name u =
      if us = 0 then .error .userConfig else .ok ⟨conds, .td us, name⟩ := by
    by_cases h : us = 0 <;> simp [StrsSpec.mk', h]

/-- Interval that divides the duration: room measurement, stress measurement, `d / i` repetitions of
(stress of `i` hours, stress measurement), room measurement. -/
theorem C09_htol_interval (toMeas : Dict Nat) (vddNom mult temp : V) {i d : Int} {n : Nat}
    (hi : 0 < i) (hid : i < d) (hn : d = n * i) (hr : d + i ≤ 23999999976) (chps lots : Nat)
    (fuel : Nat) (hf : n < fuel) :
    htol fuel toMeas vddNom mult i d chps lots temp = some (.ok (htolTest chps lots
      ([roomMeas toMeas vddNom, stressMeas toMeas vddNom mult temp] ++
        copies n [htolStress vddNom mult temp i, stressMeas toMeas vddNom mult temp] ++
        [roomMeas toMeas vddNom]))) := by
  have hd : 0 < d := by omega
  have hne : ¬ (d * 3600000000 = 0) := by omega
  have hmod : d % i = 0 := by rw [hn]; simp
  have hl : htol fuel toMeas vddNom mult i d chps lots temp =
      match appendSteps fuel [roomMeas toMeas vddNom, stressMeas toMeas vddNom mult temp]
          (.many [htolStress vddNom mult temp i, stressMeas toMeas vddNom mult temp])
          (some (.num d)) none with
        | none => none
        | some (.error e, _) => some (.error e)
        | some (.ok (), steps2) => some (.ok (htolTest chps lots (steps2 ++ [roomMeas toMeas vddNom]))) := by
    simp only [htol, tdOfNum_hours d hd.le (by omega), C09_htol_no_interval.C02_td, hne, if_false,
      ge_iff_le, not_le.mpr hid, hi.ne', hmod, ne_eq, not_true_eq_false,
      tdOfNum_hours i hi.le (by omega)]
    rfl
  rw [hl]
  set l := [htolStress vddNom mult temp i, stressMeas toMeas vddNom mult temp] with hldef
  have hst : stressTime l = i * 3600000000 := by
    simp [hldef, htolStress, stressMeas, stressTime]
  have hab : absStressTime l = i * 3600000000 := by
    simp only [hldef, htolStress, stressMeas, absStressTime]
    rw [abs_of_nonneg (by omega)]; simp
  have htd : allTimedelta l := by
    intro s hs
    simp [hldef, htolStress, stressMeas] at hs
    subst hs; exact ⟨_, rfl⟩
  have hden : denotes (.num d) none (d * 3600000000) := by
    refine Or.inr ⟨d, rfl, ?_⟩
    have := tdOfNum_hours d hd.le (by omega)
    simp [convertTime, timeUnitMap, this]
  obtain ⟨m, h1, h2, h3⟩ := looped_append_outcome hden (by omega) htd (by omega)
    (by rw [hab]; omega) [roomMeas toMeas vddNom, stressMeas toMeas vddNom mult temp]
  have hmn : m = n := by
    rw [hst, hn] at h1 h2
    have a1 : (m : Int) - 1 < n := by nlinarith
    have a2 : (n : Int) ≤ m := by nlinarith
    omega
  subst hmn
  rw [h3 fuel hf]
  have : (m : Int) * stressTime l % (d * 3600000000) = 0 := by
    rw [hst, hn, ← mul_assoc]; simp
  simp [this]

/-- Interval that does not divide the duration: rejected. -/
theorem C09_htol_reject (fuel : Nat) (toMeas : Dict Nat) (vddNom mult temp : V) {i d : Int}
    (hi : 0 < i) (hid : i < d) (hn : ¬ i ∣ d) (hr : d ≤ 23999999976) (chps lots : Nat) :
    htol fuel toMeas vddNom mult i d chps lots temp = some (.error .userConfig) := by
  have hd : 0 < d := by omega
  have hne : ¬ (d * 3600000000 = 0) := by omega
  have hmod : ¬ d % i = 0 := fun h => hn (Int.dvd_of_emod_eq_zero h)
  simp [htol, tdOfNum_hours d hd.le hr, C09_htol_no_interval.C02_td, hne, not_le.mpr hid, hi.ne',
    hmod]

/-- Whenever the builder returns a test (positive interval and duration), the total stress time is
exactly the requested number of hours, every stress phase is at the stress conditions, and the first
and last steps are room measurements. -/
theorem C09_htol_total (toMeas : Dict Nat) (vddNom mult temp : V) {i d : Int} (hi : 0 < i)
    (hd : 0 < d) (hr : d + i ≤ 23999999976) (chps lots : Nat) :
    ∃ N, ∀ fuel, N < fuel → ∀ t, htol fuel toMeas vddNom mult i d chps lots temp = some (.ok t) →
      stressTime t.steps = d * 3600000000 ∧
      (∀ s, Step.strs s ∈ t.steps → s.conditions = htolConds vddNom mult temp) ∧
      t.steps.head? = some (roomMeas toMeas vddNom) ∧
      t.steps.getLast? = some (roomMeas toMeas vddNom) ∧ t.numChps = chps ∧ t.numLots = lots := by
  by_cases hid : d ≤ i
  · refine ⟨0, fun fuel _ t ht => ?_⟩
    rw [C09_htol_no_interval fuel toMeas vddNom mult temp hd (by omega) hid] at ht
    simp only [Option.some.injEq, Except.ok.injEq] at ht
    subst ht
    refine ⟨?_, ?_, rfl, rfl, rfl, rfl⟩
    · simp [htolTest, roomMeas, htolStress, stressTime]
    · intro s hs; simp [htolTest, roomMeas, htolStress] at hs; subst hs; rfl
  · push Not at hid
    by_cases hdv : i ∣ d
    · obtain ⟨c, hc⟩ := hdv
      have hc0 : 0 ≤ c := by nlinarith
      obtain ⟨n, rfl⟩ := Int.eq_ofNat_of_zero_le hc0
      refine ⟨n, fun fuel hf t ht => ?_⟩
      rw [C09_htol_interval toMeas vddNom mult temp hi hid (by rw [hc]; ring) hr chps lots fuel hf] at ht
      simp only [Option.some.injEq, Except.ok.injEq] at ht
      subst ht
      refine ⟨?_, ?_, rfl, by simp only [htolTest]; rw [List.getLast?_append]; simp, rfl, rfl⟩
      · simp only [htolTest, stressTime_append, stressTime_copies]
        simp [roomMeas, stressMeas, htolStress, stressTime]
        rw [hc]; ring
      · intro s hs
        simp [htolTest, roomMeas, stressMeas, htolStress, copies] at hs
        rw [hs.2]
    · refine ⟨0, fun fuel _ t ht => ?_⟩
      rw [C09_htol_reject fuel toMeas vddNom mult temp hi hid hdv (by omega)] at ht
      simp at ht

-- Non-vacuity: 1000 h with an interval of 250 h gives four repetitions.
example (toMeas : Dict Nat) (v m t : V) : htol 5 toMeas v m 250 1000 77 3 t =
    some (.ok (htolTest 77 3 ([roomMeas toMeas v, stressMeas toMeas v m t] ++
      copies 4 [htolStress v m t 250, stressMeas toMeas v m t] ++ [roomMeas toMeas v]))) :=
  C09_htol_interval toMeas v m t (by norm_num) (by norm_num) (by norm_num) (by norm_num) 77 3 5 (by norm_num)

end Gerabaldi.Props
