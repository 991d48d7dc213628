import Verif.Lemmas.Time

/-!
# C01, C02: time conversion and stress phase construction
-/

namespace Gerabaldi.Props
open Gerabaldi Spec

/-! ## C01 -/

/-- Converting a timedelta (or pandas Timedelta) to any accepted unit gives its length in that unit,
and converting back gives the same timedelta. -/
theorem C01_timedelta_roundtrip {u : Option String} {k : ℚ} (hu : (u, k) ∈ acceptedUnits)
    {us : Int} (hr : inTimedeltaRange us) {x : TimeVal} (hx : x = .td us ∨ x = .pdtd us) :
    convertTime x u = .ok (.num (us / k)) ∧ convertTime (.num (us / k)) u = .ok (.td us) := by
  obtain ⟨t, h1, h2, h3, h4⟩ := timeUnitMap_of_accepted hu
  refine ⟨?_, ?_⟩
  · rcases hx with rfl | rfl
    · exact (convertTime_td hu us).1
    · exact (convertTime_td hu us).2
  · rw [convertTime_num hu]
    have : (us : ℚ) / k * k = us := by field_simp
    rw [this, roundHalfEven_intCast, if_pos hr]

/-- The round trip still gives the same timedelta when the number is disturbed by any error smaller
than half a microsecond (this is how far the model's exact arithmetic may be from Python floats). -/
theorem C01_timedelta_roundtrip_robust {u : Option String} {k : ℚ} (hu : (u, k) ∈ acceptedUnits)
    {us : Int} (hr : inTimedeltaRange us) {q : ℚ} (hq : |q - us / k| * k < 1 / 2) :
    convertTime (.num q) u = .ok (.td us) := by
  obtain ⟨t, h1, h2, h3, h4⟩ := timeUnitMap_of_accepted hu
  rw [convertTime_num hu]
  have h : |q * k - us| < 1 / 2 := by
    have : q * k - us = (q - us / k) * k := by field_simp
    rw [this, abs_mul, abs_of_pos h4]; exact hq
  rw [roundHalfEven_eq_of_lt h, if_pos hr]

/-- Converting a number to a timedelta and back moves it by at most half a microsecond, and the
conversion succeeds for every number in timedelta's range. -/
theorem C01_number_roundtrip {u : Option String} {k : ℚ} (hu : (u, k) ∈ acceptedUnits) (q : ℚ)
    (h1 : -86399999913600000000 ≤ q * k) (h2 : q * k ≤ 86399999999999999999) :
    ∃ us q', convertTime (.num q) u = .ok (.td us) ∧ convertTime (.td us) u = .ok (.num q') ∧
      |q' - q| * k ≤ 1 / 2 := by
  obtain ⟨t, _, _, _, hk⟩ := timeUnitMap_of_accepted hu
  refine ⟨roundHalfEven (q * k), _, ?_, (convertTime_td hu _).1, ?_⟩
  · rw [convertTime_num hu, if_pos]
    exact roundHalfEven_range (by exact_mod_cast h1) (by exact_mod_cast h2)
  · have := roundHalfEven_bound (q * k)
    have h : (roundHalfEven (q * k) : ℚ) - q * k = ((roundHalfEven (q * k) : ℚ) / k - q) * k := by
      field_simp
    rw [h, abs_mul, abs_of_pos hk] at this
    exact this

/-- Longer numbers never become shorter timedeltas. -/
theorem C01_number_monotone {u : Option String} {k : ℚ} (hu : (u, k) ∈ acceptedUnits) {q r : ℚ}
    (hqr : q ≤ r) {a b : Int} (ha : convertTime (.num q) u = .ok (.td a))
    (hb : convertTime (.num r) u = .ok (.td b)) : a ≤ b := by
  obtain ⟨t, _, _, _, hk⟩ := timeUnitMap_of_accepted hu
  rw [convertTime_num hu] at ha hb
  split at ha <;> split at hb <;> simp at ha hb
  subst ha; subst hb
  exact roundHalfEven_mono (mul_le_mul_of_nonneg_right hqr hk.le)

/-- Every other unit string is rejected, whatever the time value. -/
theorem C01_invalid_unit {u : Option String} (hu : ∀ k, (u, k) ∉ acceptedUnits) (x : TimeVal) :
    convertTime x u = .error .userConfig := by
  simp [convertTime, timeUnitMap_none_of_not_accepted hu]

/-- An accepted unit is never rejected as invalid. -/
theorem C01_valid_unit_not_rejected {u : Option String} {k : ℚ} (hu : (u, k) ∈ acceptedUnits)
    (x : TimeVal) : convertTime x u ≠ .error .userConfig := by
  cases x with
  | td us => simp [(convertTime_td hu us).1]
  | pdtd us => simp [(convertTime_td hu us).2]
  | num q => rw [convertTime_num hu]; split <;> simp

-- Non-vacuity: 90 minutes in hours is 1.5; and "minutes" is not a unit.
example : convertTime (.td 5400000000) (some "h") = .ok (.num ((5400000000 : Int) / 3600000000)) :=
  (C01_timedelta_roundtrip (by simp [acceptedUnits]) (by decide) (Or.inl rfl)).1
example : inTimedeltaRange 5400000000 := by decide
example : ∀ k, ((some "minutes" : Option String), k) ∉ acceptedUnits := by
  intro k; simp [acceptedUnits]
example : convertTime (.num (1/3)) (some "ms") = .ok (.td 333) := by
  rw [convertTime_num (k := 1000) (by simp [acceptedUnits])]
  have : roundHalfEven (1 / 3 * 1000) = 333 := roundHalfEven_eq_of_lt (by
    rw [abs_lt]; constructor <;> norm_num)
  rw [this, if_pos (by decide)]

/-! ## C02 -/

/-- A timedelta duration is stored as given, unless it is zero, which is rejected. The unit is not
looked at. -/
theorem C02_timedelta {V : Type} (conds : Dict V) (name : String) (u : Option String) (us : Int) :
    StrsSpec.mk' conds (.td us) name u =
      if us = 0 then .error .userConfig else .ok ⟨conds, .td us, name⟩ := by
  by_cases h : us = 0 <;> simp [StrsSpec.mk', h]

/-- A numeric duration is accepted exactly when it is longer than half a microsecond and in
timedelta's range; it is then stored as a nonzero timedelta within half a microsecond of the request. -/
theorem C02_number_accepted {V : Type} (conds : Dict V) (name : String) {u : Option String} {k : ℚ}
    (hu : (u, k) ∈ acceptedUnits) (q : ℚ)
    (h1 : -86399999913600000000 ≤ q * k) (h2 : q * k ≤ 86399999999999999999)
    (h0 : 1 / 2 < |q * k|) :
    ∃ us : Int, StrsSpec.mk' conds (.num q) name u = .ok ⟨conds, .td us, name⟩ ∧ us ≠ 0 ∧
      |(us : ℚ) - q * k| ≤ 1 / 2 := by
  have hr := roundHalfEven_range (q := q * k) (a := -86399999913600000000)
    (b := 86399999999999999999) (by exact_mod_cast h1) (by exact_mod_cast h2)
  have hz : roundHalfEven (q * k) ≠ 0 := by
    rw [Ne, roundHalfEven_eq_zero_iff]; linarith
  refine ⟨roundHalfEven (q * k), ?_, hz, roundHalfEven_bound _⟩
  have hc : inTimedeltaRange (roundHalfEven (q * k)) := hr
  simp only [StrsSpec.mk', convertTime_num hu, if_pos hc]
  simp [hz]

/-- Numeric durations of at most half a microsecond, zero in particular, are rejected. -/
theorem C02_number_zero_rejected {V : Type} (conds : Dict V) (name : String) {u : Option String}
    {k : ℚ} (hu : (u, k) ∈ acceptedUnits) (q : ℚ) (h0 : |q * k| ≤ 1 / 2) :
    StrsSpec.mk' conds (.num q) name u = .error .userConfig := by
  have hz := (roundHalfEven_eq_zero_iff _).2 h0
  simp only [StrsSpec.mk', convertTime_num hu, hz, if_pos (show inTimedeltaRange 0 by decide)]
  simp

/-- Unknown units are rejected for every duration that is not a timedelta. -/
theorem C02_invalid_unit {V : Type} (conds : Dict V) (name : String) {u : Option String}
    (hu : ∀ k, (u, k) ∉ acceptedUnits) {x : TimeVal} (hx : ∀ us, x ≠ .td us) :
    StrsSpec.mk' conds x name u = .error .userConfig := by
  have := C01_invalid_unit hu x
  cases x with
  | td us => exact absurd rfl (hx us)
  | pdtd us => simp [StrsSpec.mk', this]
  | num q => simp [StrsSpec.mk', this]

/-- Whatever the arguments (except a pandas Timedelta), a successfully built stress phase has a
nonzero timedelta duration, and the conditions and name as given. -/
theorem C02_never_zero_partial {V : Type} {conds : Dict V} {name : String} {u : Option String}
    {x : TimeVal} (hx : ∀ us, x ≠ .pdtd us) {s : StrsSpec V}
    (h : StrsSpec.mk' conds x name u = .ok s) :
    s.conditions = conds ∧ s.name = name ∧ ∃ us : Int, s.duration = .td us ∧ us ≠ 0 := by
  cases x with
  | td us =>
    rw [C02_timedelta] at h
    split at h <;> simp at h
    subst h; exact ⟨rfl, rfl, us, rfl, by assumption⟩
  | pdtd us => exact absurd rfl (hx us)
  | num q =>
    by_cases hu : ∃ k, (u, k) ∈ acceptedUnits
    · obtain ⟨k, hk⟩ := hu
      simp only [StrsSpec.mk', convertTime_num hk] at h
      by_cases hr : inTimedeltaRange (roundHalfEven (q * k))
      · simp only [if_pos hr] at h
        split at h <;> simp at h
        subst h
        exact ⟨rfl, rfl, _, rfl, by simp_all⟩
      · simp [if_neg hr] at h
    · push Not at hu
      rw [C02_invalid_unit conds name hu (by simp)] at h
      simp at h

/-- Violation: a `pandas.Timedelta` duration is stored as a bare number (in hours), zero included. -/
theorem C02_pandas_violated {V : Type} (conds : Dict V) (name : String) (us : Int) :
    StrsSpec.mk' conds (.pdtd us) name none = .ok ⟨conds, .num (us / 3600000000), name⟩ := by
  have := (convertTime_td (u := none) (k := 3600000000) (by simp [acceptedUnits]) us).2
  simp [StrsSpec.mk', this]

-- Non-vacuity: 2.5 hours.
example : ∃ us : Int, StrsSpec.mk' (V := Nat) [("temp", 300)] (.num (5/2)) "s" (some "h") =
    .ok ⟨[("temp", 300)], .td us, "s"⟩ ∧ us ≠ 0 ∧ |(us : ℚ) - 5/2 * 3600000000| ≤ 1/2 :=
  C02_number_accepted _ _ (by simp [acceptedUnits]) _ (by norm_num) (by norm_num)
    (by norm_num [abs_of_pos])

end Gerabaldi.Props
