import Verif.Spec.TestSpec
import Mathlib.Tactic.Linarith
import Mathlib.Tactic.Ring
import Mathlib.Tactic.FieldSimp
import Mathlib.Tactic.NormNum
import Mathlib.Algebra.Order.Floor.Ring

namespace Gerabaldi
open Spec

theorem roundHalfEven_intCast (z : Int) : roundHalfEven (z : ℚ) = z := by
  simp [roundHalfEven]

theorem roundHalfEven_bound (q : ℚ) : |(roundHalfEven q : ℚ) - q| ≤ 1 / 2 := by
  have h1 : (⌊q⌋ : ℚ) ≤ q := Int.floor_le q
  have h2 : q < ⌊q⌋ + 1 := Int.lt_floor_add_one q
  unfold roundHalfEven
  simp only
  rw [abs_le]
  split_ifs <;> push_cast <;> constructor <;> linarith

/-- Everything closer than a half rounds to the integer. -/
theorem roundHalfEven_eq_of_lt {q : ℚ} {z : Int} (h : |q - z| < 1 / 2) : roundHalfEven q = z := by
  have hb := roundHalfEven_bound q
  rw [abs_lt] at h
  rw [abs_le] at hb
  have h1 : ((roundHalfEven q : Int) : ℚ) < ((z + 1 : Int) : ℚ) := by push_cast; linarith [h.1, h.2, hb.1, hb.2]
  have h2 : ((z - 1 : Int) : ℚ) < ((roundHalfEven q : Int) : ℚ) := by push_cast; linarith [h.1, h.2, hb.1, hb.2]
  have h1' := Int.cast_lt.mp h1
  have h2' := Int.cast_lt.mp h2
  omega

theorem roundHalfEven_eq_zero_iff (q : ℚ) : roundHalfEven q = 0 ↔ |q| ≤ 1 / 2 := by
  constructor
  · intro h
    have := roundHalfEven_bound q
    rw [h] at this
    simpa using this
  · intro h
    rcases lt_or_eq_of_le h with h' | h'
    · exact roundHalfEven_eq_of_lt (by simpa using h')
    · rcases abs_eq (by norm_num : (0:ℚ) ≤ 1/2) |>.mp h' with h' | h' <;> subst h'
      · norm_num [roundHalfEven]
      · have : ⌊(-(1/2) : ℚ)⌋ = -1 := by norm_num
        simp only [roundHalfEven, this]
        norm_num

theorem roundHalfEven_mono {q r : ℚ} (h : q ≤ r) : roundHalfEven q ≤ roundHalfEven r := by
  have hq := roundHalfEven_bound q
  have hr := roundHalfEven_bound r
  rcases lt_or_ge (roundHalfEven r) (roundHalfEven q) with hlt | hge
  · exfalso
    rw [abs_le] at hq hr
    -- both are within 1/2, so q = r (the difference of the roundings is at least one)
    have h1 : ((roundHalfEven r + 1 : Int) : ℚ) ≤ ((roundHalfEven q : Int) : ℚ) :=
      Int.cast_le.mpr hlt
    push_cast at h1
    have : q = r := by linarith [hq.1, hq.2, hr.1, hr.2]
    subst this
    exact lt_irrefl _ hlt
  · exact hge

theorem roundHalfEven_range {q : ℚ} {a b : Int} (h1 : (a : ℚ) ≤ q) (h2 : q ≤ b) :
    a ≤ roundHalfEven q ∧ roundHalfEven q ≤ b := by
  have := roundHalfEven_mono h1
  have := roundHalfEven_mono h2
  rw [roundHalfEven_intCast] at *
  constructor <;> assumption

theorem tdValid_iff (us : Int) : tdValid us ↔ inTimedeltaRange us := by
  unfold tdValid inTimedeltaRange tdMin tdMax; norm_num

/-- The unit map agrees with the documented units. -/
theorem timeUnitMap_of_accepted {u : Option String} {k : ℚ} (h : (u, k) ∈ acceptedUnits) :
    ∃ t, timeUnitMap u = some t ∧ tdKwMicros t = k ∧ timeSecondFactor t = k / 1000000 ∧ 0 < k := by
  simp only [acceptedUnits, List.mem_cons, Prod.mk.injEq, List.not_mem_nil, or_false] at h
  rcases h with ⟨rfl, rfl⟩ | ⟨rfl, rfl⟩ | ⟨rfl, rfl⟩ | ⟨rfl, rfl⟩ | ⟨rfl, rfl⟩ | ⟨rfl, rfl⟩ |
    ⟨rfl, rfl⟩ | ⟨rfl, rfl⟩ | ⟨rfl, rfl⟩ | ⟨rfl, rfl⟩ | ⟨rfl, rfl⟩ <;>
  simp [timeUnitMap, tdKwMicros, timeSecondFactor] <;> norm_num

theorem accepted_of_timeUnitMap {u : Option String} {t : TUnit} (h : timeUnitMap u = some t) :
    ∃ k, (u, k) ∈ acceptedUnits := by
  cases u with
  | none => exact ⟨3600000000, by simp [acceptedUnits]⟩
  | some s =>
    simp only [timeUnitMap] at h
    split_ifs at h <;> subst_vars <;> simp [acceptedUnits]

theorem timeUnitMap_none_of_not_accepted {u : Option String} (h : ∀ k, (u, k) ∉ acceptedUnits) :
    timeUnitMap u = none := by
  cases hu : timeUnitMap u with
  | none => rfl
  | some t => obtain ⟨k, hk⟩ := accepted_of_timeUnitMap hu; exact absurd hk (h k)

/-- A number of time in `timedelta` form. -/
theorem convertTime_td {u : Option String} {k : ℚ} (h : (u, k) ∈ acceptedUnits) (us : Int) :
    convertTime (.td us) u = .ok (.num (us / k)) ∧ convertTime (.pdtd us) u = .ok (.num (us / k)) := by
  obtain ⟨t, h1, h2, h3, h4⟩ := timeUnitMap_of_accepted h
  have : numOfTd t us = us / k := by
    unfold numOfTd; rw [h3]; field_simp
  simp [convertTime, h1, this]

theorem convertTime_num {u : Option String} {k : ℚ} (h : (u, k) ∈ acceptedUnits) (q : ℚ) :
    convertTime (.num q) u =
      if inTimedeltaRange (roundHalfEven (q * k)) then .ok (.td (roundHalfEven (q * k)))
      else .error .overflow := by
  obtain ⟨t, h1, h2, h3, h4⟩ := timeUnitMap_of_accepted h
  subst h2
  simp only [convertTime, h1, tdOfNum, tdMk]
  by_cases hr : inTimedeltaRange (roundHalfEven (q * tdKwMicros t))
  · rw [if_pos ((tdValid_iff _).2 hr), if_pos hr]
  · rw [if_neg (fun h => hr ((tdValid_iff _).1 h)), if_neg hr]

end Gerabaldi
