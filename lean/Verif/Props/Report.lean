import Verif.Lemmas.Report
import Mathlib.Data.Rat.Floor

/-!
# Formatted measurements: C38
-/

namespace Gerabaldi.Props

open Gerabaldi Gerabaldi.Spec

variable {V : Type} [Inhabited V]

omit [Inhabited V] in
theorem range_flatMap_pick {α : Type} (f : Nat → List α) {k n : Nat} (hk : k < n)
    (h : ∀ i < n, i ≠ k → f i = []) : (List.range n).flatMap f = f k := by
  induction n with
  | zero => omega
  | succ n ih =>
    rw [List.range_succ, List.flatMap_append]
    simp only [List.flatMap_cons, List.flatMap_nil, List.append_nil]
    by_cases hkn : k = n
    · subst hkn
      have : (List.range k).flatMap f = [] := by
        rw [List.flatMap_eq_nil_iff]
        intro i hi
        exact h i (by have := List.mem_range.1 hi; omega) (by have := List.mem_range.1 hi; omega)
      rw [this, List.nil_append]
    · rw [ih (by omega) fun i hi => h i (by omega), h n (by omega) (Ne.symm hkn), List.append_nil]

/-- C38: formatting an array gives the rows of the specification, in lot, chip, device order. -/
theorem C38_rows (a : Arr3 V) (prm : String) (time : TimeVal) (step : Nat) :
    formatMeasurements (.arr a) prm time step .parameter =
      .ok (expectedRows a.nl a.nc a.nd a.at' prm time step) := by
  show Except.ok (formatArr a prm time step .parameter) = _
  rw [formatArr_parameter]

/-- C38: `L * C * D` rows. -/
theorem C38_count (a : Arr3 V) (prm : String) (time : TimeVal) (step : Nat) {rows : List (MeasRow V)}
    (h : formatMeasurements (.arr a) prm time step .parameter = .ok rows) :
    rows.length = a.nl * a.nc * a.nd := by
  rw [C38_rows] at h
  cases h
  simp [expectedRows, List.length_flatMap, Nat.mul_assoc]

/-- C38: exactly one row is labelled (l, c, d), and it carries the value at `[l][c][d]`. -/
theorem C38_value (a : Arr3 V) (prm : String) (time : TimeVal) (step : Nat) {rows : List (MeasRow V)}
    (h : formatMeasurements (.arr a) prm time step .parameter = .ok rows) {l c d : Nat} (hl : l < a.nl)
    (hc : c < a.nc) (hd : d < a.nd) :
    rows.filter (fun r => MeasRow.labelled r l c d) =
      [⟨prm, step, some d, some c, some l, time, a.at' l c d⟩] := by
  rw [C38_rows] at h
  cases h
  unfold expectedRows
  rw [List.filter_flatMap, range_flatMap_pick _ hl]
  · rw [List.filter_flatMap, range_flatMap_pick _ hc]
    · rw [List.map_eq_flatMap, List.filter_flatMap, range_flatMap_pick _ hd]
      · simp [MeasRow.labelled]
      · intro i _ hi
        simp [MeasRow.labelled, hi]
    · intro i _ hi
      rw [List.filter_eq_nil_iff]
      intro r hr
      obtain ⟨j, _, rfl⟩ := List.mem_map.1 hr
      simp [MeasRow.labelled, hi]
  · intro i _ hi
    rw [List.filter_eq_nil_iff]
    intro r hr
    obtain ⟨j, _, hr⟩ := List.mem_flatMap.1 hr
    obtain ⟨k, _, rfl⟩ := List.mem_map.1 hr
    simp [MeasRow.labelled, hi]

/-- C38: every row carries the parameter, step and time, and the number of a device of the array. -/
theorem C38_labels (a : Arr3 V) (prm : String) (time : TimeVal) (step : Nat) {rows : List (MeasRow V)}
    (h : formatMeasurements (.arr a) prm time step .parameter = .ok rows) {r : MeasRow V} (hr : r ∈ rows) :
    r.prm = prm ∧ r.step = step ∧ r.time = time ∧
      ∃ l c d, l < a.nl ∧ c < a.nc ∧ d < a.nd ∧ MeasRow.labelled r l c d = true := by
  rw [C38_rows] at h
  cases h
  unfold expectedRows at hr
  obtain ⟨l, hl, hr⟩ := List.mem_flatMap.1 hr
  obtain ⟨c, hc, hr⟩ := List.mem_flatMap.1 hr
  obtain ⟨d, hd, rfl⟩ := List.mem_map.1 hr
  exact ⟨rfl, rfl, rfl, l, c, d, List.mem_range.1 hl, List.mem_range.1 hc, List.mem_range.1 hd,
    by simp [MeasRow.labelled]⟩

omit [Inhabited V] in
/-- C38: readings of a condition give one row each, without device numbers. -/
theorem C38_condition (a : Arr3 V) (prm : String) (time : TimeVal) (step : Nat) :
    formatMeasurements (.arr a) prm time step .condition =
      .ok (conditionRows a.data prm time step) := by
  show Except.ok (formatArr a prm time step .condition) = _
  rw [formatArr_condition]

/-! A 1 x 2 x 3 array and an empty one. -/

example : formatMeasurements (.arr (Arr3.ofFn 1 2 3 fun _ c d => (10 * c + d : ℚ))) "vth" (.td 7) 4
    .parameter = .ok
    [⟨"vth", 4, some 0, some 0, some 0, .td 7, 0⟩, ⟨"vth", 4, some 1, some 0, some 0, .td 7, 1⟩,
     ⟨"vth", 4, some 2, some 0, some 0, .td 7, 2⟩, ⟨"vth", 4, some 0, some 1, some 0, .td 7, 10⟩,
     ⟨"vth", 4, some 1, some 1, some 0, .td 7, 11⟩, ⟨"vth", 4, some 2, some 1, some 0, .td 7, 12⟩] := by
  decide +kernel

example : formatMeasurements (.arr (Arr3.ofFn 2 0 3 fun _ c d => (10 * c + d : ℚ))) "vth" (.td 7) 4
    .parameter = .ok [] := by
  decide +kernel

end Gerabaldi.Props
