import Verif.Spec.Report
import Verif.Lemmas.Helpers

/-! # The index columns of formatted measurements -/

namespace Gerabaldi
open Spec

variable {V : Type}

theorem repeatEach_range (m n : Nat) :
    repeatEach (List.range m) n = (List.range (m * n)).map fun i => i / n := by
  have := range_mul_flatMap m n (fun i _ => i)
  rw [← this]
  unfold repeatEach
  congr 1
  funext i
  rw [List.map_const', List.length_range]

theorem tile_map {α : Type} (f : Nat → α) (m n : Nat) :
    tile ((List.range m).map f) n = (List.range (n * m)).map fun i => f (i % m) := by
  have := range_mul_flatMap n m (fun _ j => f j)
  rw [← this]
  unfold tile
  rw [List.flatMap_def]
  congr 1
  rw [List.map_const', List.length_range]

theorem indexCols_parameter (L C D : Nat) :
    indexCols .parameter L C D =
      (List.range (L * C * D)).map fun i => (some (i % D), some (i / D % C), some (i / (C * D))) := by
  unfold indexCols
  simp only
  have h1 : tile (List.range D) (C * L) = (List.range (L * C * D)).map fun i => i % D := by
    have := tile_map (fun i => i) D (C * L)
    rw [List.map_id'] at this
    rw [this, Nat.mul_comm C L]
  have h2 : tile (repeatEach (List.range C) D) L =
      (List.range (L * C * D)).map fun i => i / D % C := by
    rw [repeatEach_range, tile_map, Nat.mul_assoc]
    apply List.map_congr_left
    intro i _
    rw [Nat.mul_comm C D, Nat.mod_mul_right_div_self]
  have h3 : repeatEach (List.range L) (D * C) =
      (List.range (L * C * D)).map fun i => i / (C * D) := by
    rw [repeatEach_range, Nat.mul_comm D C, Nat.mul_assoc]
  rw [h1, h2, h3, List.zip_map', List.zipWith_map]
  rw [List.zipWith_self]

theorem zipWith_range {α β γ : Type} [Inhabited β] (f : α → β → γ) (g : Nat → α) (xs : List β)
    {n : Nat} (h : xs.length = n) :
    List.zipWith f ((List.range n).map g) xs = (List.range n).map fun i => f (g i) (xs.getD i default) := by
  apply List.ext_getElem
  · simp [h]
  · intro i h1 h2
    simp only [List.getElem_zipWith, List.getElem_map, List.getElem_range]
    rw [List.getD_eq_getElem]

/-- Formatting gives the expected rows. -/
theorem formatArr_parameter [Inhabited V] (a : Arr3 V) (prm : String) (time : TimeVal) (step : Nat) :
    formatArr a prm time step .parameter = expectedRows a.nl a.nc a.nd a.at' prm time step := by
  unfold formatArr
  rw [indexCols_parameter, zipWith_range _ _ _ a.wf]
  have e := idx3_eq a.nl a.nc a.nd
  have h2 : expectedRows a.nl a.nc a.nd a.at' prm time step =
      (idx3 a.nl a.nc a.nd).map fun p =>
        (⟨prm, step, some p.2.2, some p.2.1, some p.1, time, a.at' p.1 p.2.1 p.2.2⟩ : MeasRow V) := by
    unfold expectedRows idx3
    simp only [List.map_flatMap, List.map_map]
    rfl
  rw [h2, e, List.map_map]
  apply List.map_congr_left
  intro i hi
  obtain ⟨_, _, _, h4⟩ := Arr3.decode_lt (List.mem_range.1 hi)
  simp only [Function.comp, sampleAt, Arr3.at']
  rw [h4]

theorem formatArr_condition (a : Arr3 V) (prm : String) (time : TimeVal) (step : Nat) :
    formatArr a prm time step .condition = conditionRows a.data prm time step := by
  unfold formatArr indexCols conditionRows
  simp only
  have : a.nd * a.nc * a.nl = a.data.length := by rw [a.wf]; ring
  rw [this]
  apply List.ext_getElem
  · simp
  · intro i h1 h2
    simp

end Gerabaldi
