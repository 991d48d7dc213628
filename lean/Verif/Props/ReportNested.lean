import Verif.Spec.ReportNested
import Verif.Lemmas.Report
import Mathlib.Data.Rat.Floor
import Mathlib.Tactic.Ring

/-!
# Formatted measurements of lists (C87)
-/

namespace Gerabaldi.Props

open Gerabaldi Gerabaldi.Spec

variable {V : Type}

/-- Two lists in blocks of the same lengths are joined block by block. -/
theorem zip_blocks {α β γ : Type} (f : α → β → γ) (g : Nat → List α) {w : Nat} (hg : ∀ i, (g i).length = w) :
    ∀ (xss : List (List β)) (s : Nat), (∀ xs ∈ xss, xs.length = w) →
      List.zipWith f ((List.range' s xss.length).flatMap g) xss.flatten =
        (xss.zipIdx s).flatMap fun p => List.zipWith f (g p.2) p.1 := by
  intro xss
  induction xss with
  | nil => intro s _; rfl
  | cons xs xss ih =>
    intro s h
    rw [List.length_cons, List.range'_succ, List.flatMap_cons, List.flatten_cons, List.zipIdx_cons, List.flatMap_cons,
      List.zipWith_append (by rw [hg, h xs List.mem_cons_self]),
      ih (s + 1) fun ys hy => h ys (List.mem_cons_of_mem _ hy)]

theorem zip_singles {α β γ : Type} (f : α → β → γ) (g : Nat → α) : ∀ (xs : List β) (s : Nat),
    List.zipWith f ((List.range' s xs.length).map g) xs = (xs.zipIdx s).map fun p => f (g p.2) p.1 := by
  intro xs
  induction xs with
  | nil => intro s; rfl
  | cons x xs ih =>
    intro s
    rw [List.length_cons, List.range'_succ, List.map_cons, List.zipWith_cons_cons, List.zipIdx_cons, List.map_cons,
      ih (s + 1)]

theorem indexCols_nested (L C D : Nat) : indexCols .parameter L C D =
    (List.range L).flatMap fun l => (List.range C).flatMap fun c => (List.range D).map fun d =>
      (some d, some c, some l) := by
  rw [indexCols_parameter]
  have := idx3_eq L C D
  have h : ((idx3 L C D).map fun p => (some p.2.2, some p.2.1, some p.1)) =
      (List.range L).flatMap fun l => (List.range C).flatMap fun c => (List.range D).map fun d =>
      (some d, some c, some l) := by
    unfold idx3
    simp only [List.map_flatMap, List.map_map]
    rfl
  rw [← h, this, List.map_map]
  rfl

theorem arrays_map {α : Type} {f : α → Nested V} {g : α → List Nat × List V} : ∀ {l : List α},
    (∀ a ∈ l, (f a).array = .ok (g a)) → Nested.arrays (l.map f) = .ok (l.map g) := by
  intro l
  induction l with
  | nil => intro _; rw [List.map_nil, Nested.arrays]; rfl
  | cons a l ih =>
    intro h
    rw [List.map_cons, Nested.arrays, h a List.mem_cons_self, ih fun b hb => h b (List.mem_cons_of_mem _ hb)]
    rfl

theorem list_array {α : Type} {f : α → Nested V} {g : α → List V} {s : List Nat} {l : List α}
    (h : ∀ a ∈ l, (f a).array = .ok (s, g a)) (hl : l ≠ []) :
    (Nested.list (l.map f)).array = .ok (l.length :: s, l.flatMap g) := by
  rw [Nested.array, arrays_map (g := fun a => (s, g a)) h]
  cases l with
  | nil => exact absurd rfl hl
  | cons a l =>
    simp only [List.map_cons]
    rw [if_pos (by simp)]
    simp [List.flatMap_map]

theorem devList_array (xs : List V) : (devList xs).array = .ok ([xs.length], xs) := by
  by_cases hx : xs = []
  · subst hx
    unfold devList
    rw [List.map_nil, Nested.array, Nested.arrays]
    rfl
  · unfold devList
    rw [list_array (g := fun v => [v]) (s := []) (fun a _ => by rw [Nested.array]) hx]
    simp

theorem chipList_array {xss : List (List V)} {D : Nat} (h : SameDevs xss D) (hx : xss ≠ []) :
    (chipList xss).array = .ok ([xss.length, D], xss.flatten) := by
  unfold chipList
  rw [list_array (g := fun v => v) (s := [D]) (fun a ha => by rw [devList_array, h a ha]) hx]
  simp [List.flatMap_def]

theorem chipList_array' {xss : List (List V)} {D : Nat} (h : SameDevs xss D) :
    (chipList xss).array = .ok (if xss = [] then [0] else [xss.length, D], xss.flatten) := by
  by_cases hx : xss = []
  · subst hx
    exact devList_array []
  · rw [chipList_array h hx, if_neg hx]

theorem lotList_array {xsss : List (List (List V))} {C D : Nat} (h : SameChips xsss C D) (hx : xsss ≠ []) :
    (lotList xsss).array =
      .ok (xsss.length :: if C = 0 then [0] else [C, D], (xsss.map List.flatten).flatten) := by
  unfold lotList
  rw [list_array (g := fun v => v.flatten) (s := if C = 0 then [0] else [C, D]) (fun a ha => by
    rw [chipList_array' (h a ha).2]
    have := (h a ha).1
    by_cases hc : C = 0
    · rw [if_pos hc, if_pos (List.eq_nil_of_length_eq_zero (this.trans hc))]
    · rw [if_neg hc, if_neg (fun e => hc (by rw [← this, e]; rfl)), this]) hx]
  rw [List.flatMap_def]

theorem flatten_length {α : Type} {xss : List (List α)} {D : Nat} (h : ∀ xs ∈ xss, xs.length = D) :
    xss.flatten.length = xss.length * D := by
  rw [List.length_flatten, List.map_congr_left (g := fun _ => D) h, List.map_const', List.sum_replicate]
  rfl

/-- **C87** for a list of numbers: one row for each, in order. -/
theorem C87_devices (xs : List V) (prm : String) (time : TimeVal) (step : Nat) :
    formatNested (devList xs) prm time step .parameter = .ok (rowsOfDevs prm time step 0 0 xs) := by
  unfold formatNested
  rw [devList_array]
  simp only [shapeCounts]
  rw [if_pos (by omega), indexCols_nested]
  simp only [List.range_one, List.flatMap_cons, List.flatMap_nil, List.append_nil]
  rw [List.range_eq_range', zip_singles]
  rfl

/-- **C87** for a list of chips. -/
theorem C87_chips {xss : List (List V)} {D : Nat} (h : SameDevs xss D) (prm : String) (time : TimeVal) (step : Nat) :
    formatNested (chipList xss) prm time step .parameter = .ok (rowsOfChips prm time step 0 xss) := by
  by_cases hx : xss = []
  · subst hx
    exact C87_devices [] prm time step
  unfold formatNested
  rw [chipList_array h hx]
  simp only [shapeCounts]
  rw [if_pos (by rw [flatten_length h]; ring), indexCols_nested]
  simp only [List.range_one, List.flatMap_cons, List.flatMap_nil, List.append_nil]
  rw [List.range_eq_range' (n := xss.length), zip_blocks _ _ (w := D) (by simp) xss 0 h]
  unfold rowsOfChips rowsOfDevs
  congr 1
  apply List.flatMap_congr
  intro p hp
  have hlen := h p.1 (List.fst_mem_of_mem_zipIdx hp)
  rw [← hlen, List.range_eq_range', zip_singles]

/-- **C87** for a list of lots. -/
theorem C87_lots {xsss : List (List (List V))} {C D : Nat} (h : SameChips xsss C D) (prm : String) (time : TimeVal)
    (step : Nat) : formatNested (lotList xsss) prm time step .parameter = .ok (rowsOfLots prm time step xsss) := by
  by_cases hx : xsss = []
  · subst hx
    exact C87_devices [] prm time step
  unfold formatNested
  rw [lotList_array h hx]
  by_cases hc : C = 0
  · subst hc
    have hnil : ∀ xss ∈ xsss, xss = [] := fun xss hm => List.eq_nil_of_length_eq_zero (h xss hm).1
    have hf : (xsss.map List.flatten).flatten = [] := by
      rw [List.flatten_eq_nil_iff]
      intro l hl
      obtain ⟨xss, hm, rfl⟩ := List.mem_map.1 hl
      rw [hnil xss hm]; rfl
    rw [hf]
    simp only [if_true, shapeCounts]
    rw [if_pos (by simp), List.zipWith_nil_right]
    unfold rowsOfLots
    congr 1
    symm
    rw [List.flatMap_eq_nil_iff]
    intro p hp
    rw [hnil p.1 (List.fst_mem_of_mem_zipIdx hp)]
    rfl
  · rw [if_neg hc]
    simp only [shapeCounts]
    have hlen : ∀ ys ∈ xsss.map List.flatten, ys.length = C * D := by
      intro ys hy
      obtain ⟨xss, hm, rfl⟩ := List.mem_map.1 hy
      rw [flatten_length (h xss hm).2, (h xss hm).1]
    rw [if_pos (by rw [flatten_length hlen, List.length_map]; ring), indexCols_nested]
    have hz := zip_blocks (fun ix v => (⟨prm, step, ix.1, ix.2.1, ix.2.2, time, v⟩ : MeasRow V))
      (fun l => (List.range C).flatMap fun c => (List.range D).map fun d =>
        ((some d, some c, some l) : Option Nat × Option Nat × Option Nat)) (w := C * D)
      (by intro i; simp [List.length_flatMap]) (xsss.map List.flatten) 0 hlen
    rw [List.length_map] at hz
    rw [List.range_eq_range' (n := xsss.length), hz, List.zipIdx_map, List.flatMap_map]
    unfold rowsOfLots
    congr 1
    apply List.flatMap_congr
    intro p hp
    have hp' := h p.1 (List.fst_mem_of_mem_zipIdx hp)
    simp only [Prod.map]
    unfold rowsOfChips rowsOfDevs
    rw [← hp'.1, List.range_eq_range' (n := p.1.length), zip_blocks _ _ (w := D) (by simp) p.1 0 hp'.2]
    apply List.flatMap_congr
    intro q hq
    rw [← hp'.2 q.1 (List.fst_mem_of_mem_zipIdx hq), List.range_eq_range', zip_singles]
    rfl

theorem chipList_ragged {xss : List (List V)} (h : ¬ ∃ D, SameDevs xss D) :
    (chipList xss).array = .error .valueError := by
  unfold chipList
  rw [Nested.array, arrays_map (g := fun xs => ([xs.length], xs)) fun a _ => devList_array a]
  cases xss with
  | nil => exact absurd ⟨0, fun xs hx => nomatch hx⟩ h
  | cons xs xss =>
    simp only [List.map_cons]
    rw [if_neg]
    intro hall
    refine h ⟨xs.length, fun ys hy => ?_⟩
    rcases List.mem_cons.1 hy with rfl | hy
    · rfl
    · have := List.all_eq_true.1 hall _ (List.mem_map_of_mem hy)
      simpa using this

/-- **C87** for chips with different numbers of devices. -/
theorem C87_ragged_chips {xss : List (List V)} (h : ¬ ∃ D, SameDevs xss D) (prm : String) (time : TimeVal) (step : Nat)
    (t : PrmType) : formatNested (chipList xss) prm time step t = .error .valueError := by
  unfold formatNested
  rw [chipList_ragged h]

theorem arrays_fail {α : Type} {f : α → Nested V} : ∀ {l : List α},
    (∀ a ∈ l, (∃ p, (f a).array = .ok p) ∨ (f a).array = .error .valueError) →
    (∃ a ∈ l, (f a).array = .error .valueError) → Nested.arrays (l.map f) = .error .valueError := by
  intro l
  induction l with
  | nil => rintro - ⟨a, ha, -⟩; cases ha
  | cons a l ih =>
    rintro h ⟨b, hb, hbe⟩
    rw [List.map_cons, Nested.arrays]
    rcases h a List.mem_cons_self with ⟨p, hp⟩ | he
    · rw [hp]
      rcases List.mem_cons.1 hb with rfl | hb
      · rw [hp] at hbe; cases hbe
      · simp only [ih (fun c hc => h c (List.mem_cons_of_mem _ hc)) ⟨b, hb, hbe⟩]
    · rw [he]

/-- **C87** for lots that are not all alike. -/
theorem C87_ragged_lots {xsss : List (List (List V))} (h : ¬ ∃ C D, SameChips xsss C D) (prm : String) (time : TimeVal)
    (step : Nat) (t : PrmType) : formatNested (lotList xsss) prm time step t = .error .valueError := by
  have ha : (lotList xsss).array = .error .valueError := by
    unfold lotList
    rw [Nested.array]
    by_cases hr : ∃ xss ∈ xsss, ¬ ∃ D, SameDevs xss D
    · obtain ⟨xss, hm, hr⟩ := hr
      rw [arrays_fail (fun xss _ => ?_) ⟨xss, hm, chipList_ragged hr⟩]
      by_cases hd : ∃ D, SameDevs xss D
      · exact .inl ⟨_, chipList_array' hd.choose_spec⟩
      · exact .inr (chipList_ragged hd)
    · have hr' : ∀ xss ∈ xsss, ∃ D, SameDevs xss D := fun xss hm => by
        by_contra hc
        exact hr ⟨xss, hm, hc⟩
      choose! dn hdn using hr'
      rw [arrays_map (g := fun xss => (if xss = [] then [0] else [xss.length, dn xss], xss.flatten))
        fun a ha => chipList_array' (hdn a ha)]
      cases xsss with
      | nil => exact absurd ⟨0, 0, fun xs hx => nomatch hx⟩ h
      | cons xs xsss =>
        simp only [List.map_cons]
        rw [if_neg]
        intro hall
        refine h ⟨xs.length, dn xs, fun ys hy => ?_⟩
        rcases List.mem_cons.1 hy with rfl | hy
        · exact ⟨rfl, hdn _ List.mem_cons_self⟩
        · have := List.all_eq_true.1 hall _ (List.mem_map_of_mem hy)
          have hy' := hdn ys (List.mem_cons_of_mem _ hy)
          by_cases h1 : ys = []
          · subst h1
            by_cases h2 : xs = []
            · subst h2
              exact ⟨rfl, fun _ hz => nomatch hz⟩
            · simp [h2] at this
          · by_cases h2 : xs = []
            · simp [h1, h2] at this
            · simp [h1, h2] at this
              exact ⟨this.1, this.2 ▸ hy'⟩
  unfold formatNested
  rw [ha]

/-- **C87** for readings of conditions: one row each, without numbers. -/
theorem C87_conditions (xs : List V) {xss : List (List V)} {D : Nat} (h2 : SameDevs xss D)
    {xsss : List (List (List V))} {C E : Nat} (h3 : SameChips xsss C E) (prm : String) (time : TimeVal) (step : Nat) :
    formatNested (devList xs) prm time step .condition = .ok (conditionRows xs prm time step) ∧
    formatNested (chipList xss) prm time step .condition = .ok (conditionRows xss.flatten prm time step) ∧
    formatNested (lotList xsss) prm time step .condition =
      .ok (conditionRows (xsss.map List.flatten).flatten prm time step) := by
  have key : ∀ (ys : List V) (n : Nat), ys.length = n → List.zipWith (fun ix v =>
      (⟨prm, step, ix.1, ix.2.1, ix.2.2, time, v⟩ : MeasRow V))
      (List.replicate n ((none, none, none) : Option Nat × Option Nat × Option Nat)) ys =
      conditionRows ys prm time step := by
    rintro ys _ rfl
    induction ys with
    | nil => rfl
    | cons y ys ih =>
      rw [List.length_cons, List.replicate_succ, List.zipWith_cons_cons, ih]
      rfl
  have h1 : ∀ ys : List V, formatNested (devList ys) prm time step .condition =
      .ok (conditionRows ys prm time step) := by
    intro ys
    unfold formatNested
    rw [devList_array]
    simp only [shapeCounts]
    rw [if_pos (by omega)]
    unfold indexCols
    rw [key _ _ (by omega)]
  refine ⟨h1 xs, ?_, ?_⟩
  · by_cases hx : xss = []
    · subst hx
      exact h1 []
    · unfold formatNested
      rw [chipList_array h2 hx]
      simp only [shapeCounts]
      have hl : xss.flatten.length = D * xss.length * 1 := by rw [flatten_length h2]; ring
      rw [if_pos hl]
      unfold indexCols
      rw [key _ _ hl]
  · by_cases hx : xsss = []
    · subst hx
      exact h1 []
    · have hlen : ∀ ys ∈ xsss.map List.flatten, ys.length = C * E := by
        intro ys hy
        obtain ⟨zss, hm, rfl⟩ := List.mem_map.1 hy
        rw [flatten_length (h3 zss hm).2, (h3 zss hm).1]
      have hfl := flatten_length hlen
      rw [List.length_map] at hfl
      unfold formatNested
      rw [lotList_array h3 hx]
      by_cases hc : C = 0
      · subst hc
        have hl : (xsss.map List.flatten).flatten.length = 0 * xsss.length * 1 := by rw [hfl]; ring
        simp only [if_true, shapeCounts]
        rw [if_pos hl]
        unfold indexCols
        rw [key _ _ hl]
      · have hl : (xsss.map List.flatten).flatten.length = E * C * xsss.length := by rw [hfl]; ring
        rw [if_neg hc]
        simp only [shapeCounts]
        rw [if_pos hl]
        unfold indexCols
        rw [key _ _ hl]

/-- **C87** for values that are not up to three levels of lists: a number, or four levels. -/
theorem C87_rejected (v : V) {xs : List (List (List (List V)))} {L C D : Nat} (hL : L ≠ 0) (hC : C ≠ 0)
    (h1 : L * C * D ≠ 1) (hx : xs ≠ []) (h : ∀ xsss ∈ xs, xsss.length = L ∧ SameChips xsss C D) (prm : String)
    (time : TimeVal) (step : Nat) (t : PrmType) :
    formatNested (.leaf v) prm time step t = .error .indexError ∧
    formatNested (.list (xs.map lotList)) prm time step t = .error .valueError := by
  constructor
  · unfold formatNested
    rw [Nested.array]
    rfl
  · have hne : ∀ xsss ∈ xs, xsss ≠ [] := fun xsss hm e => hL (by rw [← (h xsss hm).1, e]; rfl)
    have ha := list_array (f := lotList) (g := fun xsss : List (List (List V)) => (xsss.map List.flatten).flatten)
      (s := [L, C, D]) (l := xs) (fun xsss hm => by
        rw [lotList_array (h xsss hm).2 (hne xsss hm), if_neg hC, (h xsss hm).1]) hx
    unfold formatNested
    rw [ha]
    simp only [shapeCounts]
    rw [if_neg]
    rw [List.flatMap_def]
    have hlen : ∀ ys ∈ xs.map fun xsss : List (List (List V)) => (xsss.map List.flatten).flatten,
        ys.length = L * C * D := by
      intro ys hy
      obtain ⟨xsss, hm, rfl⟩ := List.mem_map.1 hy
      rw [flatten_length (D := C * D), List.length_map, (h xsss hm).1]
      · ring
      · intro zs hz
        obtain ⟨zss, hm', rfl⟩ := List.mem_map.1 hz
        rw [flatten_length ((h xsss hm).2 zss hm').2, ((h xsss hm).2 zss hm').1]
    rw [flatten_length hlen, List.length_map]
    intro he
    have hpos : 0 < xs.length := List.length_pos_iff.2 hx
    have : xs.length * (L * C * D) = xs.length * 1 := by rw [he]; ring
    exact h1 (Nat.eq_of_mul_eq_mul_left hpos this)

/-! ## Concrete cases -/

/-- Two chips with three devices each. -/
example : formatNested (chipList [[1, 2, 3], [4, 5, (6 : ℚ)]]) "vth" (.td 0) 1 .parameter =
    .ok [⟨"vth", 1, some 0, some 0, some 0, .td 0, 1⟩, ⟨"vth", 1, some 1, some 0, some 0, .td 0, 2⟩,
      ⟨"vth", 1, some 2, some 0, some 0, .td 0, 3⟩, ⟨"vth", 1, some 0, some 1, some 0, .td 0, 4⟩,
      ⟨"vth", 1, some 1, some 1, some 0, .td 0, 5⟩, ⟨"vth", 1, some 2, some 1, some 0, .td 0, 6⟩] := by
  rw [C87_chips (D := 3) (by unfold SameDevs; decide)]
  rfl

example : formatNested (chipList [[1, 2, 3], [4, (6 : ℚ)]]) "vth" (.td 0) 1 .parameter = .error .valueError :=
  C87_ragged_chips (by
    rintro ⟨D, h⟩
    have h1 := h [1, 2, 3] (by simp)
    have h2 := h [4, 6] (by simp)
    simp at h1 h2
    omega) _ _ _ _

/-- Two batches of one lot with one chip of two devices. -/
example : formatNested (.list ([[[[1, 2]]], [[[3, (4 : ℚ)]]]].map lotList)) "vth" (.td 0) 1 .parameter =
    .error .valueError :=
  (C87_rejected (0 : ℚ) (L := 1) (C := 1) (D := 2) (by decide) (by decide) (by decide) (by simp)
    (by unfold SameChips SameDevs; decide) "vth" (.td 0) 1 .parameter).2

end Gerabaldi.Props
