import Verif.Spec.Table
import Verif.Props.Readings

/-!
# C69: the measurement table consists of the rows of its steps and names
-/

namespace Gerabaldi.Props

open Gerabaldi Gerabaldi.Spec

section
variable {W V : Type}

theorem rowsAt_append (a b : List (MeasRow V)) (i : Nat) (p : String) :
    rowsAt (a ++ b) i p = rowsAt a i p ++ rowsAt b i p := List.filter_append ..

theorem rowsAt_nil_of {rows : List (MeasRow V)} {i : Nat} {p : String} (h : ∀ x ∈ rows, x.step ≠ i ∨ x.prm ≠ p) :
    rowsAt rows i p = [] := by
  refine List.filter_eq_nil_iff.2 fun x hx => ?_
  rcases h x hx with h | h <;> simp [h]

theorem rowsAt_self {rows : List (MeasRow V)} {i : Nat} {p : String} (h : ∀ x ∈ rows, x.step = i ∧ x.prm = p) :
    rowsAt rows i p = rows :=
  List.filter_eq_self.2 fun x hx => by simp [h x hx]

/-- Rows of other steps do not matter. -/
theorem stepTable_congr {a b : List (MeasRow V)} {i : Nat} (h : ∀ p, rowsAt a i p = rowsAt b i p) (st : Step V) :
    stepTable a i st = stepTable b i st := by
  cases st with
  | meas m =>
    show m.measurements.keys.flatMap _ = m.measurements.keys.flatMap _
    exact List.flatMap_congr fun p _ => h p
  | strs _ => rfl
  | other _ => rfl

theorem stepTables_congr {a b : List (MeasRow V)} {i : Nat} (h : ∀ j, i ≤ j → ∀ p, rowsAt a j p = rowsAt b j p)
    (steps : List (Step V)) : stepTables a i steps = stepTables b i steps := by
  induction steps generalizing i with
  | nil => rfl
  | cons st rest ih =>
    show stepTable a i st ++ _ = stepTable b i st ++ _
    rw [stepTable_congr (h i le_rfl), ih fun j hj => h j (by omega)]

variable [PyNum V] [Rng W V]

theorem measLoop_table [LawfulRng W V] {q : Quantities} {dev : DeviceMdl W V} {env : PhysTestEnv V}
    {step : MeasSpec V} {i : Nat} {s : SimState V} {conds : Dict (Dict (Arr3 V))} {ms : Dict Nat}
    (hnd : ms.Nodup) {acc rows : List (MeasRow V)} {w w' : W}
    (h : M.forIn' (measurePrm q dev env step i s conds) ms acc w = (.ok rows, w')) :
    ∃ new, rows = acc ++ new ∧ new = ms.keys.flatMap (rowsAt new i) ∧ ∀ x ∈ new, x.prm ∈ ms.keys := by
  induction ms generalizing acc w with
  | nil =>
    cases h
    exact ⟨[], by simp, rfl, fun x hx => (by cases hx)⟩
  | cons kv rest ih =>
    obtain ⟨acc1, w1, h1, h2⟩ := M.bind_eq_ok.1 h
    obtain ⟨hk, hnd'⟩ := List.nodup_cons.1 hnd
    replace hk : kv.1 ∉ Dict.keys rest := hk
    obtain ⟨t, ins, ys, w2, ht, hi, hy, rfl⟩ := measurePrm_ok h1
    obtain ⟨new, rfl, h4, h5⟩ := ih hnd' h2
    have hlen : ys.length = t.length := by simpa using measureVals_length hy
    have hown : ∀ x ∈ List.zipWith (fun (r : MeasRow V) y => { r with measured := y }) t ys,
        x.step = i ∧ x.prm = kv.1 := by
      intro x hx
      constructor
      · have : x.step ∈ t.map (·.step) := by
          rw [← (zip_rows hlen).2.2]
          exact List.mem_map_of_mem hx
        obtain ⟨y, hy, he⟩ := List.mem_map.1 this
        rw [← he]
        exact (measureTrue_step ht y hy).1
      · have : x.prm ∈ t.map (·.prm) := by
          rw [← (zip_rows hlen).2.1]
          exact List.mem_map_of_mem hx
        obtain ⟨y, hy, he⟩ := List.mem_map.1 this
        rw [← he]
        exact (measureTrue_step ht y hy).2.1
    refine ⟨_, List.append_assoc .., ?_, ?_⟩
    · show _ = rowsAt _ i kv.1 ++ (Dict.keys rest).flatMap _
      have e1 : rowsAt (List.zipWith (fun (r : MeasRow V) y => { r with measured := y }) t ys ++ new) i kv.1 =
          List.zipWith (fun (r : MeasRow V) y => { r with measured := y }) t ys := by
        rw [rowsAt_append, rowsAt_self hown, rowsAt_nil_of (rows := new), List.append_nil]
        exact fun x hx => .inr fun he => hk (by rw [← he]; exact h5 x hx)
      rw [e1]
      congr 1
      refine h4.trans (List.flatMap_congr fun p hp => ?_)
      rw [rowsAt_append, rowsAt_nil_of (rows := List.zipWith _ t ys), List.nil_append]
      intro x hx
      refine .inr fun he => hk ?_
      rw [← (hown x hx).2, he]
      exact hp
    · intro x hx
      rcases List.mem_append.1 hx with hx | hx
      · rw [(hown x hx).2]
        exact List.mem_cons_self
      · exact List.mem_cons_of_mem _ (h5 x hx)

theorem runDelta_table [LawfulRng W V] {ord : SetOrder} {dev : DeviceMdl W V} {env : PhysTestEnv V} {q : Quantities}
    {i : Nat} {steps : List (Step V)} (hnd : ∀ m, .meas m ∈ steps → m.measurements.Nodup) {s s' : SimState V}
    {rows : List (MeasRow V)} {lines : List (SumRow V)} {w w' : W}
    (h : runDelta ord dev env q i steps s w = (.ok (s', rows, lines), w')) :
    rows = stepTables rows i steps := by
  induction steps generalizing i s rows lines w with
  | nil => cases h; rfl
  | cons st rest ih =>
    obtain ⟨s1, rows1, lines1, rows2, lines2, w1, h1, h2, rfl, rfl⟩ := runDelta_cons_ok.1 h
    have hs := stepDelta_step h1
    have k1 := runDelta_steps h2
    have hrest := ih (fun m hm => hnd m (List.mem_cons_of_mem _ hm)) h2
    have hfirst : rows1 = stepTable rows1 i st := by
      cases st with
      | strs st =>
        obtain ⟨conds, w2, _, h⟩ := M.bind_eq_ok.1 h1
        obtain ⟨_, _, _, h⟩ := M.bind_eq_ok.1 h
        obtain ⟨_, _, _, h⟩ := M.bind_eq_ok.1 h
        obtain ⟨_, _, _, h⟩ := M.bind_eq_ok.1 h
        cases h
        rfl
      | meas m =>
        obtain ⟨conds, w2, -, h4, -⟩ := measDelta_ok h1
        obtain ⟨new, h5, h6, -⟩ := measLoop_table (hnd m List.mem_cons_self) h4
        rw [List.nil_append] at h5
        subst h5
        exact h6
      | other d => cases h1; rfl
    show _ = stepTable _ i st ++ stepTables _ (i + 1) rest
    have e1 : stepTable (rows1 ++ rows2) i st = rows1 := by
      refine Eq.trans (stepTable_congr (fun p => ?_) st) hfirst.symm
      rw [rowsAt_append, rowsAt_nil_of (rows := rows2), List.append_nil]
      exact fun x hx => .inl (by have := (k1 x hx).1; omega)
    have e2 : stepTables (rows1 ++ rows2) (i + 1) rest = rows2 := by
      refine Eq.trans (stepTables_congr (fun j hj p => ?_) rest) hrest.symm
      rw [rowsAt_append, rowsAt_nil_of (rows := rows1), List.nil_append]
      exact fun x hx => .inl (by have := hs x hx; omega)
    rw [e1, e2]

/-- **C69**: the measurement table of a report consists of nothing but the rows of its measurement steps, in the
order of the steps and, within a step, in the order of the measured names; each of these groups of rows is what
the theorems about single readings (C44, C57, C65, C67) describe. -/
theorem C69_table [LawfulRng W V] {ord : SetOrder} {dev : DeviceMdl W V} {env : PhysTestEnv V} {test : TestSpec V}
    {init : Option (SimState V)} (hnd : ∀ m, .meas m ∈ test.steps → m.measurements.Nodup) {r : SimReport V}
    {w w' : W} (h : simulate ord test dev env init w = (.ok r, w')) :
    r.measurements = stepTables r.measurements 0 test.steps := by
  obtain ⟨⟨sf, rf⟩, w1, h1, h2⟩ := M.bind_eq_ok.1 h
  cases h2
  obtain ⟨⟨s0, r0⟩, w2, h3, h4⟩ := M.bind_eq_ok.1 h1
  obtain ⟨rows, lines, h5, rfl⟩ := runSteps_ok.1 h4
  have h0 : r0.measurements = [] := by
    cases init with
    | none =>
      obtain ⟨x, w1, h1, h2⟩ := M.bind_eq_ok.1 h3
      obtain ⟨q, -, h2⟩ := M.ofExcept_bind_ok.1 h2
      cases h2
      rfl
    | some s => cases h3; rfl
  show r0.measurements ++ rows = stepTables (r0.measurements ++ rows) 0 test.steps
  rw [h0, List.nil_append]
  exact runDelta_table hnd h5

end

/-! ### Two measurements of three names -/

section
open Ex

/-- A test that measures a parameter, a circuit parameter and a condition twice. -/
def tableTest : TestSpec Q :=
  { steps := [.meas ⟨[("vth", 2), ("temp", 1), ("delay", 2)], [("temp", .fin 20), ("vdd", .fin 2)], "before"⟩,
      .strs ⟨[("temp", .fin 120), ("vdd", .fin 2)], .td 3600000000, "heat"⟩,
      .meas ⟨[("delay", 2), ("vth", 1)], [("temp", .fin 20), ("vdd", .fin 3)], "after"⟩],
    numChps := 1, numLots := 2, name := "table", description := "" }

example : (∀ m, .meas m ∈ tableTest.steps → m.measurements.Nodup) ∧
    ((simulate orderA tableTest Ex.dev ⟨[], []⟩ none Counts.start).1.toOption.map fun r =>
      r.measurements.map fun x => (x.step, x.prm, x.measured)) =
      some [(0, "vth", .fin 3), (0, "vth", .fin 3), (0, "vth", .fin 3), (0, "vth", .fin 3), (0, "temp", .fin 20),
        (0, "delay", .fin 6), (0, "delay", .fin 6), (0, "delay", .fin 6), (0, "delay", .fin 6),
        (2, "delay", .fin 24), (2, "delay", .fin 24), (2, "delay", .fin 24), (2, "delay", .fin 24),
        (2, "vth", .fin 8), (2, "vth", .fin 8)] := by
  refine ⟨fun m hm => ?_, by decide +kernel⟩
  simp only [tableTest, List.mem_cons, List.not_mem_nil, or_false] at hm
  rcases hm with h | h | h <;> cases h <;> simp [Dict.Nodup, Dict.keys]

end
end Gerabaldi.Props
