import Verif.Spec.Layout
import Verif.Props.Table
import Verif.Props.Samples
import Verif.Props.Timeline
import Verif.Props.History

/-!
# C80: the layout of a report depends only on the test
-/

namespace Gerabaldi.Props

open Gerabaldi Gerabaldi.Spec

section
variable {W V : Type} [PyNum V] [Rng W V]

/-- The rows of one name in one step bear the step's number, the name and the elapsed time. -/
theorem rows_bear [LawfulRng W V] {ord : SetOrder} {dev : DeviceMdl W V} {env : PhysTestEnv V} {test : TestSpec V}
    {r : SimReport V} {w w' : W} (h : simulate ord test dev env none w = (.ok r, w'))
    {pre post : List (Step V)} {step : MeasSpec V} (ht : test.steps = pre ++ .meas step :: post)
    (hnm : step.measurements.Nodup) {prm : String} {n : Nat} (hp : (prm, n) ∈ step.measurements) :
    ∀ x ∈ rowsAt r.measurements pre.length prm,
      x.step = pre.length ∧ x.prm = prm ∧ Spec.timeVal x.time = (pre.map stressLen).sum := by
  obtain ⟨s0, r0, s, r1, conds, t, ys, w0, w1, w2, u1, u2, u3, h1, h2, -, -, h6, h7, h8⟩ := C57_instrument h ht hnm hp
  intro x hx
  have hx' := hx
  rw [h8] at hx'
  have hlen : ys.length = t.length := by simpa using measureVals_length h7
  have ht : Spec.timeVal s.elapsed = (pre.map stressLen).sum := by
    have := C37_elapsed h2
    rw [(simStart_elapsed h1).1] at this
    simpa [Spec.timeVal] using this
  obtain ⟨y, hy, e1, e2, e3⟩ : ∃ y ∈ t, x.step = y.step ∧ x.prm = y.prm ∧ x.time = y.time := by
    obtain ⟨k, hk, rfl⟩ := List.getElem_of_mem hx'
    simp only [List.length_zipWith] at hk
    exact ⟨t[k], List.getElem_mem _, by simp, by simp, by simp⟩
  obtain ⟨b1, b2, b3⟩ := measureTrue_step h6 y hy
  exact ⟨e1.trans b1, e2.trans b2, by rw [e3, b3, ht]⟩

/-- The entries of one name in one step. -/
theorem name_layout [LawfulRng W V] {ord : SetOrder} {dev : DeviceMdl W V} {env : PhysTestEnv V}
    (hnd : dev.prms.Nodup) (hm : ∀ p d, dev.prms.get? p = some (.deg d) → d.mechs.Nodup)
    (hs : ∀ p d, dev.prms.get? p = some (.deg d) → DegShapes d) {test : TestSpec V}
    {r : SimReport V} {w w' : W} (h : simulate ord test dev env none w = (.ok r, w'))
    {pre post : List (Step V)} {step : MeasSpec V} (ht : test.steps = pre ++ .meas step :: post)
    (hnm : step.measurements.Nodup) (hnc : step.conditions.Nodup) {prm : String} {n : Nat}
    (hp : (prm, n) ∈ step.measurements)
    (hc : ∀ m, dev.prms.get? prm = some (.circ m) → WholeCircuit dev r.devCounts test.numLots prm m n) :
    (rowsAt r.measurements pre.length prm).map entry =
      requested test.numLots test.numChps (fun p => (dev.prms.get? p).isSome) pre.length (pre.map stressLen).sum
        (prm, n) := by
  have hpl : (rowsAt r.measurements pre.length prm).map place =
      if (dev.prms.get? prm).isSome then places test.numLots test.numChps n else List.replicate n (none, none, none) := by
    cases hd : dev.prms.get? prm with
    | none => exact C44_condition hnd hm hs h ht hnm hnc hp hd
    | some x =>
      cases x with
      | deg d => exact C44_parameter hnd hm hs h ht hnm hp hd
      | circ m =>
        obtain ⟨g1, g2, g3, g4⟩ := hc m hd
        exact C44_circuit_partial hnd hm hs h ht hnm hp hd g1 g2 g3 g4
  unfold requested
  simp only
  rw [← hpl, List.map_map]
  refine List.map_congr_left fun x hx => ?_
  obtain ⟨b1, b2, b3⟩ := rows_bear h ht hnm hp x hx
  simp [entry, b1, b2, b3]

end

/-- **C80**: of every simulation with new devices, the measurement table has exactly the rows that the test
specification lists: step by step, name by name, lot by lot, chip by chip and device by device, each with the sum of
the stress durations before it as its time. -/
theorem C80_layout {W V : Type} [PyNum V] [Rng W V] [LawfulRng W V] {ord : SetOrder} {dev : DeviceMdl W V}
    {env : PhysTestEnv V} (hnd : dev.prms.Nodup) (hm : ∀ p d, dev.prms.get? p = some (.deg d) → d.mechs.Nodup)
    (hs : ∀ p d, dev.prms.get? p = some (.deg d) → DegShapes d) {test : TestSpec V}
    {r : SimReport V} {w w' : W} (h : simulate ord test dev env none w = (.ok r, w'))
    (hnm : ∀ m, .meas m ∈ test.steps → m.measurements.Nodup ∧ m.conditions.Nodup)
    (hc : ∀ m, .meas m ∈ test.steps → ∀ p n, (p, n) ∈ m.measurements → ∀ cm, dev.prms.get? p = some (.circ cm) →
      WholeCircuit dev r.devCounts test.numLots p cm n) :
    r.measurements.map entry =
      layout test.numLots test.numChps (fun p => (dev.prms.get? p).isSome) 0 0 test.steps := by
  have key : ∀ (post pre : List (Step V)), test.steps = pre ++ post →
      (stepTables r.measurements pre.length post).map entry =
        layout test.numLots test.numChps (fun p => (dev.prms.get? p).isSome) pre.length (pre.map stressLen).sum post := by
    intro post
    induction post with
    | nil => intro pre _; rfl
    | cons st rest ih =>
      intro pre ht
      have h1 := ih (pre ++ [st]) (by rw [ht]; simp)
      simp only [List.length_append, List.length_cons, List.length_nil, List.map_append, List.map_cons, List.map_nil,
        List.sum_append, List.sum_cons, List.sum_nil, Nat.zero_add, add_zero] at h1
      show (stepTable r.measurements pre.length st ++ _).map entry = stepLayout _ _ _ _ _ st ++ _
      rw [List.map_append, h1]
      congr 1
      cases st with
      | strs _ => rfl
      | other _ => rfl
      | meas m =>
        have hmem : .meas m ∈ test.steps := by rw [ht]; simp
        show (m.measurements.keys.flatMap _).map entry = m.measurements.flatMap _
        rw [List.map_flatMap, Dict.keys, List.flatMap_map]
        exact List.flatMap_congr fun kv hkv => name_layout hnd hm hs h ht (hnm m hmem).1 (hnm m hmem).2 hkv
          (hc m hmem kv.1 kv.2 hkv)
  have := key test.steps [] rfl
  rw [C69_table (fun m hm => (hnm m hm).1) h]
  exact this

/-- **C80**, the size: the table has one row per reading the test asks for. -/
theorem C80_size {W V : Type} [PyNum V] [Rng W V] [LawfulRng W V] {ord : SetOrder} {dev : DeviceMdl W V}
    {env : PhysTestEnv V} (hnd : dev.prms.Nodup) (hm : ∀ p d, dev.prms.get? p = some (.deg d) → d.mechs.Nodup)
    (hs : ∀ p d, dev.prms.get? p = some (.deg d) → DegShapes d) {test : TestSpec V}
    {r : SimReport V} {w w' : W} (h : simulate ord test dev env none w = (.ok r, w'))
    (hnm : ∀ m, .meas m ∈ test.steps → m.measurements.Nodup ∧ m.conditions.Nodup)
    (hc : ∀ m, .meas m ∈ test.steps → ∀ p n, (p, n) ∈ m.measurements → ∀ cm, dev.prms.get? p = some (.circ cm) →
      WholeCircuit dev r.devCounts test.numLots p cm n) :
    r.measurements.length =
      (test.steps.map (stepSize test.numLots test.numChps fun p => (dev.prms.get? p).isSome)).sum := by
  have key : ∀ (steps : List (Step V)) i t, (layout test.numLots test.numChps (fun p => (dev.prms.get? p).isSome) i t
      steps).length = (steps.map (stepSize test.numLots test.numChps fun p => (dev.prms.get? p).isSome)).sum := by
    intro steps
    induction steps with
    | nil => intro i t; rfl
    | cons st rest ih =>
      intro i t
      rw [List.map_cons, List.sum_cons, ← ih (i + 1) (t + stressLen st)]
      show (stepLayout _ _ _ _ _ st ++ _).length = _
      rw [List.length_append]
      congr 1
      cases st with
      | strs _ => rfl
      | other _ => rfl
      | meas m =>
        show (m.measurements.flatMap _).length = (m.measurements.map _).sum
        rw [List.length_flatMap]
        congr 1
        refine List.map_congr_left fun kv _ => ?_
        unfold requested
        rw [List.length_map]
        split
        · rw [places_length, Nat.mul_assoc]
        · rw [List.length_replicate]
  have := congrArg List.length (C80_layout hnd hm hs h hnm hc)
  rw [List.length_map, key] at this
  exact this

/-- **C80**, comparisons: the tables of two simulations of one test, of devices with the same parameter names but
otherwise of any kind, in any environments and with any random numbers, agree row by row in everything but the value. -/
theorem C80_same {W W' V : Type} [PyNum V] [Rng W V] [LawfulRng W V] [Rng W' V] [LawfulRng W' V] {ord ord' : SetOrder}
    {dev : DeviceMdl W V} {dev' : DeviceMdl W' V} {env env' : PhysTestEnv V} (hnd : dev.prms.Nodup)
    (hm : ∀ p d, dev.prms.get? p = some (.deg d) → d.mechs.Nodup)
    (hs : ∀ p d, dev.prms.get? p = some (.deg d) → DegShapes d) (hnd' : dev'.prms.Nodup)
    (hm' : ∀ p d, dev'.prms.get? p = some (.deg d) → d.mechs.Nodup)
    (hs' : ∀ p d, dev'.prms.get? p = some (.deg d) → DegShapes d) {test : TestSpec V}
    {r r' : SimReport V} {w w' : W} {u u' : W'} (h : simulate ord test dev env none w = (.ok r, w'))
    (h' : simulate ord' test dev' env' none u = (.ok r', u'))
    (hnm : ∀ m, .meas m ∈ test.steps → m.measurements.Nodup ∧ m.conditions.Nodup)
    (hc : ∀ m, .meas m ∈ test.steps → ∀ p n, (p, n) ∈ m.measurements → ∀ cm, dev.prms.get? p = some (.circ cm) →
      WholeCircuit dev r.devCounts test.numLots p cm n)
    (hc' : ∀ m, .meas m ∈ test.steps → ∀ p n, (p, n) ∈ m.measurements → ∀ cm, dev'.prms.get? p = some (.circ cm) →
      WholeCircuit dev' r'.devCounts test.numLots p cm n)
    (hk : ∀ p, (dev.prms.get? p).isSome = (dev'.prms.get? p).isSome) :
    r.measurements.map entry = r'.measurements.map entry := by
  rw [C80_layout hnd hm hs h hnm hc, C80_layout hnd' hm' hs' h' hnm hc']
  congr 1
  funext p
  exact hk p

/-! ### A test with a parameter, a circuit parameter and a condition, measured twice -/

/-- The hypotheses hold for a test on two lots that reads before and after an hour of stress. -/
example : ∃ r, (simulate Ex.orderA tableTest Ex.dev ⟨[], []⟩ none Counts.start).1 = .ok r ∧
    r.measurements.length = 15 ∧
    r.measurements.map entry = layout 2 1 (fun p => (Ex.dev.prms.get? p).isSome) 0 0 tableTest.steps ∧
    (entry <$> r.measurements.getLast?) = some (2, "vth", (some 1, some 0, some 0), 3600000000) := by
  obtain ⟨r, h, hr⟩ : ∃ r, (simulate Ex.orderA tableTest Ex.dev ⟨[], []⟩ none Counts.start).1 = .ok r ∧
      (r.devCounts.get? "vth" == some 2 && r.devCounts.get? "delay" == some 2) = true :=
    exists_ok (by decide +kernel)
  simp only [Bool.and_eq_true, beq_iff_eq] at hr
  have h' : simulate Ex.orderA tableTest Ex.dev ⟨[], []⟩ none Counts.start = (.ok r, _) := Prod.ext h rfl
  have hnd : Ex.dev.prms.Nodup := by decide
  have hnm : ∀ m, .meas m ∈ tableTest.steps → m.measurements.Nodup ∧ m.conditions.Nodup := by
    intro m hm
    simp only [tableTest, List.mem_cons, List.not_mem_nil, or_false] at hm
    rcases hm with h | h | h <;> cases h <;> simp [Dict.Nodup, Dict.keys]
  have hc : ∀ m, .meas m ∈ tableTest.steps → ∀ p n, (p, n) ∈ m.measurements → ∀ cm,
      Ex.dev.prms.get? p = some (.circ cm) → WholeCircuit Ex.dev r.devCounts tableTest.numLots p cm n := by
    intro m hm p n hp cm hcm
    have e : p = "delay" ∧ cm = { compute := Ex.eqn2 "vth" "vdd" PyArith.mul } := by
      rcases List.mem_cons.1 (Dict.mem_of_get? hcm) with h | h
      · cases h
      · cases List.mem_singleton.1 h; exact ⟨rfl, rfl⟩
    obtain ⟨rfl, rfl⟩ := e
    have hn : n = 2 := by
      simp only [tableTest, List.mem_cons, List.not_mem_nil, or_false] at hm
      rcases hm with h | h | h <;> cases h <;> simpa using hp
    subst hn
    refine ⟨eqn2_shapes _ _ _, hr.2, fun q d _ hd => ?_, by decide⟩
    rcases List.mem_cons.1 (Dict.mem_of_get? hd) with h | h
    · cases h; exact hr.1
    · cases List.mem_singleton.1 h
  have hl := C80_layout hnd ex_mechs ex_shapes h' hnm hc
  refine ⟨r, h, (C80_size hnd ex_mechs ex_shapes h' hnm hc).trans (by decide +kernel), hl, ?_⟩
  have e : (entry <$> r.measurements.getLast?) = (r.measurements.map entry).getLast? := by simp
  rw [e, hl]
  norm_num [layout, stepLayout, requested, places, tableTest, stressLen, Spec.timeVal, Ex.dev, Dict.get?_cons, List.range_succ,
    show ("vth" = "temp") = False by decide, show ("delay" = "temp") = False by decide,
    show ("vth" = "delay") = False by decide]

end Gerabaldi.Props
