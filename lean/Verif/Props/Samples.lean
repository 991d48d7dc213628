import Verif.Lemmas.State
import Verif.Props.Init
import Verif.Props.Report
import Verif.Props.TestSpec

/-! # The rows of a measurement: C44 -/

set_option linter.unusedSectionVars false

namespace Gerabaldi.Props
open Spec

variable {W V : Type} [PyNum V] [Rng W V]

/-! ## Instruments keep the number of values -/

theorem mapExcept_length {α β : Type} {f : α → Except Err β} {xs : List α} {ys : List β}
    (h : mapExcept f xs = .ok ys) : ys.length = xs.length := by
  induction xs generalizing ys with
  | nil => cases h; rfl
  | cons x rest ih =>
    unfold mapExcept at h
    cases h1 : f x with
    | error e => rw [h1] at h; cases h
    | ok y =>
      rw [h1] at h
      cases h2 : mapExcept f rest with
      | error e => rw [h2] at h; cases h
      | ok zs =>
        rw [h2] at h
        cases h
        simp [ih h2]

theorem measureVals_length [LawfulRng W V] {ins : Instrument V} {xs ys : List V} {w w' : W}
    (h : ins.measureVals xs w = (.ok ys, w')) : ys.length = xs.length := by
  unfold Instrument.measureVals at h
  obtain ⟨noisy, w1, h1, g1⟩ := M.bind_eq_ok.1 h
  obtain ⟨rounded, h2, g2⟩ := M.ofExcept_bind_ok.1 g1
  cases g2
  have e1 : noisy.length = xs.length := by
    unfold Instrument.addNoise at h1
    cases hr : ins.error with
    | none => rw [hr] at h1; cases h1; rfl
    | some rv =>
      rw [hr] at h1
      obtain ⟨es, h3, rfl⟩ := M.bind_pure_ok.1 h1
      have := sample_length h3
      simp [this]
  have e2 : rounded.length = noisy.length := by
    unfold Instrument.applyPrecision at h2
    split at h2
    · cases h2; rfl
    · split at h2
      · cases h2; rfl
      · exact mapExcept_length h2
  have e3 : (ins.applyRange rounded).length = rounded.length := by
    unfold Instrument.applyRange
    split
    · rfl
    · simp
  omega

/-! ## The rows of one name -/

theorem rowsOf_append (a b : List (MeasRow V)) (prm : String) :
    rowsOf (a ++ b) prm = rowsOf a prm ++ rowsOf b prm := List.filter_append ..

theorem rowsOf_self {rows : List (MeasRow V)} {prm : String} (h : ∀ x ∈ rows, x.prm = prm) :
    rowsOf rows prm = rows := List.filter_eq_self.2 fun x hx => by simp [h x hx]

theorem rowsOf_other {rows : List (MeasRow V)} {prm : String} (h : ∀ x ∈ rows, x.prm ≠ prm) :
    rowsOf rows prm = [] := List.filter_eq_nil_iff.2 fun x hx => by simp [h x hx]

theorem zip_rows {t : List (MeasRow V)} {ys : List V} (h : ys.length = t.length) :
    (List.zipWith (fun r y => { r with measured := y }) t ys).map place = t.map place ∧
    (List.zipWith (fun r y => { r with measured := y }) t ys).map (·.prm) = t.map (·.prm) ∧
    (List.zipWith (fun r y => { r with measured := y }) t ys).map (·.step) = t.map (·.step) := by
  induction t generalizing ys with
  | nil => simp
  | cons r rest ih =>
    cases ys with
    | nil => simp at h
    | cons y ys =>
      obtain ⟨h1, h2, h3⟩ := ih (ys := ys) (by simpa using h)
      simp only [List.zipWith_cons_cons, List.map_cons, h1, h2, h3, place, and_self]

/-- The places of the rows of one measured name are those of its true values. -/
theorem measLoop_rows [LawfulRng W V] {q : Quantities} {dev : DeviceMdl W V} {env : PhysTestEnv V}
    {step : MeasSpec V} {i : Nat} {s : SimState V} {conds : Dict (Dict (Arr3 V))} {ms : Dict Nat}
    (hnd : ms.Nodup) {acc rows : List (MeasRow V)} {w w' : W}
    (h : M.forIn' (measurePrm q dev env step i s conds) ms acc w = (.ok rows, w')) :
    (∀ prm, prm ∉ ms.keys → rowsOf rows prm = rowsOf acc prm) ∧
    ∀ prm n, (prm, n) ∈ ms → ∃ (t : List (MeasRow V)) (u u' : W),
      measureTrue q dev step i s conds prm n u = (.ok t, u') ∧
      (rowsOf rows prm).map place = (rowsOf acc prm).map place ++ t.map place := by
  induction ms generalizing acc w with
  | nil =>
    cases h
    exact ⟨fun _ _ => rfl, fun _ _ h => by cases h⟩
  | cons kv rest ih =>
    obtain ⟨acc1, w1, h1, h2⟩ := M.bind_eq_ok.1 h
    obtain ⟨hk, hnd'⟩ := List.nodup_cons.1 hnd
    obtain ⟨t, ins, ys, w2, ht, _, hy, rfl⟩ := measurePrm_ok h1
    obtain ⟨i1, i2⟩ := ih hnd' h2
    have hlen : ys.length = t.length := by simpa using measureVals_length hy
    have hprm : ∀ x ∈ List.zipWith (fun (r : MeasRow V) y => { r with measured := y }) t ys,
        x.prm = kv.1 := by
      intro x hx
      have : x.prm ∈ t.map (·.prm) := by
        rw [← (zip_rows hlen).2.1]
        exact List.mem_map_of_mem hx
      obtain ⟨y, hy, he⟩ := List.mem_map.1 this
      rw [← he]
      exact (measureTrue_step ht y hy).2.1
    refine ⟨?_, ?_⟩
    · intro prm hp
      have hne : prm ≠ kv.1 := fun h => hp (by rw [h]; exact List.mem_cons_self)
      rw [i1 prm fun h => hp (List.mem_cons_of_mem _ h), rowsOf_append,
        rowsOf_other (rows := List.zipWith _ t ys) fun x hx => by rw [hprm x hx]; exact Ne.symm hne,
        List.append_nil]
    · intro prm n hp
      rcases List.mem_cons.1 hp with rfl | hp
      · refine ⟨t, w, w2, ht, ?_⟩
        rw [i1 _ hk, rowsOf_append, rowsOf_self hprm, List.map_append, (zip_rows hlen).1]
      · have hne : prm ≠ kv.1 := by
          rintro rfl
          exact hk (List.mem_map.2 ⟨_, hp, rfl⟩)
        obtain ⟨t', u, u', g1, g2⟩ := i2 prm n hp
        refine ⟨t', u, u', g1, ?_⟩
        rw [g2, rowsOf_append, rowsOf_other (rows := List.zipWith _ t ys) fun x hx => by
          rw [hprm x hx]; exact Ne.symm hne, List.append_nil]

/-! ## The state at the start -/

theorem genInitVals_arr {d : DegPrmMdl W V} {N : Nat → Prop} (hd : ShapeSafe d.initMdl.compute N)
    (hl : d.initMdl.latentVars ≠ []) {n C L : Nat} {w w' : W}
    {v : PyVal V} (h : genInitVals d.initMdl n C L w = (.ok v, w')) (hN : N (L * C * n) := by trivial) :
    ∃ a, v = .arr a ∧ a.HasDims L C n := by
  obtain ⟨lat, w1, h1, h2⟩ := M.bind_eq_ok.1 h
  have hdims := genLatent_dims h1
  have hu : uniformShape (lat.map fun kv => (kv.1, PyVal.arr kv.2)) L C n := by
    intro k a hk
    obtain ⟨kv, hkv, he⟩ := List.mem_map.1 hk
    cases he
    exact hdims _ _ hkv
  obtain ⟨g1, g2⟩ := invoke_dims hd hu h2 hN
  have hne : lat ≠ [] := by
    rintro rfl
    have := M.mapList_length h1
    simp only [List.length_nil] at this
    exact hl (List.length_eq_zero_iff.1 this.symm)
  obtain ⟨kv, rest, rfl⟩ := List.exists_cons_of_ne_nil hne
  obtain ⟨a, rfl⟩ := g2 ⟨kv.1, kv.2, by simp [Dict.get?_cons]⟩
  exact ⟨a, rfl, g1 a rfl⟩

/-- A generated state has the dimensions of the test, and enough devices of everything measured. -/
theorem simStart_shape_of {dev : DeviceMdl W V} (hnd : dev.prms.Nodup) {N : Nat → Prop}
    (hs : ∀ p d, dev.prms.get? p = some (.deg d) → ShapeSafe d.initMdl.compute N ∧
      d.initMdl.latentVars ≠ []) {test : TestSpec V}
    {s : SimState V} {r : SimReport V} {w w' : W}
    (h : simStart dev test none w = (.ok (s, r), w'))
    (hN : SizesIn N r.info := by intro _ _ _; trivial) :
    StateShape dev r.info s ∧ r.numLots = test.numLots ∧ r.numChps = test.numChps ∧
      r.measurements = [] ∧ EnoughDevices dev (calcSamplesNeeded test.steps) r.devCounts := by
  obtain ⟨x, w1, h1, h2⟩ := M.bind_eq_ok.1 h
  obtain ⟨s1, w2, h3, h4⟩ := M.bind_eq_ok.1 h1
  cases h4
  cases h2
  obtain ⟨s0, w3, h5, h6⟩ := M.bind_eq_ok.1 h3
  cases h6
  obtain ⟨_, a2, a3, a4, a5⟩ := devInit_ok hnd h5
  refine ⟨?_, rfl, rfl, rfl, augment_enough ..⟩
  have e : withElapsed s0 (.td 0) = { s0 with elapsed := .td 0 } := rfl
  rw [e]
  refine ⟨?_, ?_, a5⟩
  · intro p m hp
    obtain ⟨n, lat, b1, b2, ⟨u, u', b3⟩, _⟩ := a4 p m hp
    exact ⟨n, lat, b1, b2, prmLatents_dims b3⟩
  · intro p d n hp hn
    obtain ⟨n', lat, b1, b2, _, b4, v, u, u', b5, b6⟩ := a4 p _ hp
    have : n' = n := by
      exact Option.some.inj (Eq.trans (Eq.symm b1) hn)
    subst this
    obtain ⟨a, rfl, ha⟩ := genInitVals_arr (hs p d hp).1 (hs p d hp).2 b5 (hN p n' hn)
    have hk : (d.genInitMechVals n' test.numChps test.numLots).keys = d.mechs.keys := by
      simp [DegPrmMdl.genInitMechVals, Dict.keys, Function.comp_def]
    exact ⟨⟨a, b6, ha⟩, ⟨a, by show s0.initPrm.get? p = _; rw [a2]; exact b6, ha⟩,
      ⟨_, b4, hk, initMech_dims d n' _ _⟩,
      ⟨_, by show s0.initMech.get? p = _; rw [a3]; exact b4, hk, initMech_dims d n' _ _⟩⟩

/-- A generated state has the dimensions of the test, and enough devices of everything measured. -/
theorem simStart_shape {dev : DeviceMdl W V} (hnd : dev.prms.Nodup) {N : Nat → Prop}
    (hs : ∀ p d, dev.prms.get? p = some (.deg d) → DegShapes d N) {test : TestSpec V}
    {s : SimState V} {r : SimReport V} {w w' : W}
    (h : simStart dev test none w = (.ok (s, r), w'))
    (hN : SizesIn N r.info := by intro _ _ _; trivial) :
    StateShape dev r.info s ∧ r.numLots = test.numLots ∧ r.numChps = test.numChps ∧
      r.measurements = [] ∧ EnoughDevices dev (calcSamplesNeeded test.steps) r.devCounts :=
  simStart_shape_of hnd (fun p d hp => ⟨(hs p d hp).init, (hs p d hp).initLatents⟩) h hN

/-! ## The rows of one step of a simulation -/

theorem runDelta_steps {ord : SetOrder} {dev : DeviceMdl W V} {env : PhysTestEnv V} {q : Quantities}
    {i : Nat} {steps : List (Step V)} {s s' : SimState V} {rows : List (MeasRow V)}
    {lines : List (SumRow V)} {w w' : W}
    (h : runDelta ord dev env q i steps s w = (.ok (s', rows, lines), w')) :
    ∀ x ∈ rows, i ≤ x.step ∧ x.step < i + steps.length := by
  induction steps generalizing i s rows lines w with
  | nil => cases h; exact fun x hx => absurd hx List.not_mem_nil
  | cons st rest ih =>
    obtain ⟨s1, rows1, lines1, rows2, lines2, w1, h1, h2, rfl, rfl⟩ := runDelta_cons_ok.1 h
    have k1 := ih h2
    have hs := stepDelta_step h1
    intro x hx
    rw [List.length_cons]
    rcases List.mem_append.1 hx with hx | hx
    · have := hs x hx; omega
    · have := k1 x hx; omega

theorem filter_step_nil {rows : List (MeasRow V)} {j : Nat} (h : ∀ x ∈ rows, x.step ≠ j) :
    rows.filter (fun x => x.step == j) = [] := List.filter_eq_nil_iff.2 fun x hx => by simp [h x hx]

/-- The measurement step at one position of a simulation: the state it sees and the rows it adds. -/
theorem simulate_meas {ord : SetOrder} {dev : DeviceMdl W V} {env : PhysTestEnv V}
    (hnd : dev.prms.Nodup) (hm : ∀ p d, dev.prms.get? p = some (.deg d) → d.mechs.Nodup)
    {N : Nat → Prop} (hs : ∀ p d, dev.prms.get? p = some (.deg d) → DegShapes d N) {test : TestSpec V}
    {r : SimReport V} {w w' : W} (h : simulate ord test dev env none w = (.ok r, w'))
    {pre post : List (Step V)} {step : MeasSpec V} (ht : test.steps = pre ++ .meas step :: post)
    (hN : SizesIn N r.info := by intro _ _ _; trivial) :
    ∃ s rows lines w1 w2, StateShape dev r.info s ∧ r.numLots = test.numLots ∧
      r.numChps = test.numChps ∧ EnoughDevices dev (calcSamplesNeeded test.steps) r.devCounts ∧
      measDelta ord dev env r.info pre.length step s w1 = (.ok (s, rows, lines), w2) ∧
      r.measurements.filter (fun x => x.step == pre.length) = rows := by
  obtain ⟨⟨sf, rf⟩, w1, h1, h2⟩ := M.bind_eq_ok.1 h
  cases h2
  obtain ⟨⟨s0, r0⟩, w2, h3, h4⟩ := M.bind_eq_ok.1 h1
  obtain ⟨g1, g2, g3, g4, g5⟩ := simStart_shape hnd hs h3 (by
    obtain ⟨rows, lines, _, he⟩ := runSteps_ok.1 h4
    subst he
    exact hN)
  rw [ht] at h4
  obtain ⟨rows, lines, h5, rfl⟩ := runSteps_ok.1 h4
  rw [runDelta_append] at h5
  obtain ⟨⟨s1, rows1, lines1⟩, w3, h6, h7⟩ := M.bind_eq_ok.1 h5
  obtain ⟨⟨s2, rows2, lines2⟩, h8, h9⟩ := M.bind_pure_ok.1 h7
  cases h9
  obtain ⟨s3, rows3, lines3, rows4, lines4, w4, h10, h11, rfl, rfl⟩ := runDelta_cons_ok.1 h8
  have hsh : StateShape dev r0.info s1 :=
    (runSteps_shape hnd hm hs (sr := (s0, r0)) (sr' := (s1, r0.grow rows1 lines1)) g1
      (runSteps_ok.2 ⟨rows1, lines1, h6, rfl⟩) hN).1
  obtain ⟨_, _, _, _, rfl, _⟩ := measDelta_ok h10
  rw [Nat.zero_add] at h10 h11
  refine ⟨s3, rows3, lines3, w3, w4, hsh, g2, g3, g5, h10, ?_⟩
  show (r0.measurements ++ (rows1 ++ (rows3 ++ rows4))).filter _ = _
  rw [g4, List.nil_append, List.filter_append, List.filter_append,
    filter_step_nil fun x hx => by have := runDelta_steps h6 x hx; omega,
    filter_step_nil (rows := rows4) fun x hx => by have := runDelta_steps h11 x hx; omega]
  rw [List.nil_append, List.append_nil]
  exact List.filter_eq_self.2 fun x hx => by simp [(measDelta_step h10 x hx).1]

theorem rowsAt_eq (rows : List (MeasRow V)) (j : Nat) (prm : String) :
    rowsAt rows j prm = rowsOf (rows.filter fun x => x.step == j) prm := by
  unfold rowsAt rowsOf
  rw [List.filter_filter]
  congr 1
  funext x
  exact Bool.and_comm ..

/-- The rows of one measured name at one position of a simulation. -/
theorem simulate_rows [LawfulRng W V] {ord : SetOrder} {dev : DeviceMdl W V} {env : PhysTestEnv V}
    (hnd : dev.prms.Nodup) (hm : ∀ p d, dev.prms.get? p = some (.deg d) → d.mechs.Nodup)
    {N : Nat → Prop} (hs : ∀ p d, dev.prms.get? p = some (.deg d) → DegShapes d N) {test : TestSpec V}
    {r : SimReport V} {w w' : W} (h : simulate ord test dev env none w = (.ok r, w'))
    {pre post : List (Step V)} {step : MeasSpec V} (ht : test.steps = pre ++ .meas step :: post)
    (hnm : step.measurements.Nodup) {prm : String} {n : Nat} (hp : (prm, n) ∈ step.measurements)
    (hN : SizesIn N r.info := by intro _ _ _; trivial) :
    ∃ s conds t w1 w2 u u', StateShape dev r.info s ∧ r.numLots = test.numLots ∧
      r.numChps = test.numChps ∧ EnoughDevices dev (calcSamplesNeeded test.steps) r.devCounts ∧
      env.genEnvCondVals ord step.conditions (.counts step.measurements) (some r.info) (some dev)
        .measure 1 1 w1 = (.ok conds, w2) ∧
      measureTrue r.info dev step pre.length s conds prm n u = (.ok t, u') ∧
      (rowsAt r.measurements pre.length prm).map place = t.map place := by
  obtain ⟨s, rows, lines, w1, w2, h1, h2, h3, h4, h5, h6⟩ := simulate_meas hnd hm hs h ht hN
  obtain ⟨conds, w3, h7, h8, _⟩ := measDelta_ok h5
  obtain ⟨t, u, u', h9, h10⟩ := (measLoop_rows hnm h8).2 prm n hp
  refine ⟨s, conds, t, w1, w3, u, u', h1, h2, h3, h4, h7, h9, ?_⟩
  rw [rowsAt_eq, h6, h10]
  rfl

/-! ## C44 -/

theorem expectedRows_places {L C D : Nat} {f : Nat → Nat → Nat → V} {prm : String} {t : TimeVal}
    {i : Nat} : (expectedRows L C D f prm t i).map place = places L C D := by
  unfold expectedRows places
  simp only [List.map_flatMap, List.map_map]
  rfl

theorem format_places {a : Arr3 V} {L C D : Nat} (ha : a.HasDims L C D) {prm : String} {t : TimeVal}
    {i : Nat} {rows : List (MeasRow V)} (h : formatMeasurements (.arr a) prm t i .parameter = .ok rows) :
    rows.map place = places L C D := by
  rw [C38_rows] at h
  cases h
  rw [expectedRows_places, ha.1, ha.2.1, ha.2.2]

theorem reduceLatents_dims {lat : Dict (LatNode V)} {L C D n : Nat} (hl : LatDims lat L C D)
    (hn : n ≤ D) : LatDims (reduceLatents lat n) L C n := by
  intro k x hx
  obtain ⟨⟨k', y⟩, hy, he⟩ := List.mem_map.1 hx
  have h0 := hl k' y hy
  have hdims : ∀ a : Arr3 V, a.HasDims L C D → (a.takeDev n).HasDims L C n := by
    rintro a ⟨rfl, rfl, rfl⟩
    exact Arr3.takeDev_hasDims a hn
  cases y with
  | arr a =>
    cases he
    exact hdims _ h0
  | sub d =>
    cases he
    intro j a hj
    obtain ⟨⟨j', b⟩, hb, he⟩ := List.mem_map.1 hj
    cases he
    exact hdims _ (h0 _ _ hb)

theorem shiftArgs_uniform (d : DegPrmMdl W V) {cur : Arr3 V} {c : PyVal V} {lat : Dict (LatNode V)}
    {L C n : Nat} (hcur : cur.HasDims L C n) (hc : ∀ a, c = .arr a → a.HasDims L C n)
    (hl : LatDims lat L C n) : uniformShape (d.shiftArgs cur c lat) L C n := by
  refine fillMissing_uniform ?_ (ownLatent_dims hl)
  intro k a hk
  rcases Dict.mem_update hk with hk | hk
  · obtain ⟨kv, hkv, he⟩ := List.mem_map.1 hk
    cases he
  · rcases List.mem_cons.1 hk with hk | hk
    · cases hk
      exact hcur
    · cases List.mem_singleton.1 hk
      exact hc _ rfl

theorem shiftArgs_arr {d : DegPrmMdl W V} (hd : "init" ∉ d.mechs.keys) {cur : Arr3 V} {c : PyVal V}
    {lat : Dict (LatNode V)} : ∃ k b, (d.shiftArgs cur c lat).get? k = some (PyVal.arr b) := by
  obtain ⟨b, hb⟩ := update_arr (d := [("init", PyVal.arr cur), ("cond", c)])
    (d' := d.mechs.map fun kv => (kv.1, PyVal.scal kv.2.unitary)) (k := "init") ⟨cur, rfl⟩ (by
      intro v hv
      obtain ⟨kv, hkv, he⟩ := List.mem_map.1 hv
      refine absurd ?_ hd
      exact List.mem_map.2 ⟨kv, hkv, congrArg Prod.fst he⟩)
  exact ⟨_, b, fillMissing_arr hb⟩

/-- The values read from a degraded parameter, cut to the number of samples asked for. -/
theorem condShifted_dims {d : DegPrmMdl W V} {N : Nat → Prop} (hd : DegShapes d N) {L C D n : Nat} {a : Arr3 V}
    (ha : a.HasDims L C D) (hn : n ≤ D) {lat : Dict (LatNode V)} (hl : LatDims lat L C D)
    {cs : Dict (Arr3 V)} (hc : GetDims cs L C n) {w w' : W} {v : PyVal V}
    (h : d.calcCondShifted L C n cs (.arr a) lat w = (.ok v, w'))
    (hN : N (L * C * n) := by trivial) : ∃ b, v = .arr b ∧ b.HasDims L C n := by
  unfold DegPrmMdl.calcCondShifted at h
  simp only at h
  obtain ⟨clat, h1, h2⟩ := M.ofExcept_bind_ok.1 h
  obtain ⟨c, w1, h3, h4⟩ := M.bind_eq_ok.1 h2
  have hlat : LatDims (if n < a.nd then reduceLatents lat n else lat) L C n := by
    split
    · exact reduceLatents_dims hl hn
    · have : n = D := by have := ha.2.2; omega
      subst this
      exact hl
  have hcur : (if n < a.nd then a.takeDev n else a).HasDims L C n := by
    split
    · obtain ⟨rfl, rfl, rfl⟩ := ha
      exact Arr3.takeDev_hasDims a hn
    · have : n = D := by have := ha.2.2; omega
      subst this
      exact ha
  have hcv := (computeOrLoop_dims hd.cond (fillArgs_uniform (fun k a h => by cases h)
    (lookup2_dims (subLatents_dims hlat h1) hc)) h3 hN).1
  exact computeOrLoop_arr hd.eqn (shiftArgs_uniform d hcur hcv hlat) (shiftArgs_arr hd.noInit) h4 hN
    (ownArrays_args (fun k hk => by simpa [Dict.keys, Function.comp_def] using hk) _ _)

/-- **C44** for degraded parameters: a step that asks for `n` samples adds exactly one row for every lot,
chip and device below `n`. -/
theorem C44_parameter [LawfulRng W V] {ord : SetOrder} {dev : DeviceMdl W V} {env : PhysTestEnv V}
    (hnd : dev.prms.Nodup) (hm : ∀ p d, dev.prms.get? p = some (.deg d) → d.mechs.Nodup)
    {N : Nat → Prop} (hs : ∀ p d, dev.prms.get? p = some (.deg d) → DegShapes d N) {test : TestSpec V}
    {r : SimReport V} {w w' : W} (h : simulate ord test dev env none w = (.ok r, w'))
    {pre post : List (Step V)} {step : MeasSpec V} (ht : test.steps = pre ++ .meas step :: post)
    (hnm : step.measurements.Nodup) {prm : String} {n : Nat} (hp : (prm, n) ∈ step.measurements)
    {d : DegPrmMdl W V} (hd : dev.prms.get? prm = some (.deg d))
    (hN : SizesIn N r.info := by intro _ _ _; trivial)
    (hn : N (test.numLots * test.numChps * n) := by trivial) :
    (rowsAt r.measurements pre.length prm).map place = places test.numLots test.numChps n := by
  obtain ⟨s, conds, t, w1, w2, u, u', h1, h2, h3, h4, h5, h6, h7⟩ :=
    simulate_rows hnd hm hs h ht hnm hp hN
  obtain ⟨D, lat, g1, g2, g3⟩ := h1.count prm _ hd
  have hle : n ≤ D := by
    cases hb : (calcSamplesNeeded test.steps).get? prm with
    | none =>
      refine absurd ⟨step, ?_, hp⟩ (((C08_max test.steps prm).2.1 hb) n)
      rw [ht]; simp
    | some k =>
      obtain ⟨k', hk', hkk⟩ := h4.keeps hb
      rw [show r.devCounts.get? prm = some D from g1] at hk'
      cases hk'
      refine Nat.le_trans (((C08_max test.steps prm).1 k |>.1 hb).2 n ⟨step, ?_, hp⟩) hkk
      rw [ht]; simp
  obtain ⟨a, ha, had⟩ := (h1.deg prm d D hd g1).prm
  unfold measureTrue at h6
  rw [ha, hd] at h6
  simp only at h6
  obtain ⟨cs, k1, h8⟩ := M.getE_bind_ok.1 h6
  obtain ⟨lat', k2, h9⟩ := M.getE_bind_ok.1 h8
  rw [g2] at k2
  cases k2
  obtain ⟨v, w3, h10, h11⟩ := M.bind_eq_ok.1 h9
  have hcs := conds_dims h5 rfl (show prm ∈ Dict.keys _ from List.mem_map_of_mem hp)
    (Dict.mem_keys_of_get? hd) (Dict.get?_of_mem hnm hp) k1
  have e1 : r.info.numLots = test.numLots := h2
  have e2 : r.info.numChps = test.numChps := h3
  obtain ⟨b, rfl, hb⟩ := condShifted_dims (hs prm d hd) had hle g3 hcs h10 (by rw [e1, e2]; exact hn)
  rw [e1, e2] at hb
  rw [h7]
  exact format_places hb (M.ofExcept_eq_ok.1 h11).1

/-- **C44** for conditions: `n` samples of a condition are `n` rows without device indices. -/
theorem C44_condition [LawfulRng W V] {ord : SetOrder} {dev : DeviceMdl W V} {env : PhysTestEnv V}
    (hnd : dev.prms.Nodup) (hm : ∀ p d, dev.prms.get? p = some (.deg d) → d.mechs.Nodup)
    {N : Nat → Prop} (hs : ∀ p d, dev.prms.get? p = some (.deg d) → DegShapes d N) {test : TestSpec V}
    {r : SimReport V} {w w' : W} (h : simulate ord test dev env none w = (.ok r, w'))
    {pre post : List (Step V)} {step : MeasSpec V} (ht : test.steps = pre ++ .meas step :: post)
    (hnm : step.measurements.Nodup) (hnc : step.conditions.Nodup) {cond : String} {n : Nat}
    (hp : (cond, n) ∈ step.measurements) (hd : dev.prms.get? cond = none)
    (hN : SizesIn N r.info := by intro _ _ _; trivial) :
    (rowsAt r.measurements pre.length cond).map place = List.replicate n (none, none, none) := by
  obtain ⟨s, conds, t, w1, w2, u, u', h1, h2, h3, h4, h5, h6, h7⟩ :=
    simulate_rows hnd hm hs h ht hnm hp hN
  unfold measureTrue at h6
  rw [h1.only cond (fun d => by rw [hd]; simp), hd] at h6
  simp only at h6
  split at h6
  · rename_i hc
    obtain ⟨v, hv⟩ := Option.isSome_iff_exists.1 hc
    obtain ⟨cs, k1, h8⟩ := M.getE_bind_ok.1 h6
    obtain ⟨b, k2, h9⟩ := M.getE_bind_ok.1 h8
    obtain ⟨a, n', counts, x, ys, zs, v1, v2, v3, v4, v5, b1, b2, b3, b4, _⟩ := C18_sensor hnc h5 hv
      (show cond ∈ Dict.keys _ from List.mem_map_of_mem hp) (fun dm hdm => by cases hdm; exact hd)
    cases b2
    rw [Dict.get?_of_mem hnm hp] at b3
    cases b3
    rw [k1] at b1
    cases b1
    simp only [Dict.get?_cons, if_true] at k2
    cases k2
    have h10 := (M.ofExcept_eq_ok.1 h9).1
    rw [C38_condition] at h10
    cases h10
    rw [h7, conditionRows, List.map_map]
    have hl : b.data.length = n := by
      rw [b.wf, b4.1, b4.2.1, b4.2.2]; omega
    rw [← hl]
    exact List.map_const' (b := (none, none, none))
  · cases h6

/-- The arguments of a circuit parameter all have the same shape when the values it reads do. -/
theorem circArgs_uniform {m : LatentMdl W V} {conds : Dict (Arr3 V)} {prmVals : Dict (PyVal V)}
    {lat : Dict (LatNode V)} {L C n : Nat} (hc : GetDims conds L C n) (hl : LatDims lat L C n)
    (hv : ∀ k ∈ m.compute.argNames, ∀ a, prmVals.get? k = some (.arr a) → a.HasDims L C n) :
    uniformShape (circArgs m conds prmVals lat) L C n := by
  unfold circArgs
  generalize m.compute.argNames = names at hv
  suffices ∀ acc : Dict (PyVal V), uniformShape acc L C n → uniformShape (fillArgs (fun arg =>
      match ownLatent lat arg with
      | some v => some v
      | none => match conds.get? arg with
        | some a => some (.arr a)
        | none => prmVals.get? arg) names acc) L C n from this [] fun k a h => by cases h
  induction names with
  | nil => exact fun acc h => h
  | cons k rest ih =>
    intro acc ha
    refine ih (fun j hj => hv j (List.mem_cons_of_mem _ hj)) _ ?_
    have key : ∀ v, (match ownLatent lat k with
      | some v => some v
      | none => match conds.get? k with
        | some a => some (.arr a)
        | none => prmVals.get? k) = some v → ∀ a, v = .arr a → a.HasDims L C n := by
      intro v hv' a ha'
      subst ha'
      split at hv'
      · rename_i x hx
        cases hv'
        exact ownLatent_dims hl _ _ hx
      · split at hv'
        · rename_i b hb
          cases hv'
          exact hc _ _ hb
        · exact hv k List.mem_cons_self a hv'
    cases hx : (match ownLatent lat k with
      | some v => some v
      | none => match conds.get? k with
        | some a => some (.arr a)
        | none => prmVals.get? k) with
    | none => simp only [hx]; exact ha
    | some v =>
      simp only [hx]
      intro j a hj
      rcases Dict.mem_set hj with h | h
      · cases h
        exact key _ hx a rfl
      · exact ha _ _ h

/-- The rows of a circuit parameter when exactly `n` devices of it and of everything it reads exist: the
code cuts the lots, not the devices, to `n`. -/
theorem circuit_places [LawfulRng W V] {ord : SetOrder} {dev : DeviceMdl W V} {env : PhysTestEnv V}
    (hnd : dev.prms.Nodup) (hm : ∀ p d, dev.prms.get? p = some (.deg d) → d.mechs.Nodup)
    (hs : ∀ p d, dev.prms.get? p = some (.deg d) → DegShapes d) {test : TestSpec V}
    {r : SimReport V} {w w' : W} (h : simulate ord test dev env none w = (.ok r, w'))
    {pre post : List (Step V)} {step : MeasSpec V} (ht : test.steps = pre ++ .meas step :: post)
    (hnm : step.measurements.Nodup) {prm : String} {n : Nat} (hp : (prm, n) ∈ step.measurements)
    {m : LatentMdl W V} (hd : dev.prms.get? prm = some (.circ m)) (hf : ShapeSafe m.compute)
    (hown : r.devCounts.get? prm = some n)
    (hread : ∀ p d, p ∈ m.compute.argNames → dev.prms.get? p = some (.deg d) →
      r.devCounts.get? p = some n) :
    (rowsAt r.measurements pre.length prm).map place =
      places (min n test.numLots) test.numChps n := by
  obtain ⟨s, conds, t, w1, w2, u, u', h1, h2, h3, h4, h5, h6, h7⟩ :=
    simulate_rows hnd hm hs h ht hnm hp
  obtain ⟨D, lat, g1, g2, g3⟩ := h1.count prm _ hd
  rw [show r.info.devCounts.get? prm = some n from hown] at g1
  cases g1
  unfold measureTrue at h6
  rw [h1.only prm (fun d => by rw [hd]; simp), hd] at h6
  simp only at h6
  obtain ⟨cs, k1, h8⟩ := M.getE_bind_ok.1 h6
  obtain ⟨lat', k2, h9⟩ := M.getE_bind_ok.1 h8
  rw [g2] at k2
  cases k2
  obtain ⟨v, w3, h10, h11⟩ := M.bind_eq_ok.1 h9
  obtain ⟨v0, w4, h12, h13⟩ := M.bind_eq_ok.1 h10
  have hcs := conds_dims h5 rfl (show prm ∈ Dict.keys _ from List.mem_map_of_mem hp)
    (Dict.mem_keys_of_get? hd) (Dict.get?_of_mem hnm hp) k1
  have hu : uniformShape (circArgs m cs s.currPrm lat) r.info.numLots r.info.numChps n := by
    refine circArgs_uniform hcs g3 fun k hk a ha => ?_
    by_cases hdeg : ∃ d, dev.prms.get? k = some (.deg d)
    · obtain ⟨d, hd'⟩ := hdeg
      obtain ⟨b, hb, hbd⟩ := (h1.deg k d n hd' (hread k d hk hd')).prm
      rw [ha] at hb
      cases hb
      exact hbd
    · rw [h1.only k fun d hd' => hdeg ⟨d, hd'⟩] at ha
      cases ha
  have hdims := (invoke_dims hf hu h12).1
  obtain ⟨h14, rfl⟩ := M.ofExcept_eq_ok.1 h13
  unfold sliceTriple at h14
  split at h14
  · rename_i a
    cases h14
    obtain ⟨d1, d2, d3⟩ := hdims a rfl
    have e1 : r.info.numLots = test.numLots := h2
    have e2 : r.info.numChps = test.numChps := h3
    rw [e1] at d1
    rw [e2] at d2
    have hb : (a.takeLot n).HasDims (min n test.numLots) test.numChps n := by
      refine ⟨?_, d2, d3⟩
      show min n a.nl = _
      rw [d1]
    rw [h7]
    exact format_places hb (M.ofExcept_eq_ok.1 h11).1
  · cases h14

/-- **C44** for circuit parameters, with at least as many samples as lots and no spare devices. What is
missing: see `C44_circuit_violated` and `C44_spare_violated`. -/
theorem C44_circuit_partial [LawfulRng W V] {ord : SetOrder} {dev : DeviceMdl W V} {env : PhysTestEnv V}
    (hnd : dev.prms.Nodup) (hm : ∀ p d, dev.prms.get? p = some (.deg d) → d.mechs.Nodup)
    (hs : ∀ p d, dev.prms.get? p = some (.deg d) → DegShapes d) {test : TestSpec V}
    {r : SimReport V} {w w' : W} (h : simulate ord test dev env none w = (.ok r, w'))
    {pre post : List (Step V)} {step : MeasSpec V} (ht : test.steps = pre ++ .meas step :: post)
    (hnm : step.measurements.Nodup) {prm : String} {n : Nat} (hp : (prm, n) ∈ step.measurements)
    {m : LatentMdl W V} (hd : dev.prms.get? prm = some (.circ m)) (hf : ShapeSafe m.compute)
    (hown : r.devCounts.get? prm = some n)
    (hread : ∀ p d, p ∈ m.compute.argNames → dev.prms.get? p = some (.deg d) →
      r.devCounts.get? p = some n) (hn : test.numLots ≤ n) :
    (rowsAt r.measurements pre.length prm).map place = places test.numLots test.numChps n := by
  rw [circuit_places hnd hm hs h ht hnm hp hd hf hown hread, Nat.min_eq_right hn]

theorem places_length (L C D : Nat) : (places L C D).length = L * (C * D) := by
  simp [places, List.length_flatMap]

/-- **C44** is violated for circuit parameters measured with fewer samples than there are lots: whole lots
are missing from the report. -/
theorem C44_circuit_violated [LawfulRng W V] {ord : SetOrder} {dev : DeviceMdl W V} {env : PhysTestEnv V}
    (hnd : dev.prms.Nodup) (hm : ∀ p d, dev.prms.get? p = some (.deg d) → d.mechs.Nodup)
    (hs : ∀ p d, dev.prms.get? p = some (.deg d) → DegShapes d) {test : TestSpec V}
    {r : SimReport V} {w w' : W} (h : simulate ord test dev env none w = (.ok r, w'))
    {pre post : List (Step V)} {step : MeasSpec V} (ht : test.steps = pre ++ .meas step :: post)
    (hnm : step.measurements.Nodup) {prm : String} {n : Nat} (hp : (prm, n) ∈ step.measurements)
    {m : LatentMdl W V} (hd : dev.prms.get? prm = some (.circ m)) (hf : ShapeSafe m.compute)
    (hown : r.devCounts.get? prm = some n)
    (hread : ∀ p d, p ∈ m.compute.argNames → dev.prms.get? p = some (.deg d) →
      r.devCounts.get? p = some n) (hn : n < test.numLots) (h0 : 0 < n) (hC : 0 < test.numChps) :
    (rowsAt r.measurements pre.length prm).length < test.numLots * (test.numChps * n) ∧
    ∀ x ∈ rowsAt r.measurements pre.length prm, x.lot ≠ some n := by
  have hpl := circuit_places hnd hm hs h ht hnm hp hd hf hown hread
  rw [Nat.min_eq_left (Nat.le_of_lt hn)] at hpl
  constructor
  · have := congrArg List.length hpl
    rw [List.length_map, places_length] at this
    rw [this]
    exact Nat.mul_lt_mul_of_pos_right hn (Nat.mul_pos hC h0)
  · intro x hx hl
    have : place x ∈ places n test.numChps n := hpl ▸ List.mem_map_of_mem hx
    simp only [places, List.mem_flatMap, List.mem_range, List.mem_map] at this
    obtain ⟨l, hl', c, _, d, _, he⟩ := this
    have := congrArg Prod.fst he
    simp only [place, hl, Option.some.injEq] at this
    omega

/-! ## The example device -/

theorem bin_dims {f : V → V → V} {x y v : PyVal V} {L C D : Nat}
    (hx : ∀ a, x = .arr a → a.HasDims L C D) (hy : ∀ a, y = .arr a → a.HasDims L C D)
    (h : PyVal.bin f x y = .ok v) :
    (∀ a, v = .arr a → a.HasDims L C D) ∧ ((∃ a, x = .arr a) ∨ (∃ a, y = .arr a) → ∃ a, v = .arr a) := by
  cases x with
  | arr a => cases y with
    | arr b =>
      simp only [PyVal.bin] at h
      cases hb : Arr3.bcast2 f a b with
      | error e => rw [hb] at h; cases h
      | ok r =>
        rw [hb] at h
        cases h
        exact ⟨fun c hc => by cases hc; exact bcast2_same_dims (hx _ rfl) (hy _ rfl) hb, fun _ => ⟨_, rfl⟩⟩
    | scal y => cases h; exact ⟨fun c hc => by cases hc; exact hx a rfl, fun _ => ⟨_, rfl⟩⟩
    | npscal y => cases h; exact ⟨fun c hc => by cases hc; exact hx a rfl, fun _ => ⟨_, rfl⟩⟩
  | scal x => cases y with
    | arr b => cases h; exact ⟨fun c hc => by cases hc; exact hy b rfl, fun _ => ⟨_, rfl⟩⟩
    | scal y => cases h; exact ⟨fun c hc => (nomatch hc), by rintro (⟨a, h⟩ | ⟨a, h⟩) <;> cases h⟩
    | npscal y => cases h; exact ⟨fun c hc => (nomatch hc), by rintro (⟨a, h⟩ | ⟨a, h⟩) <;> cases h⟩
  | npscal x => cases y with
    | arr b => cases h; exact ⟨fun c hc => by cases hc; exact hy b rfl, fun _ => ⟨_, rfl⟩⟩
    | scal y => cases h; exact ⟨fun c hc => (nomatch hc), by rintro (⟨a, h⟩ | ⟨a, h⟩) <;> cases h⟩
    | npscal y => cases h; exact ⟨fun c hc => (nomatch hc), by rintro (⟨a, h⟩ | ⟨a, h⟩) <;> cases h⟩

theorem invoke_ok {f : PyFun W V} {args : Dict (PyVal V)} {w w' : W} {v : PyVal V}
    (h : f.invoke args w = (.ok v, w')) : f.accepts args = true ∧ f.call args w = (.ok v, w') := by
  unfold PyFun.invoke at h
  split at h
  · rename_i ha
    exact ⟨ha, h⟩
  · cases h

/-- Arguments that a function without `**kwargs` accepts are parameters. -/
theorem accepts_mem {f : PyFun W V} {args : Dict (PyVal V)} (h : f.accepts args = true)
    (hk : f.kwName = none) {k : String} {v : PyVal V} (hv : args.get? k = some v) :
    k ∈ f.params.map (·.1) := by
  unfold PyFun.accepts at h
  rw [hk, Bool.and_eq_true] at h
  have := List.all_eq_true.1 ((Bool.false_or _).symm.trans h.2) _ (Dict.mem_of_get? hv)
  simp only [List.any_eq_true, beq_iff_eq] at this
  obtain ⟨p, hp, he⟩ := this
  exact List.mem_map.2 ⟨p, hp, he⟩

theorem eqn2_shapes (a b : String) (f : Ex.Q → Ex.Q → Ex.Q) {N : Nat → Prop} {A} : ShapeSafe (Ex.eqn2 a b f) N A := by
  intro args L C D w w' v _ _ hu h
  obtain ⟨h1, h2⟩ := invoke_ok h
  obtain ⟨h3, _⟩ := M.ofExcept_eq_ok.1 h2
  cases hx : args.get? a with
  | none => simp [Dict.getE, hx, bind, Except.bind] at h3
  | some x => cases hy : args.get? b with
    | none => simp [Dict.getE, hx, hy, bind, Except.bind] at h3
    | some y =>
      simp only [Dict.getE, hx, hy, bind, Except.bind] at h3
      obtain ⟨g1, g2⟩ := bin_dims (fun c hc => hu _ _ (Dict.mem_of_get? (hc ▸ hx)))
        (fun c hc => hu _ _ (Dict.mem_of_get? (hc ▸ hy))) h3
      refine ⟨g1, ?_⟩
      rintro ⟨k, c, hk⟩
      have hm := accepts_mem h1 rfl hk
      have hm' : k = a ∨ k = b := by simpa [Ex.eqn2] using hm
      rcases hm' with rfl | rfl
      · rw [hx] at hk; cases hk; exact g2 (.inl ⟨_, rfl⟩)
      · rw [hy] at hk; cases hk; exact g2 (.inr ⟨_, rfl⟩)

theorem argEqn_shapes (a : String) {N : Nat → Prop} {A} : ShapeSafe (argEqn a : PyFun W V) N A := by
  intro args L C D w w' v _ _ hu h
  obtain ⟨h1, h2⟩ := invoke_ok h
  have h3 := Dict.getE_eq_ok.1 (M.ofExcept_eq_ok.1 h2).1
  refine ⟨fun b hb => hu _ _ (Dict.mem_of_get? (hb ▸ h3)), ?_⟩
  rintro ⟨k, c, hk⟩
  have hm := accepts_mem h1 rfl hk
  have hm' : k = a := by simpa [argEqn] using hm
  subst hm'
  rw [hk] at h3
  cases h3
  exact ⟨_, rfl⟩

theorem constEqn_shapes (c : V) {N : Nat → Prop} {A} : ShapeSafe (constEqn c : PyFun W V) N A := by
  intro args L C D w w' v _ _ hu h
  obtain ⟨h1, h2⟩ := invoke_ok h
  cases h2
  refine ⟨fun b hb => (nomatch hb), ?_⟩
  rintro ⟨k, c, hk⟩
  have hm := accepts_mem h1 rfl hk
  cases hm

theorem sum_shapes {rest : Dict (PyVal V)} {L C D : Nat} (hu : uniformShape rest L C D) {acc s : PyVal V}
    (ha : ∀ a, acc = .arr a → a.HasDims L C D)
    (h : rest.foldlM (fun acc kv => PyVal.bin PyArith.add acc kv.2) acc = .ok s) :
    (∀ a, s = .arr a → a.HasDims L C D) ∧
      ((∃ a, acc = .arr a) ∨ (∃ k a, (k, PyVal.arr a) ∈ rest) → ∃ a, s = .arr a) := by
  induction rest generalizing acc with
  | nil =>
    cases h
    refine ⟨ha, ?_⟩
    rintro (h | ⟨k, a, h⟩)
    · exact h
    · cases h
  | cons kv rest ih =>
    rw [List.foldlM_cons] at h
    cases hb : PyVal.bin PyArith.add acc kv.2 with
    | error e => rw [hb] at h; cases h
    | ok acc1 =>
      rw [hb] at h
      obtain ⟨g1, g2⟩ := bin_dims ha (fun c hc => hu kv.1 c (by
        rw [← hc]; exact List.mem_cons_self)) hb
      obtain ⟨i1, i2⟩ := ih (fun k a hk => hu k a (List.mem_cons_of_mem _ hk)) g1 h
      refine ⟨i1, ?_⟩
      rintro (h | ⟨k, a, h⟩)
      · exact i2 (.inl (g2 (.inl h)))
      · rcases List.mem_cons.1 h with h | h
        · exact i2 (.inl (g2 (.inr ⟨a, by rw [← h]⟩)))
        · exact i2 (.inr ⟨k, a, h⟩)

theorem basicSum_shapes {N : Nat → Prop} {A} : ShapeSafe (basicSum : PyFun W V) N A := by
  intro args L C D w w' v _ _ hu h
  obtain ⟨h1, h2⟩ := invoke_ok h
  have h3 : basicSumVal args = .ok v := (M.ofExcept_eq_ok.1 h2).1
  unfold basicSumVal at h3
  cases hx : args.get? "init" with
  | none => simp [Dict.getE, hx, bind, Except.bind] at h3
  | some x => cases hy : args.get? "cond" with
    | none => simp [Dict.getE, hx, hy, bind, Except.bind] at h3
    | some y =>
      simp only [Dict.getE, hx, hy, bind, Except.bind] at h3
      cases hb : PyVal.bin PyArith.add x y with
      | error e => rw [hb] at h3; cases h3
      | ok ic =>
        simp only [hb] at h3
        obtain ⟨g1, g2⟩ := bin_dims (fun c hc => hu _ _ (Dict.mem_of_get? (hc ▸ hx)))
          (fun c hc => hu _ _ (Dict.mem_of_get? (hc ▸ hy))) hb
        cases hf : (args.filter fun kv => kv.1 ≠ "init" ∧ kv.1 ≠ "cond").foldlM
            (fun acc kv => PyVal.bin PyArith.add acc kv.2) (PyVal.scal (PyArith.ofRat 0)) with
        | error e => rw [hf] at h3; cases h3
        | ok s =>
          simp only [hf] at h3
          obtain ⟨f1, f2⟩ := sum_shapes (fun k a hk => hu k a (List.mem_of_mem_filter hk))
            (fun a h => by cases h) hf
          obtain ⟨k1, k2⟩ := bin_dims g1 f1 h3
          refine ⟨k1, ?_⟩
          rintro ⟨k, c, hk⟩
          by_cases e1 : k = "init"
          · subst e1; rw [hx] at hk; cases hk
            exact k2 (.inl (g2 (.inl ⟨_, rfl⟩)))
          · by_cases e2 : k = "cond"
            · subst e2; rw [hy] at hk; cases hk
              exact k2 (.inl (g2 (.inr ⟨_, rfl⟩)))
            · exact k2 (.inr (f2 (.inr ⟨k, c, List.mem_filter.2 ⟨Dict.mem_of_get? hk, by simp [e1, e2]⟩⟩)))

theorem ex_shapes : ∀ p d, Ex.dev.prms.get? p = some (.deg d) → DegShapes d := by
  intro p d h
  have hp : p = "vth" ∧ d = Ex.degPrm [("burn", Ex.burn)] (.fin 3) := by
    rcases List.mem_cons.1 (Dict.mem_of_get? h) with h | h
    · cases h; exact ⟨rfl, rfl⟩
    · cases List.mem_singleton.1 h
  obtain ⟨rfl, rfl⟩ := hp
  refine ⟨argEqn_shapes _, by decide, by simp [Ex.degPrm, initValMk, nameLatents], constEqn_shapes _, ?_,
    basicSum_shapes⟩
  intro k m hk
  cases List.mem_singleton.1 hk
  exact eqn2_shapes _ _ _

theorem ex_mechs : ∀ p d, Ex.dev.prms.get? p = some (.deg d) → d.mechs.Nodup := by
  intro p d h
  rcases List.mem_cons.1 (Dict.mem_of_get? h) with h | h
  · cases h; simp [Ex.degPrm, Dict.Nodup, Dict.keys]
  · cases List.mem_singleton.1 h

/-- Two lots of three chips: 4 samples of "vth", 4 of "delay" and 5 of the temperature, after a stress. -/
def sampleTest (n : Nat) : TestSpec Ex.Q :=
  { steps := [.strs ⟨[("temp", .fin 90), ("vdd", .fin 2)], .td 3600000000, "warm"⟩,
      .meas ⟨[("vth", n), ("delay", n), ("temp", 5)], [("temp", .fin 20), ("vdd", .fin 2)], "read"⟩],
    numChps := 3, numLots := 2, name := "samples", description := "" }

/-- The hypotheses of the theorems hold for it. -/
example : ∃ r, (simulate Ex.orderA (sampleTest 4) Ex.dev ⟨[], []⟩ none Counts.start).1 = .ok r ∧
    (rowsAt r.measurements 1 "vth").map place = places 2 3 4 ∧
    (rowsAt r.measurements 1 "delay").map place = places 2 3 4 ∧
    (rowsAt r.measurements 1 "temp").map place = List.replicate 5 (none, none, none) := by
  obtain ⟨r, h, hr⟩ : ∃ r, (simulate Ex.orderA (sampleTest 4) Ex.dev ⟨[], []⟩ none Counts.start).1 = .ok r ∧
      (r.devCounts.get? "vth" == some 4 && r.devCounts.get? "delay" == some 4) = true :=
    exists_ok (by decide +kernel)
  simp only [Bool.and_eq_true, beq_iff_eq] at hr
  have h' : simulate Ex.orderA (sampleTest 4) Ex.dev ⟨[], []⟩ none Counts.start = (.ok r, _) :=
    Prod.ext h rfl
  have hnd : Ex.dev.prms.Nodup := by decide
  refine ⟨r, h, ?_, ?_, ?_⟩
  · exact C44_parameter (pre := [_]) hnd ex_mechs ex_shapes h' rfl (by decide) (n := 4)
      (by simp) (d := _) rfl
  · refine C44_circuit_partial (pre := [_]) hnd ex_mechs ex_shapes h' rfl (by decide) (n := 4)
      (by simp) (m := { compute := Ex.eqn2 "vth" "vdd" PyArith.mul }) rfl (eqn2_shapes _ _ _) hr.2 ?_ (by decide)
    intro p d hp hd
    rcases List.mem_cons.1 (Dict.mem_of_get? hd) with h | h
    · cases h; exact hr.1
    · cases List.mem_singleton.1 h
  · exact C44_condition (pre := [_]) hnd ex_mechs ex_shapes h' rfl (by decide) (by decide) (n := 5)
      (by simp) rfl

/-- With one sample of a circuit parameter on two lots, the second lot is not reported. -/
example : ∃ r, (simulate Ex.orderA (sampleTest 1) Ex.dev ⟨[], []⟩ none Counts.start).1 = .ok r ∧
    (r.devCounts.get? "vth" == some 1 && r.devCounts.get? "delay" == some 1 &&
      (rowsAt r.measurements 1 "vth").length == 6 && (rowsAt r.measurements 1 "delay").length == 3) = true :=
  exists_ok (by decide +kernel)

/-- First two samples of "delay", then one. -/
def spareTest : TestSpec Ex.Q :=
  { steps := [.meas ⟨[("vth", 2), ("delay", 2)], [("temp", .fin 20), ("vdd", .fin 2)], "two"⟩,
      .meas ⟨[("vth", 1), ("delay", 1)], [("temp", .fin 20), ("vdd", .fin 2)], "one"⟩],
    numChps := 1, numLots := 1, name := "spare", description := "" }

/-- **C44** is violated for circuit parameters of which more devices exist than a step asks for: all of
them are reported. -/
theorem C44_spare_violated : ∃ r,
    (simulate Ex.orderA spareTest Ex.dev ⟨[], []⟩ none Counts.start).1 = .ok r ∧
    (rowsAt r.measurements 1 "vth").map place = places 1 1 1 ∧
    (rowsAt r.measurements 1 "delay").map place = places 1 1 2 := by
  obtain ⟨r, h, hr⟩ : ∃ r, (simulate Ex.orderA spareTest Ex.dev ⟨[], []⟩ none Counts.start).1 = .ok r ∧
      ((rowsAt r.measurements 1 "vth").map place == places 1 1 1 &&
        (rowsAt r.measurements 1 "delay").map place == places 1 1 2) = true :=
    exists_ok (by decide +kernel)
  simp only [Bool.and_eq_true, beq_iff_eq] at hr
  exact ⟨r, h, hr⟩

end Gerabaldi.Props
