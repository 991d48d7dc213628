import Verif.Props.Run

/-!
# Property C36: measuring does not disturb the devices
-/

namespace Gerabaldi.Props

open Gerabaldi Gerabaldi.Spec

variable {W V : Type} [PyNum V]

/-! ## Computations that leave the world alone -/

section keeps
variable {f : PyFun W V} (hf : PureEqn f)
include hf

omit [PyNum V] in
theorem keeps_invoke (args : Dict (PyVal V)) : M.Keeps (f.invoke args) := by
  unfold PyFun.invoke
  split
  · exact fun w => hf args w
  · exact M.Keeps.throw _

theorem keeps_loopBody (args : Dict (PyVal V)) (p : Nat × Nat × Nat) : M.Keeps (loopBody f args p) := by
  unfold loopBody
  refine (M.Keeps.ofExcept _).bind fun a => (keeps_invoke hf a).bind fun r => ?_
  cases r
  · exact M.Keeps.pure _
  · exact M.Keeps.pure _
  · exact M.Keeps.throw _

theorem keeps_computeOrLoop (args : Dict (PyVal V)) (L C D : Nat) :
    M.Keeps (computeOrLoop f args L C D) := by
  unfold computeOrLoop loopCompute
  refine M.Keeps.catchValueError (keeps_invoke hf args) (M.Keeps.bind ?_ fun a => M.Keeps.pure _)
  exact (M.Keeps.mapList fun x _ => keeps_loopBody hf args x).bind fun xs => M.Keeps.ofExcept _

end keeps

/-- The equations a measurement evaluates have no side effects. -/
def PurePrm : PrmMdl W V → Prop
  | .deg m => PureEqn m.condMdl.compute ∧ PureEqn m.mdl.compute
  | .circ m => PureEqn m.compute

/-- No variation models, no instrument adds noise. -/
structure NoiseFree (env : PhysTestEnv V) : Prop where
  vars : ∀ c, env.vars.get? c = none
  instms : ∀ c ins, env.measInstm c = .ok ins → ins.error = none

theorem keeps_measureTrue {q : Quantities} {dev : DeviceMdl W V} {step : MeasSpec V} {i : Nat}
    {s : SimState V} {conds : Dict (Dict (Arr3 V))} {prm : String} {n : Nat}
    (hp : ∀ m, dev.prms.get? prm = some m → PurePrm m) :
    M.Keeps (measureTrue q dev step i s conds prm n) := by
  unfold measureTrue
  cases hc : s.currPrm.get? prm with
  | some cur =>
    cases hd : dev.prms.get? prm with
    | none => exact M.Keeps.throw _
    | some p =>
      cases p with
      | circ m => exact M.Keeps.throw _
      | deg m =>
        obtain ⟨p1, p2⟩ := hp _ hd
        refine (M.Keeps.ofExcept _).bind fun cs => (M.Keeps.ofExcept _).bind fun lat => M.Keeps.bind ?_
          fun v => M.Keeps.ofExcept _
        unfold DegPrmMdl.calcCondShifted
        cases cur with
        | scal x => exact M.Keeps.throw _
        | npscal x => exact M.Keeps.throw _
        | arr a =>
          exact (M.Keeps.ofExcept _).bind fun c => (M.Keeps.bind
            (by unfold calcCondVals; exact keeps_computeOrLoop p1 _ _ _ _)
            fun c => keeps_computeOrLoop p2 _ _ _ _)
  | none =>
    cases hd : dev.prms.get? prm with
    | some p =>
      cases p with
      | deg m => exact M.Keeps.throw _
      | circ m =>
        refine (M.Keeps.ofExcept _).bind fun cs => (M.Keeps.ofExcept _).bind fun lat => M.Keeps.bind ?_
          fun v => M.Keeps.ofExcept _
        unfold calcCircVals
        exact (keeps_invoke (hp _ hd) _).bind fun r => M.Keeps.ofExcept _
    | none =>
      simp only
      split
      · exact (M.Keeps.ofExcept _).bind fun cs => (M.Keeps.ofExcept _).bind fun lat => M.Keeps.ofExcept _
      · exact M.Keeps.throw _

variable [Rng W V]

theorem keeps_readRows {ins : Instrument V} (h : ins.error = none) (rows : List (MeasRow V)) :
    M.Keeps (readRows ins rows : M W _) := by
  unfold readRows Instrument.measureVals Instrument.addNoise
  rw [h]
  exact M.Keeps.bind ((M.Keeps.pure _).bind fun xs => (M.Keeps.ofExcept _).bind fun ys =>
    M.Keeps.pure _) fun _ => M.Keeps.pure _

/-- A noise-free measurement consumes no randomness. -/
theorem keeps_measDelta [LawfulRng W V] [UnitLaws V] {ord : SetOrder} {dev : DeviceMdl W V}
    {env : PhysTestEnv V} (he : NoiseFree env) {q : Quantities} {i : Nat} {m : MeasSpec V}
    (hp : ∀ prm ∈ m.measurements.keys, ∀ p, dev.prms.get? prm = some p → PurePrm p) (s : SimState V) :
    M.Keeps (measDelta ord dev env q i m s) := by
  unfold measDelta
  refine M.Keeps.bind (fun w => C17_no_randomness ord _ _ _ _ _ _ w fun c _ => he.vars c) fun conds =>
    M.Keeps.bind (M.Keeps.forIn' (fun kv hkv acc => ?_) _) fun rows => M.Keeps.pure _
  unfold measurePrm
  refine M.Keeps.bind (keeps_measureTrue (hp kv.1 (List.mem_map_of_mem hkv))) fun rows => ?_
  intro w
  cases hi : env.measInstm kv.1 with
  | error e => rfl
  | ok ins =>
    exact ((keeps_readRows (he.instms _ _ hi) rows).bind fun _ => M.Keeps.pure _) w

/-- **C36**: a measurement step never changes parameter values, mechanism values, latent values or the
elapsed time, in any environment and whatever its equations do. -/
theorem C36_state {ord : SetOrder} {dev : DeviceMdl W V} {env : PhysTestEnv V} {i : Nat}
    {m : MeasSpec V} {s s' : SimState V} {r r' : SimReport V} {w w' : W}
    (h : runSteps ord dev env i [.meas m] (s, r) w = (.ok (s', r'), w')) : s' = s := by
  obtain ⟨rows, lines, hd, -⟩ := runSteps_ok.1 h
  obtain ⟨s1, rows1, lines1, rows2, lines2, w1, h1, h2, -, -⟩ := runDelta_cons_ok.1 hd
  cases h2
  obtain ⟨conds, w3, -, -, rfl, -⟩ := measDelta_ok h1
  rfl

/-- Appending deltas. -/
theorem runDelta_append_ok {ord : SetOrder} {dev : DeviceMdl W V} {env : PhysTestEnv V} {q : Quantities}
    {i : Nat} {xs ys : List (Step V)} {s s' : SimState V} {rows : List (MeasRow V)}
    {lines : List (SumRow V)} {w w' : W} :
    runDelta ord dev env q i (xs ++ ys) s w = (.ok (s', rows, lines), w') ↔
    ∃ s1 rows1 lines1 rows2 lines2 w1,
      runDelta ord dev env q i xs s w = (.ok (s1, rows1, lines1), w1) ∧
      runDelta ord dev env q (i + xs.length) ys s1 w1 = (.ok (s', rows2, lines2), w') ∧
      rows = rows1 ++ rows2 ∧ lines = lines1 ++ lines2 := by
  rw [runDelta_append]
  constructor
  · intro h
    obtain ⟨⟨s1, rows1, lines1⟩, w1, h1, h⟩ := M.bind_eq_ok.1 h
    obtain ⟨⟨s2, rows2, lines2⟩, h2, h⟩ := M.bind_pure_ok.1 h
    cases h
    exact ⟨s1, rows1, lines1, rows2, lines2, w1, h1, h2, rfl, rfl⟩
  · rintro ⟨s1, rows1, lines1, rows2, lines2, w1, h1, h2, rfl, rfl⟩
    rw [M.bind_ok h1, M.bind_ok h2]
    rfl

theorem runDelta_later_ok {ord : SetOrder} {dev : DeviceMdl W V} {env : PhysTestEnv V} {q : Quantities}
    {i k : Nat} {xs : List (Step V)} {s s' : SimState V} {rows : List (MeasRow V)}
    {lines : List (SumRow V)} {w w' : W} :
    runDelta ord dev env q (i + k) xs s w = (.ok (s', rows, lines), w') ↔
    ∃ rows0 lines0, runDelta ord dev env q i xs s w = (.ok (s', rows0, lines0), w') ∧
      rows = rows0.map (laterRow k) ∧ lines = lines0.map (laterLine k) := by
  rw [runDelta_later, M.bind_pure_ok]
  constructor
  · rintro ⟨⟨s1, rows1, lines1⟩, h, e⟩
    cases e
    exact ⟨_, _, h, rfl, rfl⟩
  · rintro ⟨rows0, lines0, h, rfl, rfl⟩
    exact ⟨_, h, rfl⟩

/-- **C36**: in a noise-free environment with pure equations, deleting a measurement step anywhere gives the
same final state (and random state), and the same rows before and after it, the later ones with step numbers
one less. -/
theorem C36_delete_partial [LawfulRng W V] [UnitLaws V] {ord : SetOrder} {dev : DeviceMdl W V}
    {env : PhysTestEnv V} (he : NoiseFree env) {i : Nat} {xs ys : List (Step V)} {m : MeasSpec V}
    (hp : ∀ prm ∈ m.measurements.keys, ∀ p, dev.prms.get? prm = some p → PurePrm p)
    {s s' : SimState V} {r r' : SimReport V} {w w' : W}
    (h : runSteps ord dev env i (xs ++ .meas m :: ys) (s, r) w = (.ok (s', r'), w')) :
    ∃ before after own line1 line2 line3,
      runSteps ord dev env i (xs ++ ys) (s, r) w = (.ok (s',
        { r with measurements := r.measurements ++ before ++ after,
                 summary := r.summary ++ line1 ++ line3 }), w') ∧
      r' = { r with
        measurements := r.measurements ++ before ++ own ++ after.map (laterRow 1),
        summary := r.summary ++ line1 ++ [line2] ++ line3.map (laterLine 1) } ∧
      (∀ x ∈ own, x.step = i + xs.length) ∧ ∀ x ∈ before, x.step < i + xs.length := by
  obtain ⟨rows, lines, hd, rfl⟩ := runSteps_ok.1 h
  obtain ⟨s1, rows1, lines1, rows2, lines2, w1, h1, h2, rfl, rfl⟩ := runDelta_append_ok.1 hd
  obtain ⟨s2, rows3, lines3, rows4, lines4, w2, h3, h4, rfl, rfl⟩ := runDelta_cons_ok.1 h2
  have hk : w2 = w1 := by
    have := keeps_measDelta (ord := ord) (dev := dev) he (q := r.info) (i := i + xs.length) hp s1 w1
    rw [show measDelta ord dev env r.info (i + xs.length) m s1 w1 = _ from h3] at this
    exact this
  subst hk
  have hown := measDelta_step h3
  obtain ⟨conds, w3, -, -, rfl, rfl⟩ := measDelta_ok h3
  obtain ⟨rows0, lines0, h5, rfl, rfl⟩ := runDelta_later_ok.1 h4
  refine ⟨rows1, rows0, rows3, lines1, summaryRow m.name "measure" (i + xs.length) (.td 0) s2.elapsed
    s2.elapsed m.conditions, lines0, ?_, ?_, fun x hx => (hown x hx).1, ?_⟩
  · refine runSteps_ok.2 ⟨rows1 ++ rows0, lines1 ++ lines0,
      runDelta_append_ok.2 ⟨_, _, _, _, _, _, h1, h5, rfl, rfl⟩, ?_⟩
    simp [SimReport.grow]
  · simp only [SimReport.grow, List.append_assoc]
  · have h1' : runSteps ord dev env i xs (s, r) w = (.ok (s2, r.grow rows1 lines1), w2) :=
      runSteps_ok.2 ⟨_, _, h1, rfl⟩
    obtain ⟨rows', e, hb, -⟩ := C39_numbers h1'
    have : rows1 = rows' := List.append_cancel_left e
    subst this
    exact fun x hx => (hb x hx).2

/-- **C36**: inserting a measurement step that itself succeeds is the reverse. -/
theorem C36_insert_partial [LawfulRng W V] [UnitLaws V] {ord : SetOrder} {dev : DeviceMdl W V}
    {env : PhysTestEnv V} (he : NoiseFree env) {i : Nat} {xs ys : List (Step V)} {m : MeasSpec V}
    (hp : ∀ prm ∈ m.measurements.keys, ∀ p, dev.prms.get? prm = some p → PurePrm p)
    {s s1 s2 s' : SimState V} {r r1 r2 r' : SimReport V} {w w1 w2 w' : W}
    (hx : runSteps ord dev env i xs (s, r) w = (.ok (s1, r1), w1))
    (hm : runSteps ord dev env (i + xs.length) [.meas m] (s1, r1) w1 = (.ok (s2, r2), w2))
    (h : runSteps ord dev env i (xs ++ ys) (s, r) w = (.ok (s', r'), w')) :
    ∃ r'', runSteps ord dev env i (xs ++ .meas m :: ys) (s, r) w = (.ok (s', r''), w') := by
  obtain ⟨rows, lines, hd, -⟩ := runSteps_ok.1 h
  obtain ⟨s3, rows1, lines1, rows2, lines2, w3, h1, h2, -, -⟩ := runDelta_append_ok.1 hd
  obtain ⟨rows4, lines4, hx', rfl⟩ := runSteps_ok.1 hx
  rw [h1] at hx'
  cases hx'
  obtain ⟨rows5, lines5, hm', rfl⟩ := runSteps_ok.1 hm
  rw [SimReport.info_grow] at hm'
  obtain ⟨s4, rows6, lines6, rows7, lines7, w4, h3, h4, -, -⟩ := runDelta_cons_ok.1 hm'
  cases h4
  have hk : w2 = w1 := by
    have := keeps_measDelta (ord := ord) (dev := dev) he (q := r.info) (i := i + xs.length) hp s1 w1
    rw [show measDelta ord dev env r.info (i + xs.length) m s1 w1 = _ from h3] at this
    exact this
  subst hk
  have h3' := h3
  obtain ⟨conds, w3, -, -, rfl, -⟩ := measDelta_ok h3
  exact ⟨_, runSteps_ok.2 ⟨_, _, runDelta_append_ok.2 ⟨_, _, _, _, _, _, h1,
    runDelta_cons_ok.2 ⟨_, _, _, _, _, _, h3', runDelta_later_ok.2 ⟨_, _, h2, rfl, rfl⟩, rfl, rfl⟩,
    rfl, rfl⟩, rfl⟩⟩

/-- Is not a measurement. -/
def notMeas : Step V → Bool
  | .meas _ => false
  | _ => true

/-- **C36**: deleting all measurement steps leaves the final state and the random state unchanged. -/
theorem C36_delete_all_partial [LawfulRng W V] [UnitLaws V] {ord : SetOrder} {dev : DeviceMdl W V}
    {env : PhysTestEnv V} (he : NoiseFree env) {i j : Nat} {xs : List (Step V)}
    (hp : ∀ prm p, dev.prms.get? prm = some p → PurePrm p)
    {s s' : SimState V} {r r' : SimReport V} {w w' : W}
    (h : runSteps ord dev env i xs (s, r) w = (.ok (s', r'), w')) :
    ∃ r'', runSteps ord dev env j (xs.filter notMeas) (s, r) w = (.ok (s', r''), w') := by
  obtain ⟨rows, lines, hd, -⟩ := runSteps_ok.1 h
  suffices ∃ rows lines, runDelta ord dev env r.info j (xs.filter notMeas) s w =
      (.ok (s', rows, lines), w') by
    obtain ⟨rows, lines, h⟩ := this
    exact ⟨_, runSteps_ok.2 ⟨_, _, h, rfl⟩⟩
  clear h
  generalize r.info = q at hd ⊢
  induction xs generalizing i j s rows lines w with
  | nil => cases hd; exact ⟨_, _, rfl⟩
  | cons st rest ih =>
    obtain ⟨s1, rows1, lines1, rows2, lines2, w1, h1, h2, rfl, rfl⟩ := runDelta_cons_ok.1 hd
    have other : notMeas st = true → ∃ rows lines,
        runDelta ord dev env q j ((st :: rest).filter notMeas) s w = (.ok (s', rows, lines), w') := by
      intro hs
      rw [List.filter_cons_of_pos hs]
      obtain ⟨r3, l3, h3⟩ := ih (j := j + 1) _ _ h2
      have h1' : ∃ r4 l4, stepDelta ord dev env q j st s w = (.ok (s1, r4, l4), w1) := by
        have a1 := congrFun (stepDelta_later ord dev env q 0 i st s) w
        rw [Nat.zero_add, h1] at a1
        obtain ⟨⟨s5, r5, l5⟩, h5, e5⟩ := M.bind_pure_ok.1 a1.symm
        cases e5
        refine ⟨r5.map (laterRow j), l5.map (laterLine j), ?_⟩
        have a2 := congrFun (stepDelta_later ord dev env q 0 j st s) w
        rw [Nat.zero_add, M.bind_ok h5] at a2
        exact a2
      obtain ⟨r4, l4, h4⟩ := h1'
      exact ⟨_, _, runDelta_cons_ok.2 ⟨_, _, _, _, _, _, h4, h3, rfl, rfl⟩⟩
    cases st with
    | strs st => exact other rfl
    | other t => exact other rfl
    | meas m =>
      rw [List.filter_cons_of_neg (by simp [notMeas])]
      have hk : w1 = w := by
        have := keeps_measDelta (ord := ord) (dev := dev) he (q := q) (i := i)
          (fun prm _ => hp prm) (m := m) s w
        rw [show measDelta ord dev env q i m s w = _ from h1] at this
        exact this
      subst hk
      obtain ⟨conds, w3, -, -, rfl, -⟩ := measDelta_ok h1
      exact ih _ _ h2

/-! ## Concrete cases -/

open Ex in
omit [PyNum V] in
theorem pure_eqn2 (a b : String) (f : Q → Q → Q) : PureEqn (eqn2 a b f) := fun _ _ => rfl

open Ex in
omit [PyNum V] in
theorem noiseFree_empty : NoiseFree ({} : PhysTestEnv Q) where
  vars := fun _ => rfl
  instms := by
    intro c ins h
    unfold PhysTestEnv.measInstm at h
    simp only [Dict.has, Dict.get?, Option.isSome_none, Bool.false_eq_true, if_false] at h
    split at h
    · cases h
    · cases h; rfl

open Ex in
example : ∀ prm p, dev.prms.get? prm = some p → PurePrm p := by
  intro prm p h
  have := Dict.mem_of_get? h
  simp only [dev, List.mem_cons, List.not_mem_nil, or_false, Prod.mk.injEq] at this
  rcases this with ⟨-, rfl⟩ | ⟨-, rfl⟩
  · exact ⟨fun _ _ => rfl, fun _ _ => rfl⟩
  · exact pure_eqn2 _ _ _

open Ex in
/-- A parameter whose initial value varies from device to device, on two chips. -/
def varied : DeviceMdl Counts Q where
  prms := [("vth", .deg { degPrm [] (.fin 0) with
    initMdl := initValMk none none [("init_val", { constLatent (.fin 0) with
      dev := ⟨1, .normal (.fin 0) (.fin 1), none⟩, devDef := true, deterVal := none })] })]

open Ex in
/-- Measuring `n` devices, then one. -/
def readTwice (n : Nat) : TestSpec Q :=
  { steps := [.meas ⟨[("vth", n)], [], "all"⟩, .meas ⟨[("vth", 1)], [], "one"⟩],
    numChps := 2, numLots := 1, name := "", description := "" }

open Ex in
/-- The values measured by a step. -/
def readings (step : Nat) (r : SimReport Q) : List Q :=
  (r.measurements.filter fun x => x.step == step).map (·.measured)

open Ex in
/-- **C36 violated** for whole simulations with varying devices: the measurements decide how many devices are
made, so that deleting a measurement shifts the random numbers of the other devices. Environment without
noise, pure equations, same seed; the second measurement reads other values after the first is deleted. -/
theorem C36_sample_counts_violated :
    NoiseFree ({} : PhysTestEnv Q) ∧ (∀ prm p, varied.prms.get? prm = some p → PurePrm p) ∧
    ∃ a b, (simulate orderA (readTwice 2) varied {} none Counts.start).1 = .ok a ∧
      (simulate orderA { readTwice 2 with steps := (readTwice 2).steps.drop 1 } varied {} none
        Counts.start).1 = .ok b ∧
      readings 1 a ≠ readings 0 b := by
  refine ⟨noiseFree_empty, ?_, ?_⟩
  · intro prm p h
    have := Dict.mem_of_get? h
    simp only [varied, List.mem_cons, List.not_mem_nil, or_false, Prod.mk.injEq] at this
    obtain ⟨-, rfl⟩ := this
    exact ⟨fun _ _ => rfl, fun _ _ => rfl⟩
  · obtain ⟨a, ha, ea⟩ := exists_ok (x := (simulate orderA (readTwice 2) varied {} none Counts.start).1)
      (f := fun r => readings 1 r == [.fin 100, .fin 102]) (by decide +kernel)
    obtain ⟨b, hb, eb⟩ := exists_ok (x := (simulate orderA
      { readTwice 2 with steps := (readTwice 2).steps.drop 1 } varied {} none Counts.start).1)
      (f := fun r => readings 0 r == [.fin 100, .fin 101]) (by decide +kernel)
    refine ⟨a, b, ha, hb, ?_⟩
    rw [beq_iff_eq.1 ea, beq_iff_eq.1 eb]
    decide +kernel

open Ex in
/-- A measurement between two stress steps. -/
example : ∃ sr : SimState Q × SimReport Q, ((simStart dev twoSteps none >>= runSteps orderA dev {} 0
      ([twoSteps.steps[0]] ++ .meas ⟨[("vth", 1)], [("temp", .fin 20)], "look"⟩ ::
        [twoSteps.steps[2]])) Counts.start).1 = .ok sr ∧
    (sr.2.measurements.map (·.step) == [1]) = true :=
  exists_ok (by decide +kernel)

end Gerabaldi.Props
