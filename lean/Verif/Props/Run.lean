import Verif.Lemmas.Run
import Verif.Lemmas.Mech
import Verif.Props.Env
import Verif.Spec.ExampleDevice
import Mathlib.Algebra.BigOperators.Group.List.Basic

/-!
# Properties of the simulation loop: C24, C36, C37, C39, C40, C46, C50
-/

namespace Gerabaldi.Props

open Gerabaldi Gerabaldi.Spec

variable {W V : Type} [PyNum V] [Rng W V]

/-! ## C46: composition -/

/-- **C46**: executing `xs ++ ys` is executing `xs`, then `ys` on the resulting state and report, with the
step numbers continuing; on success, on errors and for the random state. -/
theorem C46_append (ord : SetOrder) (dev : DeviceMdl W V) (env : PhysTestEnv V) (i : Nat)
    (xs ys : List (Step V)) (sr : SimState V × SimReport V) (w : W) :
    runSteps ord dev env i (xs ++ ys) sr w =
      (runSteps ord dev env i xs sr >>= runSteps ord dev env (i + xs.length) ys) w := by
  unfold runSteps
  rw [enumFrom_append, M.forIn'_append]

/-- **C46** for whole simulations: simulating a test is simulating with its first steps, then executing the
remaining steps on the state and report reached. -/
theorem C46_simulate (ord : SetOrder) (test : TestSpec V) (dev : DeviceMdl W V) (env : PhysTestEnv V)
    (init : Option (SimState V)) (xs ys : List (Step V)) (ht : test.steps = xs ++ ys) (w : W) :
    simulateFull ord test dev env init w =
      ((simStart dev test init >>= runSteps ord dev env 0 xs) >>=
        runSteps ord dev env xs.length ys) w := by
  unfold simulateFull
  rw [ht]
  simp only [M.bind_assoc']
  have : (fun sr => runSteps ord dev env 0 (xs ++ ys) sr) =
      fun sr => runSteps ord dev env 0 xs sr >>= runSteps ord dev env xs.length ys := by
    funext sr w
    rw [C46_append, Nat.zero_add]
  rw [this]

/-! ## C39: reports only grow -/

/-- **C39**: rows are only added at the end, and the rest of the report does not change. -/
theorem C39_grow {ord : SetOrder} {dev : DeviceMdl W V} {env : PhysTestEnv V} {i : Nat}
    {steps : List (Step V)} {s s' : SimState V} {r r' : SimReport V} {w w' : W}
    (h : runSteps ord dev env i steps (s, r) w = (.ok (s', r'), w')) :
    r.measurements <+: r'.measurements ∧ r.summary <+: r'.summary ∧
      { r' with measurements := r.measurements, summary := r.summary } = r := by
  obtain ⟨rows, lines, -, rfl⟩ := runSteps_ok.1 h
  exact ⟨⟨rows, rfl⟩, ⟨lines, rfl⟩, rfl⟩

omit [PyNum V] in
theorem format_step {v : PyVal V} {prm : String} {t : TimeVal} {i : Nat} {ty : PrmType}
    {rows : List (MeasRow V)} (h : formatMeasurements v prm t i ty = .ok rows) :
    ∀ x ∈ rows, x.step = i ∧ x.prm = prm ∧ x.time = t := by
  cases v with
  | arr a =>
    have : formatArr a prm t i ty = rows := by cases h; rfl
    subst this
    unfold formatArr
    intro x hx
    rw [List.mem_iff_getElem] at hx
    obtain ⟨j, hj, rfl⟩ := hx
    rw [List.getElem_zipWith]
    exact ⟨rfl, rfl, rfl⟩
  | scal x => cases h
  | npscal x => cases h

omit [Rng W V] in
theorem measureTrue_step {q : Quantities} {dev : DeviceMdl W V} {step : MeasSpec V} {i : Nat}
    {s : SimState V} {conds : Dict (Dict (Arr3 V))} {prm : String} {n : Nat} {w w' : W}
    {rows : List (MeasRow V)} (h : measureTrue q dev step i s conds prm n w = (.ok rows, w')) :
    ∀ x ∈ rows, x.step = i ∧ x.prm = prm ∧ x.time = s.elapsed := by
  unfold measureTrue at h
  cases hc : s.currPrm.get? prm with
  | some cur =>
    rw [hc] at h
    cases hd : dev.prms.get? prm with
    | none => rw [hd] at h; cases h
    | some p =>
      rw [hd] at h
      cases p with
      | circ m => cases h
      | deg m =>
        obtain ⟨cs, -, h⟩ := M.getE_bind_ok.1 h
        obtain ⟨lat, -, h⟩ := M.getE_bind_ok.1 h
        obtain ⟨v, w1, -, h⟩ := M.bind_eq_ok.1 h
        exact format_step (M.ofExcept_eq_ok.1 h).1
  | none =>
    rw [hc] at h
    cases hd : dev.prms.get? prm with
    | some p =>
      rw [hd] at h
      cases p with
      | deg m => cases h
      | circ m =>
        obtain ⟨cs, -, h⟩ := M.getE_bind_ok.1 h
        obtain ⟨lat, -, h⟩ := M.getE_bind_ok.1 h
        obtain ⟨v, w1, -, h⟩ := M.bind_eq_ok.1 h
        exact format_step (M.ofExcept_eq_ok.1 h).1
    | none =>
      rw [hd] at h
      by_cases hn : step.conditions.has prm
      · simp only [hn, if_true] at h
        obtain ⟨cs, -, h⟩ := M.getE_bind_ok.1 h
        obtain ⟨a, -, h⟩ := M.getE_bind_ok.1 h
        exact format_step (M.ofExcept_eq_ok.1 h).1
      · simp only [hn] at h
        cases h

/-- All rows a measurement step adds carry its number, the elapsed time, and the name of something it
measures. -/
theorem measDelta_step {ord : SetOrder} {dev : DeviceMdl W V} {env : PhysTestEnv V} {q : Quantities}
    {i : Nat} {m : MeasSpec V} {s s' : SimState V} {rows : List (MeasRow V)} {lines : List (SumRow V)}
    {w w' : W} (h : measDelta ord dev env q i m s w = (.ok (s', rows, lines), w')) :
    ∀ x ∈ rows, x.step = i ∧ x.prm ∈ m.measurements.keys ∧ x.time = s.elapsed := by
  unfold measDelta at h
  obtain ⟨conds, w1, -, h⟩ := M.bind_eq_ok.1 h
  obtain ⟨rows', h2, h⟩ := M.bind_pure_ok.1 h
  cases h
  refine M.forIn'_ok_inv (P := fun _ rows _ => ∀ x ∈ rows, x.step = i ∧ x.prm ∈ m.measurements.keys ∧
    x.time = s.elapsed) h2 (fun x hx => absurd hx List.not_mem_nil) ?_
  intro pre kv post acc w2 acc' w3 hpre hacc hf x hx
  obtain ⟨t, ins, ys, w4, ht, -, -, rfl⟩ := measurePrm_ok hf
  rcases List.mem_append.1 hx with hx | hx
  · exact hacc x hx
  · rw [List.mem_iff_getElem] at hx
    obtain ⟨j, hj, rfl⟩ := hx
    rw [List.getElem_zipWith]
    have hj' : j < t.length := by
      rw [List.length_zipWith] at hj; omega
    obtain ⟨h1, h2, h3⟩ := measureTrue_step ht t[j] (List.getElem_mem hj')
    refine ⟨h1, ?_, h3⟩
    show t[j].prm ∈ _
    rw [h2, hpre]
    unfold Dict.keys
    simp

theorem stepDelta_step {ord : SetOrder} {dev : DeviceMdl W V} {env : PhysTestEnv V} {q : Quantities}
    {i : Nat} {st : Step V} {s s' : SimState V} {rows : List (MeasRow V)} {lines : List (SumRow V)}
    {w w' : W} (h : stepDelta ord dev env q i st s w = (.ok (s', rows, lines), w')) :
    ∀ x ∈ rows, x.step = i := by
  cases st with
  | strs st =>
    unfold stepDelta strsDelta at h
    obtain ⟨conds, w1, -, h⟩ := M.bind_eq_ok.1 h
    obtain ⟨s1, w2, -, h⟩ := M.bind_eq_ok.1 h
    obtain ⟨e, -, h⟩ := M.ofExcept_bind_ok.1 h
    obtain ⟨b, -, h⟩ := M.ofExcept_bind_ok.1 h
    cases h
    intro x hx; exact absurd hx List.not_mem_nil
  | meas m => exact fun x hx => (measDelta_step h x hx).1
  | other t =>
    cases h
    intro x hx; exact absurd hx List.not_mem_nil

/-- The stages of a sequence. -/
theorem runDelta_cons_ok {ord : SetOrder} {dev : DeviceMdl W V} {env : PhysTestEnv V} {q : Quantities}
    {i : Nat} {st : Step V} {rest : List (Step V)} {s s' : SimState V} {rows : List (MeasRow V)}
    {lines : List (SumRow V)} {w w' : W} :
    runDelta ord dev env q i (st :: rest) s w = (.ok (s', rows, lines), w') ↔
    ∃ s1 rows1 lines1 rows2 lines2 w1,
      stepDelta ord dev env q i st s w = (.ok (s1, rows1, lines1), w1) ∧
      runDelta ord dev env q (i + 1) rest s1 w1 = (.ok (s', rows2, lines2), w') ∧
      rows = rows1 ++ rows2 ∧ lines = lines1 ++ lines2 := by
  constructor
  · intro h
    unfold runDelta at h
    obtain ⟨⟨s1, rows1, lines1⟩, w1, h1, h⟩ := M.bind_eq_ok.1 h
    obtain ⟨⟨s2, rows2, lines2⟩, h2, h⟩ := M.bind_pure_ok.1 h
    cases h
    exact ⟨s1, rows1, lines1, rows2, lines2, w1, h1, h2, rfl, rfl⟩
  · rintro ⟨s1, rows1, lines1, rows2, lines2, w1, h1, h2, rfl, rfl⟩
    unfold runDelta
    rw [M.bind_ok h1, M.bind_ok h2]
    rfl

/-- **C39**: the rows added by a run of steps carry the numbers of these steps, in non-decreasing order. -/
theorem C39_numbers {ord : SetOrder} {dev : DeviceMdl W V} {env : PhysTestEnv V} {i : Nat}
    {steps : List (Step V)} {s s' : SimState V} {r r' : SimReport V} {w w' : W}
    (h : runSteps ord dev env i steps (s, r) w = (.ok (s', r'), w')) :
    ∃ rows, r'.measurements = r.measurements ++ rows ∧
      (∀ x ∈ rows, i ≤ x.step ∧ x.step < i + steps.length) ∧
      rows.Pairwise fun a b => a.step ≤ b.step := by
  obtain ⟨rows, lines, hd, rfl⟩ := runSteps_ok.1 h
  refine ⟨rows, rfl, ?_⟩
  clear h
  generalize r.info = q at hd
  induction steps generalizing i s rows lines w with
  | nil => cases hd; exact ⟨fun x hx => absurd hx List.not_mem_nil, .nil⟩
  | cons st rest ih =>
    obtain ⟨s1, rows1, lines1, rows2, lines2, w1, h1, h2, rfl, rfl⟩ := runDelta_cons_ok.1 hd
    obtain ⟨k1, k2⟩ := ih _ _ h2
    have hs := stepDelta_step h1
    refine ⟨?_, ?_⟩
    · intro x hx
      rw [List.length_cons]
      rcases List.mem_append.1 hx with hx | hx
      · have := hs x hx; omega
      · have := k1 x hx; omega
    · rw [List.pairwise_append]
      refine ⟨?_, k2, ?_⟩
      · exact List.pairwise_of_forall_mem_list fun a ha b hb => by rw [hs a ha, hs b hb]
      · intro a ha b hb
        have := hs a ha
        have := k1 b hb
        omega

/-- **C39**: the rows a single step adds carry exactly its number; for a measurement also the elapsed time
and the name of something it measures. -/
theorem C39_own_number {ord : SetOrder} {dev : DeviceMdl W V} {env : PhysTestEnv V} {i : Nat}
    {st : Step V} {s s' : SimState V} {r r' : SimReport V} {w w' : W}
    (h : runSteps ord dev env i [st] (s, r) w = (.ok (s', r'), w')) :
    ∃ rows, r'.measurements = r.measurements ++ rows ∧ (∀ x ∈ rows, x.step = i) ∧
      (∀ m, st = .meas m → ∀ x ∈ rows, x.prm ∈ m.measurements.keys ∧ x.time = s.elapsed) ∧
      ((∀ m, st ≠ .meas m) → rows = []) := by
  obtain ⟨rows, lines, hd, rfl⟩ := runSteps_ok.1 h
  obtain ⟨s1, rows1, lines1, rows2, lines2, w1, h1, h2, rfl, rfl⟩ := runDelta_cons_ok.1 hd
  cases h2
  refine ⟨rows1, by simp [SimReport.grow], stepDelta_step h1, ?_, ?_⟩
  · rintro m rfl x hx
    exact (measDelta_step h1 x hx).2
  · intro hm
    cases st with
    | meas m => exact absurd rfl (hm m)
    | other t => cases h1; rfl
    | strs st =>
      unfold stepDelta strsDelta at h1
      obtain ⟨conds, w1, -, h⟩ := M.bind_eq_ok.1 h1
      obtain ⟨s1, w2, -, h⟩ := M.bind_eq_ok.1 h
      obtain ⟨e, -, h⟩ := M.ofExcept_bind_ok.1 h
      obtain ⟨b, -, h⟩ := M.ofExcept_bind_ok.1 h
      cases h
      rfl

/-! ## C40: what does not change -/

omit [Rng W V] in
theorem stress_frame {q : Quantities} {d : TimeVal} {conds : Dict (Dict (Arr3 V))}
    {xs : List (String × DegPrmMdl W V)} {s s' : SimState V} {w w' : W}
    (h : M.forIn' (stressPrm q d conds) xs s w = (.ok s', w')) :
    s'.elapsed = s.elapsed ∧ s'.initPrm = s.initPrm ∧ s'.initMech = s.initMech ∧
      s'.latents = s.latents := by
  refine M.forIn'_ok_inv (P := fun _ s' _ => s'.elapsed = s.elapsed ∧ s'.initPrm = s.initPrm ∧
    s'.initMech = s.initMech ∧ s'.latents = s.latents) h ⟨rfl, rfl, rfl, rfl⟩ ?_
  intro pre kv post s1 w1 s2 w2 _ hp hf
  obtain ⟨n, cur, cs, im, lat, eq0, times, ip, p, mv, w1, w2, -, -, -, -, -, -, -, -, -, -, rfl⟩ :=
    stressPrm_ok hf
  exact hp

/-- What a successful stress step has done, as a delta. -/
theorem strsDelta_ok {ord : SetOrder} {dev : DeviceMdl W V} {env : PhysTestEnv V} {q : Quantities}
    {i : Nat} {st : StrsSpec V} {s s' : SimState V} {rows : List (MeasRow V)} {lines : List (SumRow V)}
    {w w' : W} (h : strsDelta ord dev env q i st s w = (.ok (s', rows, lines), w')) :
    ∃ conds s1 e b w1,
      env.genEnvCondVals ord st.conditions (.names (dev.degPrms.map (·.1))) (some q) (some dev)
        .stress 1 1 w = (.ok conds, w1) ∧
      M.forIn' (stressPrm q st.duration conds) dev.degPrms s w1 = (.ok s1, w') ∧
      s1.elapsed.add st.duration = .ok e ∧ e.sub st.duration = .ok b ∧ s' = { s1 with elapsed := e } ∧
      rows = [] ∧ lines = [summaryRow st.name "stress" i st.duration b e st.conditions] := by
  unfold strsDelta at h
  obtain ⟨conds, w1, h1, h⟩ := M.bind_eq_ok.1 h
  obtain ⟨s1, w2, h2, h⟩ := M.bind_eq_ok.1 h
  obtain ⟨e, h3, h⟩ := M.ofExcept_bind_ok.1 h
  obtain ⟨b, h4, h⟩ := M.ofExcept_bind_ok.1 h
  cases h
  exact ⟨conds, s1, e, b, w1, h1, h2, h3, h4, rfl, rfl, rfl⟩

theorem measDelta_ok {ord : SetOrder} {dev : DeviceMdl W V} {env : PhysTestEnv V} {q : Quantities}
    {i : Nat} {m : MeasSpec V} {s s' : SimState V} {rows : List (MeasRow V)} {lines : List (SumRow V)}
    {w w' : W} (h : measDelta ord dev env q i m s w = (.ok (s', rows, lines), w')) :
    ∃ conds w1,
      env.genEnvCondVals ord m.conditions (.counts m.measurements) (some q) (some dev)
        .measure 1 1 w = (.ok conds, w1) ∧
      M.forIn' (measurePrm q dev env m i s conds) m.measurements [] w1 = (.ok rows, w') ∧
      s' = s ∧ lines = [summaryRow m.name "measure" i (.td 0) s.elapsed s.elapsed m.conditions] := by
  unfold measDelta at h
  obtain ⟨conds, w1, h1, h⟩ := M.bind_eq_ok.1 h
  obtain ⟨rows', h2, h⟩ := M.bind_pure_ok.1 h
  cases h
  exact ⟨conds, w1, h1, h2, rfl, rfl⟩

/-- An invariant of the state that stress steps keep is kept by a run. -/
theorem runDelta_inv {ord : SetOrder} {dev : DeviceMdl W V} {env : PhysTestEnv V} {q : Quantities}
    (P : SimState V → Prop) {i : Nat} {steps : List (Step V)} {s s' : SimState V}
    {rows : List (MeasRow V)} {lines : List (SumRow V)} {w w' : W}
    (h : runDelta ord dev env q i steps s w = (.ok (s', rows, lines), w')) (h0 : P s)
    (hstep : ∀ st, Step.strs st ∈ steps → ∀ i s1 s2 rows lines w1 w2, P s1 →
      strsDelta ord dev env q i st s1 w1 = (.ok (s2, rows, lines), w2) → P s2) : P s' := by
  induction steps generalizing i s rows lines w with
  | nil => cases h; exact h0
  | cons st rest ih =>
    obtain ⟨s1, rows1, lines1, rows2, lines2, w1, h1, h2, -, -⟩ := runDelta_cons_ok.1 h
    refine ih h2 ?_ fun st hst => hstep st (List.mem_cons_of_mem _ hst)
    cases st with
    | strs st => exact hstep st List.mem_cons_self _ _ _ _ _ _ _ h0 h1
    | meas m =>
      obtain ⟨-, -, -, -, rfl, -⟩ := measDelta_ok h1
      exact h0
    | other t => cases h1; exact h0

/-- **C40**: initial parameter values, initial mechanism values and latent values never change. -/
theorem C40_constant {ord : SetOrder} {dev : DeviceMdl W V} {env : PhysTestEnv V} {i : Nat}
    {steps : List (Step V)} {s s' : SimState V} {r r' : SimReport V} {w w' : W}
    (h : runSteps ord dev env i steps (s, r) w = (.ok (s', r'), w')) :
    s'.initPrm = s.initPrm ∧ s'.initMech = s.initMech ∧ s'.latents = s.latents := by
  obtain ⟨rows, lines, h, -⟩ := runSteps_ok.1 h
  refine runDelta_inv (P := fun s' => s'.initPrm = s.initPrm ∧ s'.initMech = s.initMech ∧
    s'.latents = s.latents) h ⟨rfl, rfl, rfl⟩ ?_
  intro st _ i s1 s2 rows lines w1 w2 hp hs
  obtain ⟨conds, s3, e, b, w3, -, hf, -, -, rfl, -⟩ := strsDelta_ok hs
  obtain ⟨-, h1, h2, h3⟩ := stress_frame hf
  exact ⟨h1.trans hp.1, h2.trans hp.2.1, h3.trans hp.2.2⟩

/-- One step on an object leaves the other objects alone. -/
theorem stepRef_others {torn : SimState V → SimState V} {ord : SetOrder} {dev : DeviceMdl W V}
    {env : PhysTestEnv V} {ref j : Nat} (hj : j ≠ ref) (r : SimReport V) (is : Nat × Step V)
    (wh : W × List (SimState V)) :
    (stepRef torn ord dev env ref r is wh).2.2[j]? = wh.2[j]? := by
  unfold stepRef
  split
  · rfl
  · split
    · exact List.getElem?_set_ne (Ne.symm hj)
    · exact List.getElem?_set_ne (Ne.symm hj)

/-- **C40**: every state object that existed before the simulation, in particular a given initial state,
is unchanged afterwards, whether the simulation finishes or raises. -/
theorem C40_caller (torn : SimState V → SimState V) (ord : SetOrder) (test : TestSpec V)
    (dev : DeviceMdl W V) (env : PhysTestEnv V) (init : Option Nat) (w : W)
    (heap : List (SimState V)) {j : Nat} (hj : j < heap.length) :
    (simulateRef torn ord test dev env init (w, heap)).2.2[j]? = heap[j]? := by
  unfold simulateRef
  rw [M.bind_run]
  have hs : (startRef dev test init (w, heap)).2.2[j]? = heap[j]? ∧
      ∀ rr, (startRef dev test init (w, heap)).1 = .ok rr → rr.1 = heap.length := by
    unfold startRef
    cases init with
    | some ref =>
      simp only
      split
      · exact ⟨rfl, fun rr h => by cases h⟩
      · exact ⟨List.getElem?_append_left hj, fun rr h => by cases h; rfl⟩
    | none =>
      simp only
      split
      · exact ⟨List.getElem?_append_left hj, fun rr h => by cases h; rfl⟩
      · exact ⟨rfl, fun rr h => by cases h⟩
  cases hst : startRef dev test init (w, heap) with
  | mk res wh =>
    rw [hst] at hs
    cases res with
    | error e => exact hs.1
    | ok rr =>
      have := hs.2 rr rfl
      refine M.forIn'_world (P := fun wh : W × List (SimState V) => wh.2[j]? = heap[j]?) hs.1 ?_
      intro is _ r wh hwh
      rw [← hwh]
      exact stepRef_others (by omega) r is wh

/-- The two formulations of `simulate` agree. -/
theorem C40_same_report (torn : SimState V → SimState V) (ord : SetOrder) (test : TestSpec V)
    (dev : DeviceMdl W V) (env : PhysTestEnv V) (heap : List (SimState V)) (init : Option Nat)
    (hinit : ∀ j, init = some j → j < heap.length) (w : W) :
    (simulateRef torn ord test dev env init (w, heap)).1 =
        (simulate ord test dev env (init.bind fun j => heap[j]?) w).1 ∧
      (simulateRef torn ord test dev env init (w, heap)).2.1 =
        (simulate ord test dev env (init.bind fun j => heap[j]?) w).2 := by
  have loop : ∀ (iss : List (Nat × Step V)) (s : SimState V) (r : SimReport V) (h : List (SimState V))
      (ref : Nat) (w : W), h[ref]? = some s →
      (M.forIn' (stepRef torn ord dev env ref) iss r (w, h)).1 =
        ((M.forIn' (simStep ord dev env) iss (s, r) >>= fun sr => pure sr.2) w).1 ∧
      (M.forIn' (stepRef torn ord dev env ref) iss r (w, h)).2.1 =
        ((M.forIn' (simStep ord dev env) iss (s, r) >>= fun sr => pure sr.2) w).2 := by
    intro iss
    induction iss with
    | nil => intros; exact ⟨rfl, rfl⟩
    | cons is iss ih =>
      intro s r h ref w hs
      simp only [M.forIn', M.bind_assoc']
      rw [M.bind_run, M.bind_run]
      have e : stepRef torn ord dev env ref r is (w, h) =
          match simStep ord dev env (s, r) is w with
          | (.ok sr, w') => (.ok sr.2, (w', h.set ref sr.1))
          | (.error e, w') => (.error e, (w', h.set ref (torn s))) := by
        unfold stepRef
        simp only [hs]
        rfl
      rw [e]
      cases hst : simStep ord dev env (s, r) is w with
      | mk res w' =>
        cases res with
        | error e => exact ⟨rfl, rfl⟩
        | ok sr =>
          obtain ⟨s', r'⟩ := sr
          refine ih s' r' (h.set ref s') ref w' ?_
          rw [List.getElem?_set_self]
          exact (List.getElem?_eq_some_iff.1 hs).1
  unfold simulateRef simulate simulateFull
  simp only [M.bind_assoc']
  rw [M.bind_run, M.bind_run]
  cases init with
  | some j =>
    have hj := hinit j rfl
    have hs : heap[j]? = some heap[j] := List.getElem?_eq_getElem hj
    simp only [Option.bind_some, hs, startRef, simStart]
    refine loop _ heap[j] _ _ _ _ ?_
    rw [List.getElem?_append_right (le_refl _)]
    simp
  | none =>
    simp only [Option.bind_none, startRef]
    cases hst : simStart dev test none w with
    | mk res w' =>
      cases res with
      | error e => exact ⟨rfl, rfl⟩
      | ok sr =>
        obtain ⟨s', r'⟩ := sr
        refine loop _ s' r' _ _ w' ?_
        rw [List.getElem?_append_right (le_refl _)]
        simp

/-! ## Concrete cases -/

omit [PyNum V] [Rng W V] in
/-- Reading off a computed result. -/
theorem exists_ok {α : Type} {x : Except Err α} {f : α → Bool}
    (h : (match x with | .ok a => f a | .error _ => false) = true) : ∃ a, x = .ok a ∧ f a = true := by
  cases x with
  | ok a => exact ⟨a, rfl, h⟩
  | error e => cases h

open Ex in
/-- A test with a stress and a measurement step. -/
def twoSteps : TestSpec Q :=
  { steps := [.strs ⟨[("temp", .fin 110), ("vdd", .fin 2)], .td 3600000000, "heat"⟩,
      .meas ⟨[("vth", 1), ("delay", 1)], [("temp", .fin 20), ("vdd", .fin 2)], "read"⟩,
      .strs ⟨[("temp", .fin 90), ("vdd", .fin 2)], .td 7200000000, "warm"⟩],
    numChps := 1, numLots := 1, name := "two", description := "" }

open Ex in
/-- The simulation of the first two steps from an initial state, then of the third. -/
example : ∃ sr : SimState Q × SimReport Q,
    ((simStart dev twoSteps none >>= runSteps orderA dev {} 0 (twoSteps.steps.take 2)) Counts.start).1 =
      .ok sr ∧ (sr.2.measurements.length == 2 && sr.2.summary.length == 2 &&
        sr.1.elapsed == .td 3600000000) = true :=
  exists_ok (by decide +kernel)

open Ex in
/-- A state object of the caller. -/
example : ∃ s : SimState Q × SimReport Q, (simStart dev twoSteps none Counts.start).1 = .ok s ∧
    (match (simulateRef id orderA twoSteps dev {} (some 0) (Counts.start, [s.1])).1 with
      | .ok r => r.measurements.length == 2
      | .error _ => false) = true :=
  exists_ok (by decide +kernel)

end Gerabaldi.Props
