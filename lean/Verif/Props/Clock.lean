import Verif.Spec.Clock
import Verif.Lemmas.Run
import Verif.Props.Samples

/-!
# C82: the starting time only shifts the clock
-/

namespace Gerabaldi.Props

open Gerabaldi Gerabaldi.Spec

section
variable {W V : Type}

theorem format_delay (k : Int) (v : PyVal V) (prm : String) (t : TimeVal) (i : Nat) (ty : PrmType) :
    formatMeasurements v prm (delay k t) i ty = (formatMeasurements v prm t i ty).map (List.map (delayRow k)) := by
  cases v with
  | arr a =>
    simp only [formatMeasurements, Except.map, formatArr, List.map_zipWith]
    rfl
  | scal x => rfl
  | npscal x => rfl

theorem set_delay (k : Int) (d : SumRow V) (key : String) (c : Cell V) :
    delayLine k (Dict.set d key c) = Dict.set (delayLine k d) key (delayCell k key c) := by
  induction d with
  | nil => rfl
  | cons kv rest ih =>
    obtain ⟨a, b⟩ := kv
    by_cases h : a = key
    · subst h
      simp [Dict.set, delayLine]
    · have h1 : Dict.set ((a, b) :: rest) key c = (a, b) :: Dict.set rest key c := by simp [Dict.set, h]
      rw [h1]
      show (a, delayCell k a b) :: delayLine k _ = Dict.set ((a, delayCell k a b) :: delayLine k rest) _ _
      rw [ih]
      simp [Dict.set, h]

theorem update_delay (k : Int) (d u : SumRow V) :
    delayLine k (Dict.update d u) = Dict.update (delayLine k d) (delayLine k u) := by
  unfold Dict.update
  induction u generalizing d with
  | nil => rfl
  | cons kv rest ih =>
    simp only [List.foldl_cons]
    rw [ih, set_delay]
    rfl

theorem summary_delay (k : Int) (name type : String) (i : Nat) (d a b : TimeVal) (conds : Dict V) :
    delayLine k (summaryRow name type i d a b conds) = summaryRow name type i d (delay k a) (delay k b) conds := by
  unfold summaryRow
  rw [update_delay]
  congr 1
  unfold delayLine
  rw [List.map_map]
  refine List.map_congr_left fun kv _ => ?_
  simp only [Function.comp, delayCell]
  split <;> rfl

end

section
variable {W V : Type} [PyNum V]

/-- The degradation does not look at the clock. -/
theorem stressPrm_delay (k : Int) (q : Quantities) (d : TimeVal) (conds : Dict (Dict (Arr3 V))) (s : SimState V)
    (kv : String × DegPrmMdl W V) :
    stressPrm q d conds (delayState k s) kv = (stressPrm q d conds s kv >>= fun s' => pure (delayState k s')) := by
  unfold stressPrm
  simp only [M.bind_assoc', M.pure_bind']
  rfl

variable [Rng W V]

omit [Rng W V] in
theorem measureTrue_delay (k : Int) (q : Quantities) (dev : DeviceMdl W V) (step : MeasSpec V) (i : Nat)
    (s : SimState V) (conds : Dict (Dict (Arr3 V))) (prm : String) (n : Nat) :
    measureTrue q dev step i (delayState k s) conds prm n =
      (measureTrue q dev step i s conds prm n >>= fun rows => pure (rows.map (delayRow k))) := by
  have hof : ∀ x : Except Err (List (MeasRow V)), (M.ofExcept (x.map (List.map (delayRow k))) : M W _) =
      ((M.ofExcept x : M W (List (MeasRow V))) >>= fun rows => pure (rows.map (delayRow k))) := by
    intro x; cases x <;> rfl
  have hth : ∀ e : Err, (M.throw e : M W (List (MeasRow V))) =
      ((M.throw e : M W (List (MeasRow V))) >>= fun rows => pure (rows.map (delayRow k))) := fun e => rfl
  unfold measureTrue
  simp only [show (delayState k s).currPrm = s.currPrm from rfl, show (delayState k s).latents = s.latents from rfl,
    show (delayState k s).elapsed = delay k s.elapsed from rfl]
  cases s.currPrm.get? prm with
  | some cur =>
    cases dev.prms.get? prm with
    | none => exact hth _
    | some x => cases x with
      | circ m => exact hth _
      | deg m =>
        simp only [M.bind_assoc', format_delay, hof]
  | none =>
    cases dev.prms.get? prm with
    | none =>
      simp only
      split
      · simp only [M.bind_assoc', format_delay, hof]
      · exact hth _
    | some x => cases x with
      | circ m => simp only [M.bind_assoc', format_delay, hof]
      | deg m => exact hth _

theorem readRows_delay (k : Int) (ins : Instrument V) (rows : List (MeasRow V)) :
    (readRows ins (rows.map (delayRow k)) : M W _) =
      (readRows ins rows >>= fun rows' => pure (rows'.map (delayRow k))) := by
  unfold readRows
  rw [show (rows.map (delayRow k)).map (·.measured) = rows.map (·.measured) by rw [List.map_map]; rfl]
  simp only [M.bind_assoc', M.pure_bind']
  congr 1
  funext ys
  congr 1
  rw [List.map_zipWith, List.zipWith_map_left]
  rfl

theorem measurePrm_delay (k : Int) (q : Quantities) (dev : DeviceMdl W V) (env : PhysTestEnv V) (step : MeasSpec V)
    (i : Nat) (s : SimState V) (conds : Dict (Dict (Arr3 V))) (acc : List (MeasRow V)) (kv : String × Nat) :
    measurePrm q dev env step i (delayState k s) conds (acc.map (delayRow k)) kv =
      (measurePrm q dev env step i s conds acc kv >>= fun rows => pure (rows.map (delayRow k))) := by
  unfold measurePrm
  rw [measureTrue_delay]
  simp only [M.bind_assoc', M.pure_bind', readRows_delay, List.map_append]

theorem measDelta_delay (k : Int) (ord : SetOrder) (dev : DeviceMdl W V) (env : PhysTestEnv V) (q : Quantities)
    (i : Nat) (m : MeasSpec V) (s : SimState V) :
    measDelta ord dev env q i m (delayState k s) =
      (measDelta ord dev env q i m s >>= fun d =>
        pure (delayState k d.1, d.2.1.map (delayRow k), d.2.2.map (delayLine k))) := by
  unfold measDelta
  simp only [M.bind_assoc', M.pure_bind']
  congr 1
  funext conds
  have := M.forIn'_map (f := measurePrm q dev env m i s conds) (f' := measurePrm q dev env m i (delayState k s) conds)
    (List.map (delayRow k)) (xs := m.measurements) (fun x _ b => measurePrm_delay k q dev env m i s conds b x) []
  rw [List.map_nil] at this
  rw [this, M.bind_assoc']
  simp only [M.pure_bind', List.map_cons, List.map_nil, summary_delay]
  rfl

theorem strsDelta_delay {k : Int} {ord : SetOrder} {dev : DeviceMdl W V} {env : PhysTestEnv V} {q : Quantities}
    {i : Nat} {st : StrsSpec V} {s : SimState V} {t us : Int} (hs : s.elapsed = .td t) (hd : st.duration = .td us)
    (h1 : tdValid (t + k)) (h2 : tdValid (t + k + us)) {d : Delta V} {w w' : W}
    (h : strsDelta ord dev env q i st s w = (.ok d, w')) :
    strsDelta ord dev env q i st (delayState k s) w =
      (.ok (delayState k d.1, d.2.1.map (delayRow k), d.2.2.map (delayLine k)), w') ∧ d.1.elapsed = .td (t + us) := by
  obtain ⟨s', rows, lines⟩ := d
  obtain ⟨conds, s1, e, b, w1, g1, g2, g3, g4, rfl, rfl, rfl⟩ := strsDelta_ok h
  have he : s1.elapsed = .td t := by rw [(stress_frame g2).1, hs]
  rw [he, hd] at g3
  have e1 : e = .td (t + us) := by
    simp only [TimeVal.add, tdAdd, tdMk] at g3
    split at g3
    · rename_i c hc
      split at hc
      · cases hc; cases g3; rfl
      · cases hc
    · cases g3
  subst e1
  rw [hd] at g4
  have e2 : b = .td t := by
    simp only [TimeVal.sub, tdMk] at g4
    split at g4
    · rename_i c hc
      split at hc
      · cases hc
        cases g4
        simp
      · cases hc
    · cases g4
  subst e2
  refine ⟨?_, rfl⟩
  have hl := M.forIn'_map (f := stressPrm q st.duration conds) (f' := stressPrm q st.duration conds)
    (delayState k) (xs := dev.degPrms) (fun x _ b => stressPrm_delay k q st.duration conds b x) s
  unfold strsDelta
  rw [M.bind_ok g1, hl, M.bind_assoc', M.bind_ok g2, M.pure_bind']
  have a1 : (delayState k s1).elapsed.add st.duration = .ok (.td (t + k + us)) := by
    simp only [delayState, he, delay, hd, TimeVal.add, tdAdd, tdMk, if_pos h2]
  have a2 : TimeVal.sub (.td (t + k + us)) st.duration = .ok (.td (t + k)) := by
    have : t + k + us - us = t + k := by omega
    simp only [hd, TimeVal.sub, tdMk, this, if_pos h1]
  rw [M.bind_ok (a := TimeVal.td (t + k + us)) (w' := w') (by rw [a1]; rfl),
    M.bind_ok (a := TimeVal.td (t + k)) (w' := w') (by rw [a2]; rfl)]
  simp only [List.map_cons, List.map_nil, summary_delay, delay, delayState]
  rw [show t + us + k = t + k + us by omega]
  rfl

theorem runDelta_delay {k : Int} {ord : SetOrder} {dev : DeviceMdl W V} {env : PhysTestEnv V} {q : Quantities}
    {i : Nat} {steps : List (Step V)} {s : SimState V} {t : Int} (hs : s.elapsed = .td t)
    (hf : ClockFits (t + k) steps) {d : Delta V} {w w' : W} (h : runDelta ord dev env q i steps s w = (.ok d, w')) :
    runDelta ord dev env q i steps (delayState k s) w =
      (.ok (delayState k d.1, d.2.1.map (delayRow k), d.2.2.map (delayLine k)), w') := by
  induction steps generalizing i s t d w with
  | nil => cases h; rfl
  | cons st rest ih =>
    obtain ⟨s', rows, lines⟩ := d
    obtain ⟨s1, rows1, lines1, rows2, lines2, w1, h1, h2, rfl, rfl⟩ := runDelta_cons_ok.1 h
    have key : stepDelta ord dev env q i st (delayState k s) w =
        (.ok (delayState k s1, rows1.map (delayRow k), lines1.map (delayLine k)), w1) ∧
        ∃ t1, s1.elapsed = .td t1 ∧ ClockFits (t1 + k) rest := by
      cases st with
      | strs st =>
        obtain ⟨f1, us, f2, f3⟩ := hf
        have f4 : tdValid (t + k + us) := by
          clear ih h h2
          generalize t + k + us = x at f3
          clear h1 hs f2
          induction rest generalizing x with
          | nil => exact f3
          | cons y rest ih => cases y with
            | strs _ => exact f3.1
            | meas _ => exact ih _ f3
            | other _ => exact ih _ f3
        obtain ⟨g1, g2⟩ := strsDelta_delay hs f2 f1 f4 h1
        exact ⟨g1, _, g2, by rw [show t + us + k = t + k + us by omega]; exact f3⟩
      | meas m =>
        have g := h1
        change measDelta ord dev env q i m s w = _ at g
        refine ⟨?_, t, ?_, hf⟩
        · show measDelta ord dev env q i m (delayState k s) w = _
          rw [measDelta_delay, M.bind_ok g]
          rfl
        · obtain ⟨_, _, _, _, rfl, _⟩ := measDelta_ok g
          exact hs
      | other x => cases h1; exact ⟨rfl, t, hs, hf⟩
    obtain ⟨k1, t1, k2, k3⟩ := key
    have := ih k2 k3 h2
    refine (runDelta_cons_ok (s' := delayState k s')).2 ⟨_, _, _, _, _, _, k1, this, ?_, ?_⟩ <;> simp

/-- **C82**: a simulation of given devices at a later starting time is the same simulation `k` microseconds later: the
same values, random numbers and rows, with all times in both tables moved by `k`. -/
theorem C82_later {ord : SetOrder} {dev : DeviceMdl W V} {env : PhysTestEnv V} {test : TestSpec V} {s : SimState V}
    {t k : Int} (hs : s.elapsed = .td t) (hf : ClockFits (t + k) test.steps) {r : SimReport V} {w w' : W}
    (h : simulate ord test dev env (some s) w = (.ok r, w')) :
    simulate ord test dev env (some (delayState k s)) w = (.ok (delayReport k r), w') := by
  obtain ⟨⟨sf, rf⟩, w1, h1, h2⟩ := M.bind_eq_ok.1 h
  cases h2
  obtain ⟨⟨s0, r0⟩, w2, h3, h4⟩ := M.bind_eq_ok.1 h1
  cases h3
  obtain ⟨rows, lines, h5, rfl⟩ := runSteps_ok.1 h4
  have h6 := runDelta_delay hs hf h5
  have h7 : runSteps ord dev env 0 test.steps (delayState k s, SimReport.ofTest test) w =
      (.ok (delayState k sf, (SimReport.ofTest test).grow (rows.map (delayRow k)) (lines.map (delayLine k))), w') :=
    runSteps_ok.2 ⟨_, _, h6, rfl⟩
  have h8 : simulateFull ord test dev env (some (delayState k s)) w = _ := h7
  show (simulateFull ord test dev env (some (delayState k s)) >>= fun sr => pure sr.2) w = _
  rw [M.bind_ok h8]
  simp [delayReport, SimReport.grow, SimReport.ofTest]

/-- **C82**, new devices: `gen_init_state` with a later time makes the same devices at that time. -/
theorem C82_start {dev : DeviceMdl W V} {counts : Option (Dict Nat)} {chps lots : Nat} {info : Option Quantities}
    {t k : Int} {x : InitResult V} {w w' : W} (h : genInitState dev counts chps lots info (.td t) w = (.ok x, w')) :
    x.state.elapsed = .td t ∧
    genInitState dev counts chps lots info (.td (t + k)) w = (.ok { x with state := delayState k x.state }, w') := by
  have key : ∀ devs c l s w', genInitFrom dev devs c l (.td t) w = (.ok s, w') → s.elapsed = .td t ∧
      genInitFrom dev devs c l (.td (t + k)) w = (.ok (delayState k s), w') := by
    intro devs c l s w' h
    obtain ⟨s', w1, h1, h2⟩ := M.bind_eq_ok.1 h
    cases h2
    refine ⟨rfl, ?_⟩
    unfold genInitFrom
    rw [M.bind_ok h1]
    rfl
  unfold genInitState at h ⊢
  generalize counts.filter (fun d => !d.isEmpty) = c at h ⊢
  cases c with
  | none => cases info with
    | none => cases h
    | some q =>
      obtain ⟨s, w1, h1, h2⟩ := M.bind_eq_ok.1 h
      cases h2
      obtain ⟨g1, g2⟩ := key _ _ _ _ _ h1
      exact ⟨g1, M.bind_ok g2⟩
  | some d => cases info with
    | none =>
      obtain ⟨s, w1, h1, h2⟩ := M.bind_eq_ok.1 h
      cases h2
      obtain ⟨g1, g2⟩ := key _ _ _ _ _ h1
      exact ⟨g1, M.bind_ok g2⟩
    | some q =>
      obtain ⟨s, w1, h1, h2⟩ := M.bind_eq_ok.1 h
      cases h2
      obtain ⟨g1, g2⟩ := key _ _ _ _ _ h1
      exact ⟨g1, M.bind_ok g2⟩

/-- **C82** is violated for starting times given as numbers, which the documentation allows: every test with a stress
phase fails, whatever the device and the environment. -/
theorem C82_number_violated {ord : SetOrder} {dev : DeviceMdl W V} {env : PhysTestEnv V} {test : TestSpec V}
    {s : SimState V} {x : ℚ} (hs : s.elapsed = .num x) {st : StrsSpec V} (hm : .strs st ∈ test.steps)
    (hd : ∀ st, .strs st ∈ test.steps → ∃ us, st.duration = .td us) (w : W) :
    ∀ r w', simulate ord test dev env (some s) w ≠ (.ok r, w') := by
  intro r w' h
  obtain ⟨⟨sf, rf⟩, w1, h1, h2⟩ := M.bind_eq_ok.1 h
  cases h2
  obtain ⟨⟨s0, r0⟩, w2, h3, h4⟩ := M.bind_eq_ok.1 h1
  cases h3
  obtain ⟨rows, lines, h5, -⟩ := runSteps_ok.1 h4
  clear h h1 h4
  revert hm hd h5
  generalize test.steps = steps
  intro hm hd h5
  generalize (0 : Nat) = i at h5
  induction steps generalizing i s rows lines w with
  | nil => cases hm
  | cons y rest ih =>
    obtain ⟨s1, rows1, lines1, rows2, lines2, w3, g1, g2, rfl, rfl⟩ := runDelta_cons_ok.1 h5
    have hrest : (∃ a, y = .strs a) ∨ Step.strs st ∈ rest := by
      rcases List.mem_cons.1 hm with h | h
      · exact .inl ⟨st, h.symm⟩
      · exact .inr h
    cases y with
    | strs a =>
      obtain ⟨conds, s2, e, b, w4, -, k2, k3, -⟩ := strsDelta_ok g1
      obtain ⟨us, hus⟩ := hd a List.mem_cons_self
      rw [(stress_frame k2).1, hs, hus] at k3
      cases k3
    | meas m =>
      obtain ⟨_, _, _, _, rfl, _⟩ := measDelta_ok g1
      refine ih hs w3 _ _ (hrest.resolve_left (by rintro ⟨a, h⟩; cases h)) (fun st h => hd st (List.mem_cons_of_mem _ h)) _ g2
    | other z =>
      cases g1
      exact ih hs w _ _ (hrest.resolve_left (by rintro ⟨a, h⟩; cases h)) (fun st h => hd st (List.mem_cons_of_mem _ h)) _ g2

/-- `gen_init_state` accepts such a time. -/
theorem number_start {dev : DeviceMdl W V} {d : Dict Nat} {chps lots : Nat} (hd : d ≠ []) {q : ℚ} (hq : q ≠ 0)
    {x : InitResult V} {w w' : W} (h : genInitState dev (some d) chps lots none (.num q) w = (.ok x, w')) :
    x.state.elapsed = .num q := by
  have he : (some d).filter (fun d => !d.isEmpty) = some d := by
    cases d with
    | nil => exact absurd rfl hd
    | cons _ _ => rfl
  unfold genInitState at h
  rw [he] at h
  obtain ⟨s, w1, h1, h2⟩ := M.bind_eq_ok.1 h
  cases h2
  obtain ⟨s', w1, h1, h2⟩ := M.bind_eq_ok.1 h1
  cases h2
  show (withElapsed s' (.num q)).elapsed = _
  unfold withElapsed
  rw [if_neg (by simpa using hq)]

end

/-! ### The example device, tested from a start at two hours -/

section
open Ex

/-- The devices of `tableTest`, made at time `e`. -/
def clockInit (e : TimeVal) : Except Err (InitResult Q) :=
  (genInitState Ex.dev (some [("vth", 2), ("delay", 2)]) 1 2 none e Counts.start).1

/-- A test of these devices. -/
def clockTest : TestSpec Q :=
  { steps := [.meas ⟨[("vth", 2), ("delay", 2)], [("temp", .fin 20), ("vdd", .fin 2)], "before"⟩,
      .strs ⟨[("temp", .fin 120), ("vdd", .fin 2)], .td 3600000000, "heat"⟩,
      .meas ⟨[("vth", 1)], [("temp", .fin 20), ("vdd", .fin 3)], "after"⟩],
    numChps := 1, numLots := 2, name := "clock", description := "" }

/-- Its times stay in range. -/
theorem clock_fits : ClockFits (0 + 7200000000) clockTest.steps := by
  refine ⟨by decide, 3600000000, rfl, ?_⟩
  show tdValid _
  decide

/-- Started at two hours it reads the same values as when started at zero, two hours later. -/
example : ∃ x r, clockInit (.td 0) = .ok x ∧
    clockInit (.td 7200000000) = .ok { x with state := delayState 7200000000 x.state } ∧
    (simulate orderA clockTest Ex.dev ⟨[], []⟩ (some x.state) Counts.start).1 = .ok r ∧
    (simulate orderA clockTest Ex.dev ⟨[], []⟩ (some (delayState 7200000000 x.state)) Counts.start).1 =
      .ok (delayReport 7200000000 r) ∧
    (delayReport 7200000000 r).measurements.map (fun m => (m.prm, m.time, m.measured)) = [("vth", .td 7200000000, .fin 3),
      ("vth", .td 7200000000, .fin 3), ("vth", .td 7200000000, .fin 3), ("vth", .td 7200000000, .fin 3),
      ("delay", .td 7200000000, .fin 6), ("delay", .td 7200000000, .fin 6), ("delay", .td 7200000000, .fin 6),
      ("delay", .td 7200000000, .fin 6), ("vth", .td 10800000000, .fin 8), ("vth", .td 10800000000, .fin 8)] := by
  obtain ⟨r, h, hr⟩ : ∃ r, (clockInit (.td 0) >>= fun x =>
      (simulate orderA clockTest Ex.dev ⟨[], []⟩ (some x.state) Counts.start).1) = .ok r ∧
      decide ((delayReport 7200000000 r).measurements.map (fun m => (m.prm, m.time, m.measured)) =
        [("vth", .td 7200000000, .fin 3),
      ("vth", .td 7200000000, .fin 3), ("vth", .td 7200000000, .fin 3), ("vth", .td 7200000000, .fin 3),
      ("delay", .td 7200000000, .fin 6), ("delay", .td 7200000000, .fin 6), ("delay", .td 7200000000, .fin 6),
      ("delay", .td 7200000000, .fin 6), ("vth", .td 10800000000, .fin 8), ("vth", .td 10800000000, .fin 8)]) = true :=
    exists_ok (by decide +kernel)
  cases hx : clockInit (.td 0) with
  | error e => rw [hx] at h; cases h
  | ok x =>
    rw [hx] at h
    have hx' : genInitState Ex.dev (some [("vth", 2), ("delay", 2)]) 1 2 none (.td 0) Counts.start = (.ok x, _) :=
      Prod.ext hx rfl
    obtain ⟨g1, g2⟩ := C82_start (k := 7200000000) hx'
    have h' : simulate orderA clockTest Ex.dev ⟨[], []⟩ (some x.state) Counts.start = (.ok r, _) := Prod.ext h rfl
    exact ⟨x, r, rfl, congrArg Prod.fst g2, h, congrArg Prod.fst (C82_later g1 clock_fits h'), of_decide_eq_true hr⟩

/-- Started at the number 2 (accepted by `gen_init_state`) it fails. -/
example : ∃ x, clockInit (.num 2) = .ok x ∧
    ∀ r w, simulate orderA clockTest Ex.dev ⟨[], []⟩ (some x.state) Counts.start ≠ (.ok r, w) := by
  obtain ⟨x, h, -⟩ : ∃ x, clockInit (.num 2) = .ok x ∧ true = true := exists_ok (by decide +kernel)
  have h' : genInitState Ex.dev (some [("vth", 2), ("delay", 2)]) 1 2 none (.num 2) Counts.start = (.ok x, _) :=
    Prod.ext h rfl
  refine ⟨x, h, C82_number_violated (number_start (by simp) (by norm_num) h')
    (st := ⟨[("temp", .fin 120), ("vdd", .fin 2)], .td 3600000000, "heat"⟩) (by simp [clockTest]) ?_ _⟩
  intro st hst
  simp only [clockTest, List.mem_cons, List.not_mem_nil, or_false] at hst
  rcases hst with h | h | h <;> cases h
  exact ⟨_, rfl⟩

end
end Gerabaldi.Props
