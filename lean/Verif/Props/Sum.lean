import Verif.Props.Compose
import Verif.Props.Samples
import Verif.Props.Fail
import Verif.Props.DegradeEx

/-!
# C25 and C34 for whole steps and simulations
-/

namespace Gerabaldi.Props

open Gerabaldi Gerabaldi.Spec

section
variable {W V : Type} [PyNum V]

/-- In state `s` the true value of each of the `n` devices of parameter `prm` is its initial value plus the
neutral value of the conditional model plus the sum of its mechanism values. -/
def SumsUp (m : DegPrmMdl W V) (s : SimState V) (L C n : Nat) (prm : String) : Prop :=
  ∃ ia a mv, s.initPrm.get? prm = some (.arr ia) ∧ ia.HasDims L C n ∧
    s.currPrm.get? prm = some (.arr a) ∧ a.HasDims L C n ∧
    s.currMech.get? prm = some mv ∧ mv.keys = m.mechs.keys ∧
    ∀ l < L, ∀ c < C, ∀ d < n,
      a.at' l c d = defaultSum (ia.at' l c d) m.condUnitary (mv.map fun kv => kv.2.at' l c d)

theorem stressPrm_sums {q : Quantities} {dur : TimeVal} {conds : Dict (Dict (Arr3 V))}
    {s s' : SimState V} {prm : String} {m : DegPrmMdl W V} {w w' : W}
    (h : stressPrm q dur conds s (prm, m) w = (.ok s', w')) (hb : m.mdl.compute = basicSum)
    (hn : ∀ lat, s.latents.get? prm = some lat → PlainNames m lat) {n : Nat}
    (hq : q.devCounts.get? prm = some n) (hold : DegHolds m s q.numLots q.numChps n prm)
    (hold' : DegHolds m s' q.numLots q.numChps n prm) : SumsUp m s' q.numLots q.numChps n prm := by
  obtain ⟨n', cur, cs, im, lat, eq0, times, ip, p, mv, w1, w2, h1, h2, h3, h4, h5, h6, h7, h8, h9, h10,
    rfl⟩ := stressPrm_ok h
  simp only at h1 h2 h3 h4 h5 h6 h7 h8 h9 h10
  rw [hq] at h1
  cases h1
  obtain ⟨ia, hia, hid⟩ := hold.init
  rw [h8] at hia
  cases hia
  obtain ⟨mv', hmv', hk, hmd⟩ := hold'.mech
  have e : mv' = mv := Option.some.inj (hmv'.symm.trans (Dict.get?_set_self ..))
  subst e
  obtain ⟨-, a, rfl, ha, hv⟩ := C34_true_value_partial hb (hn lat h5) hid (times := times) (conds := cs)
    (degVals := cur) (p := p) (mv := mv') (w := w1) (w' := w') (by
      unfold DegPrmMdl.calcDegVals
      rw [M.bind_ok h9, M.bind_ok h10]
      rfl) (fun kv hkv => hmd _ _ hkv)
  exact ⟨ia, a, mv', h8, hid, Dict.get?_set_self .., ha, hmv', hk, hv⟩

theorem stressPrm_sums_other {q : Quantities} {dur : TimeVal} {conds : Dict (Dict (Arr3 V))}
    {s s' : SimState V} {kv : String × DegPrmMdl W V} {prm : String} {m : DegPrmMdl W V} {w w' : W}
    (h : stressPrm q dur conds s kv w = (.ok s', w')) (hne : kv.1 ≠ prm) {L C n : Nat}
    (hs : SumsUp m s L C n prm) : SumsUp m s' L C n prm := by
  obtain ⟨_, _, _, _, _, _, _, _, _, _, _, _, -, -, -, -, -, -, -, -, -, -, rfl⟩ := stressPrm_ok h
  obtain ⟨ia, a, mv, h1, h2, h3, h4, h5, h6⟩ := hs
  exact ⟨ia, a, mv, h1, h2, (Dict.get?_set_ne _ _ hne).trans h3, h4,
    (Dict.get?_set_ne _ _ hne).trans h5, h6⟩

variable [Rng W V]

/-- **C34**, a stress step: afterwards the true value of every device of a parameter with the default
equation is its initial value plus the sum of its mechanism values (plus the neutral value of the
conditional model), whatever they were before. (For plain names; `DegShapes`: the equations keep shapes.) -/
theorem C34_stress_partial {ord : SetOrder} {dev : DeviceMdl W V} {env : PhysTestEnv V}
    (hnd : dev.prms.Nodup) (hm : ∀ p d, dev.prms.get? p = some (.deg d) → d.mechs.Nodup)
    (hs : ∀ p d, dev.prms.get? p = some (.deg d) → DegShapes d) {step : StrsSpec V} {i : Nat}
    {s s' : SimState V} {r r' : SimReport V} {w w' : W} (hshape : StateShape dev r.info s)
    (h : simStress ord dev env step i (s, r) w = (.ok (s', r'), w'))
    {prm : String} {m : DegPrmMdl W V} (hp : dev.prms.get? prm = some (.deg m))
    (hb : m.mdl.compute = basicSum)
    (hn : ∀ lat, s.latents.get? prm = some lat → PlainNames m lat) {n : Nat}
    (hq : r.info.devCounts.get? prm = some n) :
    SumsUp m s' r.info.numLots r.info.numChps n prm := by
  obtain ⟨conds, s1, e, st, w1, h1, h2, _, _, rfl, rfl⟩ := simStress_ok h
  have key := M.forIn'_ok_inv (P := fun pr s1 _ => StateShape dev r.info s1 ∧
    s1.latents = s.latents ∧
    ((∃ kv ∈ pr, kv.1 = prm) → SumsUp m s1 r.info.numLots r.info.numChps n prm)) h2
    ⟨hshape, rfl, fun ⟨kv, hkv, _⟩ => absurd hkv List.not_mem_nil⟩ ?_
  · exact key.2.2 ⟨_, Gerabaldi.mem_degPrms.2 (Dict.mem_of_get? hp), rfl⟩
  · rintro pr kv post s4 w4 s5 w5 hx ⟨b1, b2, b3⟩ hstep
    have hkv : kv ∈ dev.degPrms := by rw [hx]; simp
    have hsh5 : StateShape dev r.info s5 := by
      refine stressPrm_shape hnd hm hs hkv (fun n cs hn hcs => ?_) b1 hstep
      refine conds_dims h1 rfl (List.mem_map_of_mem hkv) ?_ hn hcs
      exact List.mem_map_of_mem (Gerabaldi.mem_degPrms.1 hkv)
    refine ⟨hsh5, ?_, ?_⟩
    · obtain ⟨_, _, _, _, _, _, _, _, _, _, _, _, -, -, -, -, -, -, -, -, -, -, rfl⟩ := stressPrm_ok hstep
      exact b2
    · intro hpr
      by_cases hk : kv.1 = prm
      · have hkv' : kv = (prm, m) := mem_degPrms hnd hp hkv hk
        rw [hkv'] at hstep
        exact stressPrm_sums hstep hb (by rw [b2]; exact hn) hq (b1.deg _ _ _ hp hq) (hsh5.deg _ _ _ hp hq)
      · refine stressPrm_sums_other hstep hk (b3 ?_)
        obtain ⟨kv', hkv', he⟩ := hpr
        rcases List.mem_append.1 hkv' with h' | h'
        · exact ⟨kv', h', he⟩
        · rw [List.mem_singleton.1 h'] at he
          exact absurd he hk

/-- **C34**, a generated initial state: with neutral values 0 the sum holds from the start. -/
theorem C34_start [UnitLaws V] {dev : DeviceMdl W V} (hnd : dev.prms.Nodup)
    (hs : ∀ p d, dev.prms.get? p = some (.deg d) → DegShapes d) {test : TestSpec V}
    {s : SimState V} {r : SimReport V} {w w' : W}
    (h : simStart dev test none w = (.ok (s, r), w'))
    {prm : String} {m : DegPrmMdl W V} (hp : dev.prms.get? prm = some (.deg m))
    (hz : NeutralZero m) (hc : m.condUnitary = PyArith.ofRat 0) {n : Nat}
    (hq : r.info.devCounts.get? prm = some n) :
    SumsUp m s r.info.numLots r.info.numChps n prm := by
  obtain ⟨x, w1, h1, h2⟩ := M.bind_eq_ok.1 h
  obtain ⟨s1, w2, h3, h4⟩ := M.bind_eq_ok.1 h1
  cases h4
  cases h2
  obtain ⟨s0, w3, h5, h6⟩ := M.bind_eq_ok.1 h3
  cases h6
  obtain ⟨_, a2, a3, a4, a5⟩ := devInit_ok hnd h5
  obtain ⟨n', lat, b1, b2, _, b4, v, u, u', b5, b6⟩ := a4 prm _ hp
  have : n' = n := Option.some.inj (Eq.trans (Eq.symm b1) hq)
  subst this
  obtain ⟨a, rfl, ha⟩ := genInitVals_arr (hs prm m hp).init (hs prm m hp).initLatents b5
  have hk : (m.genInitMechVals n' test.numChps test.numLots).keys = m.mechs.keys := by
    simp [DegPrmMdl.genInitMechVals, Dict.keys, Function.comp_def]
  refine ⟨a, a, _, by show s0.initPrm.get? prm = _; rw [a2]; exact b6, ha, b6, ha, b4, hk, ?_⟩
  show ∀ l < test.numLots, ∀ c < test.numChps, ∀ d < n', a.at' l c d =
    defaultSum (a.at' l c d) m.condUnitary
      ((m.genInitMechVals n' test.numChps test.numLots).map fun kv => kv.2.at' l c d)
  intro l hl c hc' d hd
  have hzero : (List.map (fun kv => kv.2.at' l c d) (m.genInitMechVals n' test.numChps test.numLots)).foldl
      PyArith.add (PyArith.ofRat 0) = (PyArith.ofRat 0 : V) := by
    have hall : ∀ x ∈ List.map (fun kv => kv.2.at' l c d)
        (m.genInitMechVals n' test.numChps test.numLots), x = (PyArith.ofRat 0 : V) := by
      intro x hx
      obtain ⟨kv, hkv, rfl⟩ := List.mem_map.1 hx
      obtain ⟨km, hkm, rfl⟩ := List.mem_map.1 hkv
      show (Arr3.full test.numLots test.numChps n' km.2.unitary).at' l c d = _
      rw [Arr3.at_full _ hl hc' hd]
      exact hz.mechs km hkm
    revert hall
    generalize List.map (fun kv => kv.2.at' l c d) (m.genInitMechVals n' test.numChps test.numLots) = xs
    intro hall
    induction xs with
    | nil => rfl
    | cons x xs ih =>
      rw [List.foldl_cons, hall x List.mem_cons_self, UnitLaws.add_zero]
      exact ih fun y hy => hall y (List.mem_cons_of_mem _ hy)
  unfold defaultSum
  rw [hzero, hc, UnitLaws.add_zero, UnitLaws.add_zero]

/-- **C34**, any run: the sum is kept by every sequence of steps (for plain names). -/
theorem C34_run_partial {ord : SetOrder} {dev : DeviceMdl W V} {env : PhysTestEnv V}
    (hnd : dev.prms.Nodup) (hm : ∀ p d, dev.prms.get? p = some (.deg d) → d.mechs.Nodup)
    (hs : ∀ p d, dev.prms.get? p = some (.deg d) → DegShapes d) {steps : List (Step V)} {i : Nat}
    {s s' : SimState V} {r r' : SimReport V} {w w' : W} (hshape : StateShape dev r.info s)
    (h : runSteps ord dev env i steps (s, r) w = (.ok (s', r'), w'))
    {prm : String} {m : DegPrmMdl W V} (hp : dev.prms.get? prm = some (.deg m))
    (hb : m.mdl.compute = basicSum)
    (hn : ∀ lat, s.latents.get? prm = some lat → PlainNames m lat) {n : Nat}
    (hq : r.info.devCounts.get? prm = some n)
    (hsum : SumsUp m s r.info.numLots r.info.numChps n prm) :
    SumsUp m s' r.info.numLots r.info.numChps n prm := by
  refine (M.forIn'_ok_inv (P := fun _ x _ => StateShape dev x.2.info x.1 ∧ x.2.info = r.info ∧
    x.1.latents = s.latents ∧ SumsUp m x.1 r.info.numLots r.info.numChps n prm) h
    ⟨hshape, rfl, rfl, hsum⟩ ?_).2.2.2
  rintro pre ⟨j, st⟩ post ⟨s1, r1⟩ w1 ⟨s2, r2⟩ w2 - ⟨b1, b2, b3, b4⟩ hf
  cases st with
  | strs st =>
    have hf' : simStress ord dev env st j (s1, r1) w1 = (.ok (s2, r2), w2) := hf
    have hsum2 := C34_stress_partial hnd hm hs b1 hf' hp hb (by simp only at b3; rw [b3]; exact hn)
      (by simp only at b2; rw [b2]; exact hq)
    simp only at b2
    rw [b2] at hsum2
    refine ⟨simStress_shape hnd hm hs b1 hf', ?_, ?_, hsum2⟩
    · obtain ⟨_, _, _, _, _, _, _, _, _, _, rfl⟩ := simStress_ok hf'
      exact b2
    · obtain ⟨_, _, _, _, _, _, h2, _, _, rfl, _⟩ := simStress_ok hf'
      exact (stress_frame h2).2.2.2.trans b3
  | meas st =>
    have hf' : simMeas ord dev env st j (s1, r1) w1 = (.ok (s2, r2), w2) := hf
    obtain ⟨_, _, _, _, _, rfl, rfl⟩ := simMeas_ok hf'
    exact ⟨b1, b2, b3, b4⟩
  | other t =>
    cases hf
    exact ⟨b1, b2, b3, b4⟩

omit [Rng W V] in
/-- **C34**, the constructors: a parameter model created with mechanisms whose neutral value is 0, the
default equation and no conditional model has no conditional shift and neutral values 0. -/
theorem C34_defaults {mechs : Dict (MechMdl W V)} (hm : ∀ kv ∈ mechs, kv.2.unitary = PyArith.ofRat 0)
    (initMdl : Option (LatentMdl W V)) (name timeUnit : Option String) (latents : Dict (LatentVar V)) :
    ∃ m, DegPrmMdl.mk' (.many mechs) initMdl none none name timeUnit latents = .ok m ∧ NeutralZero m ∧
      m.condUnitary = PyArith.ofRat 0 ∧ m.mechs.keys = mechs.keys := by
  refine ⟨_, rfl, ⟨rfl, rfl, ?_⟩, rfl, ?_⟩
  · intro kv hkv
    obtain ⟨kv', h', rfl⟩ := List.mem_map.1 hkv
    exact hm kv' h'
  · simp [Dict.keys, Function.comp_def]

/-- **C25**, a stress step of a `DegMechMdl` (elementwise equations): every sample gets the value of the
equation at its equivalent time plus the duration of the step, or keeps its previous value when that time
is above 9e9. Missing: C25_infinite_violated. -/
theorem C25_step_partial [InfLaw V] {ord : SetOrder} {dev : DeviceMdl W V} {env : PhysTestEnv V}
    {st : StrsSpec V} {i : Nat} {s s' : SimState V} {r : SimReport V} {w : W} {prm mech : String}
    {k : MechMdl W V} {pre : Arr3 V} {cs lat : Dict (Arr3 V)} {n : Nat}
    (h : StressedMech ord dev env st i s r w s' prm mech k pre cs lat n) (hkind : k.kind = .deg)
    {g : Dict (PyVal V) → V} (hs : SampleWise k g cs lat r.info.numLots r.info.numChps n)
    {l c d : Nat} (hl : l < r.info.numLots) (hc : c < r.info.numChps) (hd : d < n)
    (hfin : PyArith.eq (pre.at' l c d) PyNum.inf = false) :
    ∃ t0 x v w1 w2,
      k.calcEquivSearch pre cs lat r.info.numLots r.info.numChps n w1 = (.ok t0, w2) ∧
      convertTime st.duration k.timeUnit = .ok (.num x) ∧ mechVal s' prm mech = some v ∧
      v.at' l c d =
        if PyArith.lt (PyArith.ofRat 9000000000) (PyArith.add (t0.at' l c d) (PyArith.ofRat x)) = true then
          pre.at' l c d
        else curve k g cs lat r.info.numLots r.info.numChps n l c d
          (PyArith.add (t0.at' l c d) (PyArith.ofRat x)) := by
  obtain ⟨t0, x, v, w1, w2, h1, -, h3, h4, -, h6⟩ := stressed_deg h hkind hs
  refine ⟨t0, x, v, w1, w2, h1, h3, h4, ?_⟩
  rw [h6 l hl c hc d hd]
  simp only [hfin, and_true]

end

open Ex in
/-- The sum holds at the end of the simulation of `twoSteps`. -/
example : ∃ sr sr' : SimState Q × SimReport Q, (simStart dev twoSteps none Counts.start).1 = .ok sr ∧
    (runSteps orderA dev ⟨[], []⟩ 0 twoSteps.steps sr Counts.start).1 = .ok sr' ∧
    SumsUp (degPrm [("burn", burn)] (.fin 3)) sr'.1 1 1 1 "vth" ∧
    mechVal sr'.1 "vth" "burn" = some (Arr3.full 1 1 1 (.fin 5)) := by
  obtain ⟨⟨s, r⟩, h, hr⟩ : ∃ sr : SimState Q × SimReport Q,
      (simStart dev twoSteps none Counts.start).1 = .ok sr ∧
      (decide (sr.2.info.devCounts.get? "vth" = some 1) &&
        decide (sr.2.info.numLots = 1) && decide (sr.2.info.numChps = 1) &&
        decide (sr.1.latents.get? "vth" = some [("cond", .sub []), ("burn", .sub [])]) &&
        (match (runSteps orderA dev ⟨[], []⟩ 0 twoSteps.steps sr Counts.start).1 with
        | .ok sr' => decide (mechVal sr'.1 "vth" "burn" = some (Arr3.full 1 1 1 (.fin 5)))
        | .error _ => false)) = true :=
    exists_ok (by decide +kernel)
  simp only [Bool.and_eq_true, decide_eq_true_eq] at hr
  obtain ⟨⟨⟨⟨h1, h2⟩, h3⟩, h4⟩, h5⟩ := hr
  cases hrun : runSteps orderA dev ⟨[], []⟩ 0 twoSteps.steps (s, r) Counts.start with
  | mk e w =>
  rw [hrun] at h5
  cases e with
  | error e => cases h5
  | ok sr' =>
  have hnd : dev.prms.Nodup := by decide
  have hst : simStart dev twoSteps none Counts.start = (.ok (s, r), _) := Prod.ext h rfl
  have hz : NeutralZero (degPrm [("burn", burn)] (.fin 3)) := by
    refine ⟨rfl, rfl, fun kv hkv => ?_⟩
    cases List.mem_singleton.1 hkv
    rfl
  have hsum := C34_run_partial (prm := "vth") (n := 1) hnd ex_mechs ex_shapes
    (simStart_shape hnd ex_shapes hst).1 hrun rfl rfl
    (fun lat hlat => by
      have hlat' := h4.symm.trans hlat
      cases hlat'
      exact ⟨by decide, by decide, by decide, by decide⟩)
    h1 (C34_start hnd ex_shapes hst rfl hz rfl h1)
  rw [h2, h3] at hsum
  exact ⟨(s, r), sr', h, by rw [hrun], hsum, of_decide_eq_true h5⟩

/-- Any mechanism of the time: a sample at 2 goes to the curve's value an hour after its equivalent time. -/
example (w : Counts) (F : ℝ → ℝ) : ∃ s' r' w', simStress Ex.orderA (timeDev (timeMech .deg "s" F)) ⟨[], []⟩
      (timeStep 3600000000) 0 (timeState 2 1, timeReport 1) w = (.ok (s', r'), w') ∧
    ∃ t0 v w1 w2, (timeMech .deg "s" F).calcEquivSearch (Arr3.full 1 1 1 (.fin 2)) [] [] 1 1 1 w1 =
        (.ok t0, w2) ∧ mechVal s' "vth" "m" = some v ∧
      v.at' 0 0 0 =
        if PyArith.lt (PyArith.ofRat 9000000000) (PyArith.add (t0.at' 0 0 0) (.fin 3600)) = true then .fin 2
        else onFin F (PyArith.add (t0.at' 0 0 0) (.fin 3600)) := by
  obtain ⟨s', h⟩ := time_stressed (kind := .deg) (by decide) (unit := "s") (by decide)
    F 2 1 (us := 3600000000) (by decide) w
  obtain ⟨r', w', hrun⟩ := h.run
  obtain ⟨t0, x, v, w1, w2, h1, h2, h3, h4⟩ := C25_step_partial h rfl (time_sampleWise _ _ _ 1 1 1)
    (l := 0) (c := 0) (d := 0) Nat.one_pos Nat.one_pos Nat.one_pos
    (by rw [Arr3.at_full _ Nat.one_pos Nat.one_pos Nat.one_pos]; rfl)
  have hx : x = 3600 := by
    have : convertTime (timeStep 3600000000).duration (timeMech .deg "s" F).timeUnit =
        .ok (.num 3600) := by
      show convertTime (.td 3600000000) (some "s") = _
      decide +kernel
    rw [this] at h2
    cases h2
    rfl
  subst hx
  refine ⟨s', r', w', hrun, t0, v, w1, w2, h1, h3, ?_⟩
  have h3600 : (PyArith.ofRat 3600 : Ext ℝ) = .fin 3600 := by
    show Ext.fin ((3600 : ℚ) : ℝ) = _
    norm_num
  rw [h4, h3600, Arr3.at_full _ Nat.one_pos Nat.one_pos Nat.one_pos]
  congr 1

end Gerabaldi.Props
