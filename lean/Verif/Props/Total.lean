import Verif.Lemmas.Total

/-!
# C53: well-formed simulations finish
-/

set_option linter.unusedSectionVars false

namespace Gerabaldi.Props
open Spec

section
variable {W V : Type} [PyNum V] [Rng W V]

/-! ## Sampling -/

theorem latents_work {m : LatentMdl W V} (h : LatentsDraw m) (n C L : Nat) (w : W) :
    ∃ d w', m.genLatentVals n C L w = (.ok d, w') := by
  unfold LatentMdl.genLatentVals
  unfold LatentsDraw at h
  generalize m.latentVars = xs at h
  induction xs generalizing w with
  | nil => exact ⟨_, _, rfl⟩
  | cons kv rest ih =>
    obtain ⟨a, w1, h1⟩ := h kv.1 kv.2 List.mem_cons_self n C L w
    obtain ⟨d, w2, h2⟩ := ih w1 (fun k lv hk => h k lv (List.mem_cons_of_mem _ hk))
    have h3 : genLatent n C L kv w = (.ok (kv.1, a), w1) := M.bind_ok h1
    exact ⟨_, _, (M.bind_ok h3).trans (M.bind_ok h2)⟩

theorem latents_keys {m : LatentMdl W V} {n C L : Nat} {w w' : W} {d : Dict (Arr3 V)}
    (h : m.genLatentVals n C L w = (.ok d, w')) : d.keys = m.latentVars.keys := by
  replace h := M.mapList_ok h
  unfold Dict.keys
  generalize m.latentVars = xs at h
  induction h with
  | nil => rfl
  | cons hab _ ih =>
    obtain ⟨w1, w2, hab⟩ := hab
    obtain ⟨b, w3, h1, h2⟩ := M.bind_eq_ok.1 hab
    cases h2
    simp [ih]

theorem mechLatents_work {ms : Dict (MechMdl W V)} (h : ∀ k m, (k, m) ∈ ms → LatentsDraw m.mdl)
    (n C L : Nat) (acc : Dict (LatNode V)) (w : W) :
    ∃ d w', M.forIn' (genMechLatents n C L) ms acc w = (.ok d, w') := by
  induction ms generalizing acc w with
  | nil => exact ⟨_, _, rfl⟩
  | cons kv rest ih =>
    obtain ⟨a, w1, h1⟩ := latents_work (h kv.1 kv.2 List.mem_cons_self) n C L w
    obtain ⟨d, w2, h2⟩ := ih (fun k lv hk => h k lv (List.mem_cons_of_mem _ hk))
      (acc.set kv.1 (.sub a)) w1
    have h3 : genMechLatents n C L acc kv w = (.ok (acc.set kv.1 (.sub a)), w1) := M.bind_ok h1
    exact ⟨_, _, (M.bind_ok h3).trans h2⟩

theorem prmLatents_work {dev : DeviceMdl W V} {N : Nat → Prop} (hdev : DeviceWorks dev N) {p : String} {m : PrmMdl W V}
    (hp : dev.prms.get? p = some m) (n C L : Nat) (w : W) :
    ∃ d w', m.genLatentVals n C L w = (.ok d, w') := by
  cases m with
  | circ c =>
    obtain ⟨d, w1, h1⟩ := latents_work (hdev.circ p c hp).draws n C L w
    exact ⟨_, _, M.bind_ok h1⟩
  | deg d =>
    have hd := hdev.deg p d hp
    obtain ⟨c, w1, h1⟩ := latents_work hd.condDraws n C L w
    obtain ⟨e, w2, h2⟩ := mechLatents_work (fun k m hk => (hd.mechs k m hk).draws) n C L
      [("cond", .sub c)] w1
    obtain ⟨f, w3, h3⟩ := latents_work hd.draws n C L w2
    exact ⟨_, _, (M.bind_ok h1).trans ((M.bind_ok h2).trans (M.bind_ok h3))⟩

theorem initVals_work {d : DegPrmMdl W V} {N : Nat → Prop} (hd : DegWorks d N) (n C L : Nat) (w : W) :
    ∃ v w', genInitVals d.initMdl n C L w = (.ok v, w') := by
  obtain ⟨lat, w1, h1⟩ := latents_work hd.initDraws n C L w
  have hk := latents_keys h1
  have hmk : ∀ lat : Dict (Arr3 V),
      Dict.keys (lat.map fun kv => (kv.1, PyVal.arr kv.2)) = lat.keys := by
    intro lat
    simp [Dict.keys, Function.comp_def]
  have hacc : d.initMdl.compute.accepts (lat.map fun kv => (kv.1, PyVal.arr kv.2)) = true := by
    refine accepts_of (fun p hp => ?_) (fun k hk' => ?_)
    · rw [Dict.has_iff_mem_keys, hmk, hk]
      exact hd.initArgs p hp
    · rw [hmk, hk] at hk'
      exact hd.initTakes k hk'
  have huni : uniformShape (lat.map fun kv => (kv.1, PyVal.arr kv.2)) L C n := by
    intro k a hka
    obtain ⟨kv, hkv, he⟩ := List.mem_map.1 hka
    cases he
    exact genLatent_dims h1 _ _ hkv
  obtain ⟨v, w2, h2⟩ := hd.initEqn _ L C n w1 huni hacc
  refine ⟨v, w2, (M.bind_ok h1).trans ?_⟩
  unfold PyFun.invoke
  rw [if_pos hacc]
  exact h2

theorem device_initWorks {dev : DeviceMdl W V} {N : Nat → Prop} (hdev : DeviceWorks dev N) (C L : Nat) :
    InitWorks dev C L := by
  intro p m hm n w
  have hp := Dict.get?_of_mem hdev.unique hm
  refine ⟨prmLatents_work hdev hp n C L w, ?_⟩
  rintro d rfl
  exact initVals_work (hdev.deg p d hp) n C L w

/-! ## What a generated state holds -/

omit [PyNum V] [Rng W V] in
theorem updateArr_get (own : Dict (Arr3 V)) (d : Dict (LatNode V)) (k : String) :
    (k ∈ own.keys → ∃ a, (d.update (own.map fun kv => (kv.1, LatNode.arr kv.2))).get? k =
      some (.arr a)) ∧
    (k ∉ own.keys → (d.update (own.map fun kv => (kv.1, LatNode.arr kv.2))).get? k = d.get? k) := by
  unfold Dict.update
  induction own generalizing d with
  | nil => exact ⟨fun h => (by cases h), fun _ => rfl⟩
  | cons kv rest ih =>
    obtain ⟨i1, i2⟩ := ih (d.set kv.1 (.arr kv.2))
    by_cases hr : k ∈ Dict.keys rest
    · exact ⟨fun _ => i1 hr, fun h => absurd (List.mem_cons_of_mem _ hr) h⟩
    · refine ⟨fun h => ?_, fun h => ?_⟩
      · have : k = kv.1 := (List.mem_cons.1 h).resolve_right hr
        subst this
        exact ⟨kv.2, (i2 hr).trans (Dict.get?_set_self ..)⟩
      · refine (i2 hr).trans (Dict.get?_set_ne _ _ ?_)
        rintro rfl
        exact h List.mem_cons_self

theorem mechLatents_get {ms : Dict (MechMdl W V)} (hu : ms.Nodup) {n C L : Nat}
    {acc d : Dict (LatNode V)} {w w' : W}
    (h : M.forIn' (genMechLatents n C L) ms acc w = (.ok d, w')) :
    (∀ k m, (k, m) ∈ ms → ∃ sub, d.get? k = some (.sub sub) ∧ sub.keys = m.mdl.latentVars.keys) ∧
    (∀ k, k ∉ ms.keys → d.get? k = acc.get? k) := by
  induction ms generalizing acc w with
  | nil => cases h; exact ⟨fun k m hk => (by cases hk), fun _ _ => rfl⟩
  | cons kv rest ih =>
    obtain ⟨acc1, w1, h1, h2⟩ := M.bind_eq_ok.1 h
    obtain ⟨a, w2, h3, h4⟩ := M.bind_eq_ok.1 h1
    cases h4
    obtain ⟨hu1, hu2⟩ := List.nodup_cons.1 hu
    obtain ⟨i1, i2⟩ := ih hu2 h2
    refine ⟨fun k m hk => ?_, fun k hk => ?_⟩
    · rcases List.mem_cons.1 hk with rfl | hk
      · exact ⟨a, (i2 _ hu1).trans (Dict.get?_set_self ..), latents_keys h3⟩
      · exact i1 k m hk
    · refine (i2 k fun h => hk (List.mem_cons_of_mem _ h)).trans (Dict.get?_set_ne _ _ ?_)
      rintro rfl
      exact hk List.mem_cons_self

theorem degLatents_there {d : DegPrmMdl W V} {N : Nat → Prop} (hd : DegWorks d N) {n C L : Nat}
    {lat : Dict (LatNode V)} {w w' : W} (h : d.genLatentVals n C L w = (.ok lat, w')) :
    DegLatents d lat := by
  unfold DegPrmMdl.genLatentVals at h
  obtain ⟨c, w1, h1, g1⟩ := M.bind_eq_ok.1 h
  obtain ⟨e, w2, h2, g2⟩ := M.bind_eq_ok.1 g1
  obtain ⟨own, w3, h3, g3⟩ := M.bind_eq_ok.1 g2
  cases g3
  obtain ⟨m1, m2⟩ := mechLatents_get hd.unique h2
  have hk := latents_keys h3
  have hother : ∀ k, (k = "cond" ∨ k ∈ d.mechs.keys) → k ∉ own.keys := by
    intro k hk' hko
    rw [hk] at hko
    rcases hk' with h | h
    · exact (hd.ownNames k hko).1 h
    · exact (hd.ownNames k hko).2 h
  refine ⟨fun k m hm => ?_, ?_, fun j hj => (updateArr_get own e j).1 (hk ▸ hj)⟩
  · obtain ⟨sub, hs, hsk⟩ := m1 k m hm
    refine ⟨sub, ?_, fun j hj => hsk ▸ hj⟩
    rw [(updateArr_get own e k).2 (hother k (.inr (List.mem_map_of_mem (f := (·.1)) hm)))]
    exact hs
  · refine ⟨c, ?_, fun j hj => latents_keys h1 ▸ hj⟩
    rw [(updateArr_get own e "cond").2 (hother _ (.inl rfl)), m2 _ hd.condName]
    rfl

theorem simStart_latents {dev : DeviceMdl W V} {N : Nat → Prop} (hdev : DeviceWorks dev N) {test : TestSpec V}
    {s : SimState V} {r : SimReport V} {w w' : W}
    (h : simStart dev test none w = (.ok (s, r), w')) : LatentsThere dev s := by
  obtain ⟨x, w1, h1, h2⟩ := M.bind_eq_ok.1 h
  obtain ⟨s1, w2, h3, h4⟩ := M.bind_eq_ok.1 h1
  cases h4
  cases h2
  obtain ⟨s0, w3, h5, h6⟩ := M.bind_eq_ok.1 h3
  cases h6
  obtain ⟨_, _, _, a4, _⟩ := devInit_ok hdev.unique h5
  have e : withElapsed s0 (.td 0) = { s0 with elapsed := .td 0 } := rfl
  rw [e]
  refine ⟨fun p d hp => ?_, fun p c hp => ?_⟩
  · obtain ⟨n, lat, _, b2, ⟨u, u', b3⟩, _⟩ := a4 p _ hp
    exact ⟨lat, b2, degLatents_there (hdev.deg p d hp) b3⟩
  · obtain ⟨n, lat, _, b2, ⟨u, u', b3⟩, _⟩ := a4 p _ hp
    obtain ⟨own, w4, g1, g2⟩ := M.bind_eq_ok.1 b3
    cases g2
    refine ⟨_, b2, fun j hj => ?_⟩
    rw [← latents_keys g1] at hj
    obtain ⟨a, ha⟩ := Option.isSome_iff_exists.1 ((Dict.has_iff_mem_keys _ _).2 hj)
    exact ⟨a, by rw [Dict.get?_map (fun _ => LatNode.arr), ha]; rfl⟩

/-! ## The counts of a generated state -/

omit [PyNum V] [Rng W V] in
theorem augmentReq_tied {S : String → Prop} {n : Nat} {prm req : String} {d : Dict Nat}
    (hd : ∀ x k, S x → d.get? x = some k → k = n) (hup : S req → S prm) :
    ∀ x k, S x → (augmentReq prm d req).get? x = some k → k = n := by
  intro x k hx hk
  unfold augmentReq at hk
  cases hp : d.get? prm with
  | none => simp only [hp] at hk; exact hd x k hx hk
  | some j =>
    simp only [hp] at hk
    have key : (d.set req j).get? x = some k → k = n := by
      intro hk
      rw [Dict.get?_set] at hk
      split at hk
      · rename_i hxr
        have hj := hd prm j (hup (by simpa [hxr] using hx)) hp
        cases hk
        exact hj
      · exact hd x k hx hk
    split at hk
    · exact key hk
    · split at hk
      · exact key hk
      · exact hd x k hx hk

omit [PyNum V] [Rng W V] in
theorem augment_tied {dev : DeviceMdl W V} {S : String → Prop} {n : Nat} {d : Dict Nat}
    (hd : ∀ x k, S x → d.get? x = some k → k = n)
    (hup : ∀ c p, c ∈ d.keys → Needs dev c p → S p → S c) :
    ∀ x k, S x → (augment dev d).get? x = some k → k = n := by
  unfold augment
  generalize d.keys = ks at hup
  induction ks generalizing d with
  | nil => exact hd
  | cons c rest ih =>
    refine ih ?_ (fun c' p hc => hup c' p (List.mem_cons_of_mem _ hc))
    unfold augmentPrm
    split
    · rename_i m hm
      have : ∀ reqs : List String, (∀ p ∈ reqs, Needs dev c p) → ∀ d : Dict Nat,
          (∀ x k, S x → d.get? x = some k → k = n) →
          ∀ x k, S x → (reqs.foldl (augmentReq c) d).get? x = some k → k = n := by
        intro reqs
        induction reqs with
        | nil => exact fun _ d h => h
        | cons p ps ih2 =>
          intro hn d h
          exact ih2 (fun p' h' => hn p' (List.mem_cons_of_mem _ h')) _
            (augmentReq_tied h (hup c p List.mem_cons_self (hn p List.mem_cons_self)))
      refine this _ (fun p hp => ?_) d hd
      obtain ⟨h1, h2⟩ := mem_requiredPrms.1 hp
      exact ⟨m, hm, h1, h2⟩
    · exact hd

theorem genCounts_ok {dev : DeviceMdl W V} {env : PhysTestEnv V} {test : TestSpec V}
    {P : String → V → Prop} (ht : TestOk dev env test P) {counts : Dict Nat}
    (hc : counts = augment dev (calcSamplesNeeded test.steps)) :
    StepsOk dev env counts test.steps P := by
  subst hc
  have hen := augment_enough dev (calcSamplesNeeded test.steps)
  have hle : ∀ p n, requests test.steps p n → ∃ k, (calcSamplesNeeded test.steps).get? p = some k ∧
      n ≤ k ∧ requests test.steps p k := by
    intro p n hr
    obtain ⟨h1, h2⟩ := C08_max test.steps p
    cases hg : (calcSamplesNeeded test.steps).get? p with
    | none => exact absurd hr (h2.1 hg n)
    | some k => exact ⟨k, rfl, ((h1 k).1 hg).2 n hr, ((h1 k).1 hg).1⟩
  refine ⟨ht.stress, fun m hm => ⟨ht.measure m hm, ?_, ?_⟩⟩
  · intro p d n hp hd
    obtain ⟨k, hk, hnk, _⟩ := hle p n ⟨m, hm, hp⟩
    obtain ⟨k', hk', hkk⟩ := hen.keeps hk
    exact ⟨k', hk', hnk.trans hkk⟩
  · intro c n hc cm hcm
    have hreq : requests test.steps c n := ⟨m, hm, hc⟩
    have hall := augment_tied (dev := dev) (d := calcSamplesNeeded test.steps)
      (S := Tied dev test.steps c) (n := n)
      (fun x k hx hk => ht.tied c cm n hcm hreq x k hx (((C08_max test.steps x).1 k).1 hk).1)
      (fun c' p hc' hn hp => by
        obtain ⟨k, hk⟩ := Option.isSome_iff_exists.1 ((Dict.has_iff_mem_keys _ _).2 hc')
        exact .up hp (((C08_max test.steps c').1 k).1 hk).1 hn)
    obtain ⟨k, hk, _, hkr⟩ := hle c n hreq
    obtain ⟨k', hk', _⟩ := hen.keeps hk
    have e := hall c k' .self hk'
    subst e
    refine ⟨hk', fun p hn => ?_⟩
    obtain ⟨j, hj, _⟩ := hen.enough hk hn
    have e := hall p j (.down .self hreq hn) hj
    subst e
    exact hj

theorem augment_vals {dev : DeviceMdl W V} {d : Dict Nat} {Q : Nat → Prop}
    (hd : ∀ x k, d.get? x = some k → Q k) : ∀ x k, (augment dev d).get? x = some k → Q k := by
  have req : ∀ (c : String) (reqs : List String) (d : Dict Nat), (∀ x k, d.get? x = some k → Q k) →
      ∀ x k, (reqs.foldl (augmentReq c) d).get? x = some k → Q k := by
    intro c reqs
    induction reqs with
    | nil => exact fun d h => h
    | cons p ps ih =>
      intro d h
      refine ih _ fun x k hk => ?_
      unfold augmentReq at hk
      cases hp : d.get? c with
      | none => simp only [hp] at hk; exact h x k hk
      | some j =>
        simp only [hp] at hk
        have key : (d.set p j).get? x = some k → Q k := by
          intro hk
          rw [Dict.get?_set] at hk
          split at hk
          · cases hk; exact h c _ hp
          · exact h x k hk
        split at hk
        · exact key hk
        · split at hk
          · exact key hk
          · exact h x k hk
  unfold augment
  generalize d.keys = ks
  induction ks generalizing d with
  | nil => exact hd
  | cons c rest ih =>
    refine ih ?_
    unfold augmentPrm
    split
    · exact req _ _ _ hd
    · exact hd

/-- The arrays of a generated state have the sizes the test asks for. -/
theorem genSizes {dev : DeviceMdl W V} {test : TestSpec V} {N : Nat → Prop} (hN : TestSizes N test)
    {q : Quantities} (h1 : q.numLots = test.numLots) (h2 : q.numChps = test.numChps)
    (h3 : q.devCounts = augment dev (calcSamplesNeeded test.steps)) :
    SizesIn N q ∧ ∀ m, .meas m ∈ test.steps → MeasSizes dev N q m := by
  constructor
  · intro p n hn
    rw [h1, h2]
    rw [h3] at hn
    refine augment_vals (Q := fun n => N (test.numLots * test.numChps * n)) (fun x k hk => ?_) p n hn
    exact hN x k (((C08_max test.steps x).1 k).1 hk).1
  · intro m hm p d n hp _
    rw [h1, h2]
    exact hN p n ⟨m, hm, hp⟩

/-! ## C53 -/

variable [LawfulRng W V]

/-- C53, for a given initial state: if its values have the dimensions of the test, the equations of the
device work and find their arguments, the environment can be sampled and the time does not overflow, the
simulation returns a report, whatever the steps. -/
theorem C53_given (ord : SetOrder) {dev : DeviceMdl W V} {N : Nat → Prop} (hdev : DeviceWorks dev N)
    {env : PhysTestEnv V} (he : EnvDraws W env) {test : TestSpec V} {s : SimState V}
    (hs : StateShape dev (SimReport.ofTest test).info s) (hl : LatentsThere dev s)
    (hok : StepsOk dev env (calcSamplesNeeded test.steps) test.steps) {t : Int}
    (hel : s.elapsed = .td t) (ht : TimesFit t test.steps) (w : W)
    (hN : TestSizes N test := by intro _ _ _; trivial) :
    ∃ r w', simulate ord test dev env (some s) w = (.ok r, w') := by
  obtain ⟨sr, w', h⟩ := runSteps_works hdev he (ord := ord) (r := SimReport.ofTest test) hok hs hl hel
    ht 0 w (fun p n hn => hN p n (((C08_max test.steps p).1 n).1 hn).1) (fun m hm p d n hp _ => hN p n ⟨m, hm, hp⟩)
  exact ⟨sr.2, w', M.bind_ok h⟩

omit [LawfulRng W V] in
theorem simStart_works {dev : DeviceMdl W V} {N : Nat → Prop} (hdev : DeviceWorks dev N)
    {env : PhysTestEnv V} {test : TestSpec V} {P : String → V → Prop}
    (ht : TestOk dev env test P) (w : W) :
    ∃ s r w', simStart dev test none w = (.ok (s, r), w') ∧
      r.devCounts = augment dev (calcSamplesNeeded test.steps) ∧ s.elapsed = .td 0 ∧
      r.numLots = test.numLots ∧ r.numChps = test.numChps := by
  obtain ⟨x, w1, h1⟩ := C42_partial (dev := dev) (q := (SimReport.ofTest test).info)
    (device_initWorks hdev _ _) (fun p hp => by
      obtain ⟨c, n, h1, h2⟩ := ht.all p hp
      obtain ⟨k, hk⟩ : ∃ k, (calcSamplesNeeded test.steps).get? c = some k := by
        cases hg : (calcSamplesNeeded test.steps).get? c with
        | none => exact absurd h1 ((C08_max test.steps c).2.1 hg n)
        | some k => exact ⟨k, rfl⟩
      exact ⟨c, k, hk, h2⟩) (.td 0) w
  obtain ⟨s1, w2, h3, h4⟩ := M.bind_eq_ok.1 h1
  cases h4
  obtain ⟨s0, w3, h5, h6⟩ := M.bind_eq_ok.1 h3
  cases h6
  exact ⟨_, _, _, (M.bind_ok h1).trans rfl, rfl, rfl, rfl, rfl⟩

/-- C53, for a state generated by the simulation: if the equations of the device work, the environment can
be sampled and the test suits both, the simulation returns a report, whatever the steps. -/
theorem C53_generated (ord : SetOrder) {dev : DeviceMdl W V} {N : Nat → Prop} (hdev : DeviceWorks dev N)
    {env : PhysTestEnv V} (he : EnvDraws W env) {test : TestSpec V} (ht : TestOk dev env test) (w : W)
    (hN : TestSizes N test := by intro _ _ _; trivial) :
    ∃ r w', simulate ord test dev env none w = (.ok r, w') := by
  obtain ⟨s, r, w1, h1, h2, h3, h4, h5⟩ := simStart_works hdev ht w
  obtain ⟨n1, n2⟩ := genSizes (q := r.info) hN h4 h5 h2
  obtain ⟨a1, _⟩ := simStart_shape hdev.unique (fun p d hp => (hdev.deg p d hp).shapes) h1 n1
  obtain ⟨sr, w', h⟩ := runSteps_works hdev he (ord := ord) (genCounts_ok ht h2) a1
    (simStart_latents hdev h1) h3 ht.times 0 w1 n1 n2
  have hf : simulateFull ord test dev env none w = (.ok sr, w') := (M.bind_ok h1).trans h
  exact ⟨sr.2, w', M.bind_ok hf⟩

end

/-! ## A device that meets the hypotheses -/

section examples
open Ex

section
variable {W V : Type}

theorem accepts_present {f : PyFun W V} {args : Dict (PyVal V)} (h : f.accepts args = true)
    {a : String} (ha : (a, false) ∈ f.params) : ∃ v, args.get? a = some v := by
  unfold PyFun.accepts at h
  rw [Bool.and_eq_true] at h
  have := List.all_eq_true.1 h.1 _ ha
  exact Option.isSome_iff_exists.1 (by simpa [Dict.has] using this)

theorem bin_works [PyNum V] {f : V → V → V} {x y : PyVal V} {L C D : Nat} (hx : ∀ a, x = .arr a → a.HasDims L C D)
    (hy : ∀ a, y = .arr a → a.HasDims L C D) : ∃ v, PyVal.bin f x y = .ok v := by
  cases x <;> cases y
  case arr.arr a b =>
    obtain ⟨r, hr, _⟩ := bcast2_works f (hx a rfl) (hy b rfl)
    exact ⟨.arr r, by simp [PyVal.bin, hr]⟩
  all_goals exact ⟨_, rfl⟩

theorem direct_works [PyNum V] {f : PyFun W V} (h : Direct f) : EqnWorks f :=
  fun args L C D w hu _ ha => .inl (h args L C D w hu ha)

theorem argEqn_direct [PyNum V] (a : String) : Direct (argEqn a : PyFun W V) := by
  intro args L C D w hu hacc
  obtain ⟨x, hx⟩ := accepts_present hacc (a := a) (by simp [argEqn])
  exact ⟨x, w, by simp [argEqn, Dict.getE, hx]⟩

theorem constEqn_direct [PyNum V] (v : V) : Direct (constEqn v : PyFun W V) :=
  fun _ _ _ _ w _ _ => ⟨.scal v, w, rfl⟩

theorem sum_works [PyNum V] {rest : Dict (PyVal V)} {L C D : Nat} (hu : uniformShape rest L C D) {acc : PyVal V}
    (ha : ∀ a, acc = .arr a → a.HasDims L C D) :
    ∃ s, rest.foldlM (fun acc kv => PyVal.bin PyArith.add acc kv.2) acc = .ok s := by
  induction rest generalizing acc with
  | nil => exact ⟨acc, rfl⟩
  | cons kv rest ih =>
    have hkv : ∀ c, kv.2 = .arr c → c.HasDims L C D := fun c hc => hu kv.1 c (by
      rw [← hc]; exact List.mem_cons_self)
    obtain ⟨v, hv⟩ := bin_works (f := PyArith.add) ha hkv
    obtain ⟨s, hs⟩ := ih (fun k a hk => hu k a (List.mem_cons_of_mem _ hk)) (bin_dims ha hkv hv).1
    refine ⟨s, ?_⟩
    rw [List.foldlM_cons, hv]
    exact hs

theorem basicSum_direct [PyNum V] : Direct (basicSum : PyFun W V) := by
  intro args L C D w hu hacc
  obtain ⟨x, hx⟩ := accepts_present hacc (a := "init") (by simp [basicSum])
  obtain ⟨y, hy⟩ := accepts_present hacc (a := "cond") (by simp [basicSum])
  have gx : ∀ c, x = .arr c → c.HasDims L C D := fun c hc => hu _ _ (Dict.mem_of_get? (hc ▸ hx))
  have gy : ∀ c, y = .arr c → c.HasDims L C D := fun c hc => hu _ _ (Dict.mem_of_get? (hc ▸ hy))
  obtain ⟨ic, hic⟩ := bin_works (f := PyArith.add) gx gy
  have hur : uniformShape (args.filter fun kv => kv.1 ≠ "init" ∧ kv.1 ≠ "cond") L C D :=
    fun k a hk => hu k a (List.mem_of_mem_filter hk)
  obtain ⟨s, hs⟩ := sum_works hur (acc := PyVal.scal (PyArith.ofRat 0)) (fun a h => by cases h)
  obtain ⟨v, hv⟩ := bin_works (f := PyArith.add) (bin_dims gx gy hic).1
    (sum_shapes hur (fun a h => by cases h) hs).1
  refine ⟨v, w, ?_⟩
  show (basicSumVal args, w) = _
  unfold basicSumVal
  simp only [Dict.getE, hx, hy, bind, Except.bind, hic, hs, hv]

theorem initVal_draws [PyNum V] [Rng W V] (v : V) :
    LatentsDraw (initValMk none none [("init_val", constLatent v)] : LatentMdl W V) := by
  intro k lv h n C L w
  cases List.mem_singleton.1 h
  exact ⟨_, w, genLatentVals_run ((constLatent v : LatentVar V).setName (some "init_val"))
    (lotS := List.replicate L (PyArith.ofRat 1)) rfl rfl rfl (by simp) (by simp) (by simp)⟩

end

theorem eqn2_direct (a b : String) (f : Q → Q → Q) : Direct (eqn2 a b f) := by
  intro args L C D w hu hacc
  obtain ⟨x, hx⟩ := accepts_present hacc (a := a) (by simp [eqn2])
  obtain ⟨y, hy⟩ := accepts_present hacc (a := b) (by simp [eqn2])
  obtain ⟨v, hv⟩ := bin_works (f := f) (x := x) (y := y)
    (fun c hc => hu _ _ (Dict.mem_of_get? (hc ▸ hx))) (fun c hc => hu _ _ (Dict.mem_of_get? (hc ▸ hy)))
  refine ⟨v, w, ?_⟩
  simp [eqn2, Dict.getE, hx, hy, bind, Except.bind, hv]

/-- `5 if time * temp > 1000 else 0`: raises `ValueError` on arrays (of more than one element). -/
def branch : PyFun Counts Q where
  params := [("time", false), ("temp", false)]
  call := fun args => M.ofExcept (match args.get? "time", args.get? "temp" with
    | some (.scal t), some (.scal x) =>
      .ok (.scal (if PyArith.gt (PyArith.mul t x) (.fin 1000) then .fin 5 else .fin 0))
    | some (.arr _), _ => .error .valueError
    | _, some (.arr _) => .error .valueError
    | _, _ => .error .typeError)

theorem getSingleIndex_works {args : Dict (PyVal Q)} {L C D : Nat} (hu : uniformShape args L C D)
    (hp : plainScalars args) {i j k : Nat} (hi : i < L) (hj : j < C) (hk : k < D) :
    ∃ a, getSingleIndex args i j k = .ok a ∧ a.keys = args.keys ∧ ∀ x v, (x, v) ∈ a → ∃ s, v = .scal s := by
  induction args with
  | nil => exact ⟨[], rfl, rfl, fun x v h => by cases h⟩
  | cons kv rest ih =>
    obtain ⟨key, val⟩ := kv
    obtain ⟨a, h1, h2, h3⟩ := ih (fun k a h => hu k a (List.mem_cons_of_mem _ h))
      (fun k v h => hp k v (List.mem_cons_of_mem _ h))
    have fin : ∀ s, ∃ a', (Except.ok ((key, PyVal.scal s) :: a) : Except Err (Dict (PyVal Q))) = .ok a' ∧
        Dict.keys a' = Dict.keys ((key, val) :: rest) ∧ ∀ x v, (x, v) ∈ a' → ∃ s, v = .scal s := by
      intro s
      refine ⟨_, rfl, ?_, ?_⟩
      · show key :: Dict.keys a = key :: Dict.keys rest
        rw [h2]
      · intro x v h
        rcases List.mem_cons.1 h with h | h
        · cases h; exact ⟨s, rfl⟩
        · exact h3 x v h
    cases val with
    | arr b =>
      obtain ⟨e1, e2, e3⟩ := hu key b List.mem_cons_self
      simp only [getSingleIndex, h1]
      rw [if_pos ⟨e1 ▸ hi, e2 ▸ hj, e3 ▸ hk⟩]
      exact fin _
    | scal s =>
      simp only [getSingleIndex, h1]
      exact fin _
    | npscal s => exact absurd List.mem_cons_self (hp key s)

/-- The branching equation works through the fallback. -/
theorem branch_works : EqnWorks branch := by
  intro args L C D w hu hp hacc
  have hloop : ∃ r w', loopCompute branch args L C D w = (.ok r, w') := by
    have hbody : ∀ p ∈ idx3 L C D, ∀ w : Counts, ∃ v, loopBody branch args p w = (.ok v, w) := by
      intro p hpm w
      obtain ⟨h1, h2, h3⟩ := mem_idx3 hpm
      obtain ⟨a, g1, g2, g3⟩ := getSingleIndex_works hu hp h1 h2 h3
      have ha : branch.accepts a = true := by
        refine accepts_of (fun q hq => ?_) (fun k hk => ?_)
        · rw [Dict.has_iff_mem_keys, g2]
          obtain ⟨v, hv⟩ := accepts_present hacc hq
          exact Dict.mem_keys_of_get? hv
        · rw [g2] at hk
          obtain ⟨v, hv⟩ := Option.isSome_iff_exists.1 ((Dict.has_iff_mem_keys _ _).2 hk)
          have := accepts_mem hacc rfl hv
          obtain ⟨pr, hpr, he⟩ := List.mem_map.1 this
          exact .inr ⟨pr.2, by rw [← he]; exact hpr⟩
      obtain ⟨v, hv⟩ := accepts_present ha (a := "temp") (by simp [branch])
      obtain ⟨u, hu⟩ := accepts_present ha (a := "time") (by simp [branch])
      obtain ⟨s, rfl⟩ := g3 _ _ (Dict.mem_of_get? hv)
      obtain ⟨t, rfl⟩ := g3 _ _ (Dict.mem_of_get? hu)
      refine ⟨if PyArith.gt (PyArith.mul t s) (.fin 1000) then .fin 5 else .fin 0, ?_⟩
      unfold loopBody
      simp only [M.bind_run, M.ofExcept_run, g1]
      unfold PyFun.invoke
      rw [if_pos ha]
      simp only [branch, hv, hu, M.ofExcept_run, M.pure_run]
    have hl : ∀ (ps : List (Nat × Nat × Nat)), (∀ p ∈ ps, p ∈ idx3 L C D) → ∀ w : Counts,
        ∃ xs, M.mapList (loopBody branch args) ps w = (.ok xs, w) := by
      intro ps
      induction ps with
      | nil => exact fun _ w => ⟨_, rfl⟩
      | cons p ps ih =>
        intro hps w
        obtain ⟨v, hv⟩ := hbody p (hps p List.mem_cons_self) w
        obtain ⟨xs, hxs⟩ := ih (fun q hq => hps q (List.mem_cons_of_mem _ hq)) w
        exact ⟨v :: xs, (M.bind_ok hv).trans ((M.bind_ok hxs).trans rfl)⟩
    obtain ⟨xs, hxs⟩ := hl _ (fun _ h => h) w
    obtain ⟨r, hr, _⟩ := loopCompute_run hxs
    exact ⟨r, w, hr⟩
  obtain ⟨r, w', hr⟩ := hloop
  obtain ⟨x, hx⟩ := accepts_present hacc (a := "temp") (by simp [branch])
  obtain ⟨t, ht⟩ := accepts_present hacc (a := "time") (by simp [branch])
  cases t with
  | npscal t => exact absurd (Dict.mem_of_get? ht) (hp _ _)
  | arr t => exact .inr ⟨w, r, w', by simp [branch, ht], hr⟩
  | scal t =>
    cases x with
    | npscal x => exact absurd (Dict.mem_of_get? hx) (hp _ _)
    | arr x => exact .inr ⟨w, r, w', by simp [branch, ht, hx], hr⟩
    | scal x =>
      exact .inl ⟨.scal (if PyArith.gt (PyArith.mul t x) (.fin 1000) then .fin 5 else .fin 0), w,
        by simp [branch, hx, ht]⟩

theorem branch_shapes : ShapeSafe branch := by
  intro args L C D w w' v _ _ hu h
  obtain ⟨h1, h2⟩ := invoke_ok h
  obtain ⟨x, hx⟩ := accepts_present h1 (a := "temp") (by simp [branch])
  obtain ⟨t, ht⟩ := accepts_present h1 (a := "time") (by simp [branch])
  have h3 := (M.ofExcept_eq_ok.1 h2).1
  rw [ht, hx] at h3
  cases t with
  | npscal t => cases x <;> cases h3
  | arr t => cases x <;> cases h3
  | scal t =>
    cases x with
    | npscal x => cases h3
    | arr x => cases h3
    | scal x =>
      cases h3
      refine ⟨fun a ha => (nomatch ha), ?_⟩
      rintro ⟨k, c, hk⟩
      have hm := accepts_mem h1 rfl hk
      have hm' : k = "time" ∨ k = "temp" := by simpa [branch] using hm
      rcases hm' with rfl | rfl
      · rw [ht] at hk; cases hk
      · rw [hx] at hk; cases hk

/-- "vth" drifts and fails by a branching equation; "delay" is a circuit parameter. -/
def mixDev : DeviceMdl Counts Q where
  prms := [("vth", .deg (degPrm [("drift", drift),
      ("fail", .mk' .fail 1 (some branch) none (.fin 0) (some "h") [])] (.fin 3))),
    ("delay", .circ { compute := eqn2 "vth" "vdd" PyArith.mul })]

theorem mix_cases {p : String} {m : PrmMdl Counts Q} (h : mixDev.prms.get? p = some m) :
    (p = "vth" ∧ m = .deg (degPrm [("drift", drift),
      ("fail", .mk' .fail 1 (some branch) none (.fin 0) (some "h") [])] (.fin 3))) ∨
    (p = "delay" ∧ m = .circ { compute := eqn2 "vth" "vdd" PyArith.mul }) := by
  rcases List.mem_cons.1 (Dict.mem_of_get? h) with h | h
  · cases h; exact .inl ⟨rfl, rfl⟩
  · cases List.mem_singleton.1 h; exact .inr ⟨rfl, rfl⟩

theorem mix_works : DeviceWorks mixDev where
  unique := by decide
  deg := by
    intro p d hp
    rcases mix_cases hp with ⟨rfl, h⟩ | ⟨rfl, h⟩
    · cases h
      have hm : ∀ k m, (k, m) ∈ (degPrm [("drift", drift),
          ("fail", MechMdl.mk' .fail 1 (some branch) none (.fin 0) (some "h") [])] (.fin 3)).mechs →
          (k, m) = ("drift", drift) ∨
          (k, m) = ("fail", MechMdl.mk' .fail 1 (some branch) none (.fin 0) (some "h") []) := by
        intro k m h
        rcases List.mem_cons.1 h with h | h
        · exact .inl h
        · exact .inr (List.mem_singleton.1 h)
      refine
        { shapes := ⟨argEqn_shapes _, by decide, by simp [degPrm, initValMk, nameLatents],
            constEqn_shapes _, ?_, basicSum_shapes⟩
          unique := by decide
          mechs := ?_
          condName := by decide
          ownNames := fun k hk => by cases hk
          initDraws := initVal_draws _
          initEqn := argEqn_direct _
          initArgs := ?_
          initTakes := ?_
          condDraws := fun k lv h => by cases h
          condEqn := direct_works (constEqn_direct _)
          condPlain := ?_
          draws := fun k lv h => by cases h
          eqn := direct_works basicSum_direct
          args := ?_
          takes := fun k _ => .inl rfl }
      · intro k m hk
        rcases hm k m hk with h | h
        · cases h; exact eqn2_shapes _ _ _
        · cases h; exact branch_shapes
      · intro k m hk
        rcases hm k m hk with h | h
        · cases h
          exact ⟨by decide, by decide, fun k lv h => (by cases h), direct_works (eqn2_direct _ _ _),
            .inr ⟨false, by decide⟩⟩
        · cases h
          exact ⟨by decide, by decide, fun k lv h => (by cases h), branch_works, .inr ⟨false, by decide⟩⟩
      · intro p hp
        cases List.mem_singleton.1 hp
        exact List.mem_singleton.2 rfl
      · intro k hk
        cases List.mem_singleton.1 hk
        exact .inr ⟨false, List.mem_singleton.2 rfl⟩
      · intro args w w' v h
        have := (invoke_ok h).2
        cases this
      · intro p hp
        have : p = "init" ∨ p = "cond" := by simpa [degPrm, basicSum] using hp
        rcases this with rfl | rfl <;> simp
    · cases h
  circ := by
    intro p c hp
    rcases mix_cases hp with ⟨rfl, h⟩ | ⟨rfl, h⟩
    · cases h
    · cases h
      exact ⟨eqn2_shapes _ _ _, eqn2_direct _ _ _, fun k lv h => by cases h⟩

theorem needs_mix {c p : String} (h : Needs mixDev c p) : c = "delay" ∧ p = "vth" := by
  obtain ⟨m, hm, hk, ha⟩ := h
  rcases mix_cases hm with ⟨rfl, h⟩ | ⟨rfl, h⟩
  · cases h
  · cases h
    have h1 : p = "vth" ∨ p = "delay" := by simpa [mixDev, Dict.keys] using hk
    have h2 : p ∈ ["vth", "vdd"] := ha
    rcases h1 with rfl | rfl
    · exact ⟨rfl, rfl⟩
    · simp at h2

theorem instm_default (p : String) (hp : p ≠ "meas") : InstrumentOk Counts (⟨[], []⟩ : PhysTestEnv Q) p :=
  ⟨{}, by
    unfold PhysTestEnv.measInstm
    rw [if_neg (by simp [Dict.has]), Dict.get?_nil]
    simp [hp], fun xs w _ => ⟨_, w, rfl⟩⟩

/-- The test suits the device. -/
theorem mix_testOk (n : Nat) : TestOk mixDev (⟨[], []⟩ : PhysTestEnv Q) (sampleTest n) := by
  have hsteps : ∀ st, st ∈ (sampleTest n).steps →
      st = .strs ⟨[("temp", .fin 90), ("vdd", .fin 2)], .td 3600000000, "warm"⟩ ∨
      st = .meas ⟨[("vth", n), ("delay", n), ("temp", 5)], [("temp", .fin 20), ("vdd", .fin 2)], "read"⟩ := by
    intro st h
    rcases List.mem_cons.1 h with h | h
    · exact .inl h
    · exact .inr (List.mem_singleton.1 h)
  have hreq : ∀ p k, requests (sampleTest n).steps p k → (p = "temp" ∨ k = n) ∧
      (p = "vth" ∨ p = "delay" ∨ p = "temp") := by
    rintro p k ⟨m, hm, hp⟩
    rcases hsteps _ hm with h | h
    · cases h
    · cases h
      simp only [List.mem_cons, Prod.mk.injEq, List.not_mem_nil, or_false] at hp
      rcases hp with ⟨rfl, rfl⟩ | ⟨rfl, rfl⟩ | ⟨rfl, rfl⟩ <;> simp
  have hvth : requests (sampleTest n).steps "vth" n := ⟨_, List.mem_cons_of_mem _ List.mem_cons_self, by simp⟩
  have hdel : requests (sampleTest n).steps "delay" n :=
    ⟨_, List.mem_cons_of_mem _ List.mem_cons_self, by simp⟩
  refine ⟨?_, ?_, ?_, ?_, ?_⟩
  · intro st h p d k m hp hk
    rcases hsteps _ h with h | h
    · cases h
      rcases mix_cases hp with ⟨rfl, h⟩ | ⟨rfl, h⟩
      · cases h
        intro q hq
        have : q = "time" ∨ q = "temp" := by
          rcases List.mem_cons.1 hk with h | h
          · cases h
            simpa [drift, MechMdl.mk', eqn2] using hq
          · cases List.mem_singleton.1 h
            simpa [MechMdl.mk', branch] using hq
        rcases this with rfl | rfl <;> simp [Dict.keys]
      · cases h
    · cases h
  · intro m h
    rcases hsteps _ h with h | h
    · cases h
    · cases h
      have hmem : ∀ p ∈ Dict.keys [("vth", n), ("delay", n), ("temp", 5)],
          p = "vth" ∨ p = "delay" ∨ p = "temp" := by
        intro p hp
        simpa [Dict.keys] using hp
      refine ⟨by simp [Dict.Nodup, Dict.keys], ?_, ?_, ?_, ?_, ?_⟩
      · intro p hp
        rcases hmem p hp with rfl | rfl | rfl <;> simp [mixDev, Dict.keys]
      · intro p hp
        refine instm_default p ?_
        rcases hmem p hp with rfl | rfl | rfl <;> decide
      · intro p d hp hd
        rcases mix_cases hd with ⟨rfl, h⟩ | ⟨rfl, h⟩
        · cases h
          intro q hq
          cases hq
        · cases h
      · intro p c hp hc
        rcases mix_cases hc with ⟨rfl, h⟩ | ⟨rfl, h⟩
        · cases h
        · cases h
          intro q hq
          have : q = "vth" ∨ q = "vdd" := by simpa [eqn2] using hq
          rcases this with rfl | rfl
          · simp [mixDev, DeviceMdl.degPrms]
          · simp [Dict.keys]
      · intro p c hp hc
        rcases mix_cases hc with ⟨rfl, h⟩ | ⟨rfl, h⟩
        · cases h
        · cases h
          exact ⟨"vdd", by simp [eqn2, PyFun.argNames], by simp [Dict.keys]⟩
  · intro p hp
    have h1 : p = "vth" ∨ p = "delay" := by simpa [mixDev, Dict.keys] using hp
    rcases h1 with rfl | rfl
    · exact ⟨_, n, hvth, .inl rfl⟩
    · exact ⟨_, n, hdel, .inl rfl⟩
  · intro c m k hc hr x j ht hx
    have hcd : c = "delay" := by
      rcases mix_cases hc with ⟨rfl, h⟩ | ⟨rfl, h⟩
      · cases h
      · rfl
    subst hcd
    have hk : k = n := (hreq _ _ hr).1.resolve_left (by decide)
    have hxs : x = "delay" ∨ x = "vth" := by
      clear hx
      induction ht with
      | self => exact .inl rfl
      | down _ _ hn _ => exact .inr (needs_mix hn).2
      | up _ _ hn _ => exact .inl (needs_mix hn).1
    have hj : j = n := (hreq _ _ hx).1.resolve_left (by rcases hxs with rfl | rfl <;> decide)
    rw [hk, hj]
  · refine ⟨by decide, 3600000000, rfl, ?_⟩
    show tdValid _
    decide

/-- C53 applies for every number of samples, from every generator state. -/
example (n : Nat) (w : Counts) :
    ∃ r w', simulate orderA (sampleTest n) mixDev ⟨[], []⟩ none w = (.ok r, w') :=
  C53_generated orderA mix_works (envDraws_empty []) (mix_testOk n) w

/-- The state generated for a test can be given to the test. -/
example (n : Nat) (w : Counts) : ∃ s r w', simStart mixDev (sampleTest n) none w = (.ok (s, r), w') ∧
    ∃ r' w'', simulate orderA (sampleTest n) mixDev ⟨[], []⟩ (some s) w' = (.ok r', w'') := by
  have ht := mix_testOk n
  have hsup : Supplied mixDev (calcSamplesNeeded (sampleTest n).steps) := by
    intro c p k hc hn
    obtain ⟨rfl, rfl⟩ := needs_mix hn
    cases hc
    exact ⟨n, rfl, le_rfl⟩
  have ha := augment_supplied hsup
  obtain ⟨s, r, w1, h1, h2, h3, _, _⟩ := simStart_works mix_works ht w
  obtain ⟨a1, a2, a3, _⟩ := simStart_shape mix_works.unique
    (fun p d hp => (mix_works.deg p d hp).shapes) h1
  have hi : r.info = (SimReport.ofTest (sampleTest n)).info := by
    unfold SimReport.info
    rw [a2, a3, h2, ha]
    rfl
  refine ⟨s, r, w1, h1, C53_given orderA mix_works (envDraws_empty []) (hi ▸ a1)
    (simStart_latents mix_works h1) ?_ h3 ht.times w1⟩
  exact genCounts_ok ht ha.symm

end examples

end Gerabaldi.Props
