import Verif.Spec.FailHistory
import Verif.Props.CondShift
import Verif.Props.Start
import Verif.Props.Degrade

/-!
# C73: what failure mechanisms do in a whole test
-/

namespace Gerabaldi.Props

open Gerabaldi Gerabaldi.Spec

section
variable {W V : Type} [PyNum V]

/-- The arguments of a mechanism's equation at one sample. -/
theorem mechArgs_names {m : MechMdl W V} (ht : "time" ∈ m.mdl.compute.argNames) {times : Arr3 V}
    {cs lat : Dict (Arr3 V)} {l c d : Nat} {cond : String → Option V}
    (hcond : ∀ k ∈ m.mdl.compute.argNames, condAt cs l c d k = cond k) {k : String} {v : PyVal V}
    (h : (m.args times cs lat).get? k = some v) :
    sampleVal v l c d = mechNames (times.at' l c d) (condAt lat l c d) cond k ∧ ∃ a, v = .arr a := by
  unfold MechMdl.args at h
  rw [fillArgs_get?] at h
  have htime : ∀ {v}, Dict.get? [("time", PyVal.arr times)] k = some v → k = "time" ∧ v = .arr times := by
    intro v hv
    simp only [Dict.get?_cons, Dict.get?_nil] at hv
    split at hv
    · rename_i hk
      cases hv
      exact ⟨hk.symm, rfl⟩
    · cases hv
  by_cases hk : k ∈ m.mdl.compute.argNames
  · rw [if_pos hk] at h
    unfold mechNames
    rw [← hcond k hk]
    unfold condAt
    unfold lookup2 at h
    cases hl : lat.get? k with
    | some a => rw [hl] at h; cases h; exact ⟨rfl, _, rfl⟩
    | none =>
      rw [hl] at h
      simp only at h
      cases hc : cs.get? k with
      | some b => rw [hc] at h; cases h; exact ⟨rfl, _, rfl⟩
      | none =>
        rw [hc] at h
        obtain ⟨rfl, rfl⟩ := htime h
        exact ⟨rfl, _, rfl⟩
  · rw [if_neg hk] at h
    obtain ⟨rfl, rfl⟩ := htime h
    exact absurd ht hk

/-- The new values of a mechanism, sample by sample. -/
theorem degBase_names [InfLaw V] {m : MechMdl W V} {N : Nat → Prop} {g : (String → V) → V}
    (hf : SampleEquation m.mdl.compute g N) (hsafe : ShapeSafe m.mdl.compute N)
    (htn : "time" ∈ m.mdl.compute.argNames) {times pre : Arr3 V} {cs lat : Dict (Arr3 V)} {L C n : Nat}
    (hN : N (L * C * n)) (ht : times.HasDims L C n) (hp : pre.HasDims L C n) (hc : GetDims cs L C n)
    (hl : GetDims lat L C n) {v : Arr3 V} {w w' : W}
    (h : m.calcDegBase times pre cs lat L C n w = (.ok v, w')) : v.HasDims L C n ∧
    ∀ l < L, ∀ c < C, ∀ d < n, ∀ cond : String → Option V,
      (∀ k ∈ m.mdl.compute.argNames, condAt cs l c d k = cond k) →
      v.at' l c d = if PyArith.lt (PyArith.ofRat 9000000000) (times.at' l c d) = true ∧
          PyArith.eq (pre.at' l c d) PyNum.inf = false then pre.at' l c d
        else g (mechNames (times.at' l c d) (condAt lat l c d) cond) := by
  unfold MechMdl.calcDegBase at h
  rw [Arr3.bcast2_same _ _ _ ht hp, M.bind_ok (M.ofExcept_run _ _)] at h
  obtain ⟨x, w1, h2, h3⟩ := M.bind_eq_ok.1 h
  have hu := mechArgs_uniform m ht hc hl
  obtain ⟨a, rfl, ha⟩ := computeOrLoop_arr hsafe hu (mechArgs_arr m times cs lat) h2 hN
  have hnd : (m.args times cs lat).Nodup :=
    fillArgs_nodup _ _ (show (Dict.keys [("time", PyVal.arr times)]).Nodup from by simp [Dict.keys])
  obtain ⟨-, h4⟩ := hf _ _ _ _ _ _ _ hN hnd hu (fun k x hx => by
    obtain ⟨-, a, ha⟩ := mechArgs_names htn (l := 0) (c := 0) (d := 0) (fun _ _ => rfl) (Dict.get?_of_mem hnd hx)
    cases ha) h2
  rw [show (PyVal.arr a).toArr = a from rfl, Arr3.bcast2_same _ _ _ (Arr3.ofFn_hasDims L C n _) ha,
    M.ofExcept_run] at h3
  cases h3
  refine ⟨Arr3.ofFn_hasDims L C n _, fun l hl c hc d hd cond hcond => ?_⟩
  rw [Arr3.at_ofFn _ hl hc hd, Arr3.at_ofFn _ hl hc hd]
  have hval : a.at' l c d = g (mechNames (times.at' l c d) (condAt lat l c d) cond) :=
    h4 l hl c hc d hd _ fun k v hv => (mechArgs_names htn hcond hv).1
  rw [hval]
  unfold pastLimit PyArith.gt
  cases PyArith.lt (PyArith.ofRat 9000000000) (times.at' l c d) with
  | false => simp [InfLaw.eq_inf]
  | true => cases he : PyArith.eq (pre.at' l c d) PyNum.inf <;> simp [he]

variable [Rng W V]

/-- The conditions a stress step gives a mechanism whose conditions have no variation are the requested ones. -/
theorem ideal_conds [LawfulRng W V] [UnitLaws V] {ord : SetOrder} {dev : DeviceMdl W V} {env : PhysTestEnv V}
    {base : Dict V} (hb : base.Nodup) {q : Quantities} {w w' : W} {conds : Dict (Dict (Arr3 V))}
    (h : env.genEnvCondVals ord base (.names (dev.degPrms.map (·.1))) (some q) (some dev) .stress 1 1 w =
      (.ok conds, w')) {prm mech : String} {m : DegPrmMdl W V} {k : MechMdl W V}
    (hm : dev.prms.get? prm = some (.deg m)) (hk : m.mechs.get? mech = some k)
    (hid : ∀ x ∈ k.mdl.compute.argNames, base.get? x ≠ none → env.vars.get? x = none) {cs : Dict (Arr3 V)}
    (hcs : conds.get? prm = some cs) {n : Nat} (hn : q.devCounts.get? prm = some n) :
    ∀ x ∈ k.mdl.compute.argNames, ∀ l < q.numLots, ∀ c < q.numChps, ∀ d < n,
      condAt cs l c d x = base.get? x := by
  intro x hx l hl c hc d hd
  have hprm : prm ∈ dev.degPrms.map (·.1) := by
    refine List.mem_map_of_mem (f := (·.1)) (a := (prm, m)) ?_
    unfold DeviceMdl.degPrms
    exact List.mem_filterMap.2 ⟨_, Dict.mem_of_get? hm, rfl⟩
  unfold condAt
  cases hv : base.get? x with
  | some v =>
    obtain ⟨n', counts, h1, h2, h3⟩ := C17_device hb h (hid x hx (by rw [hv]; exact nofun)) hv hprm hm
      (.inr ⟨(mech, k), Dict.mem_of_get? hk, hx⟩)
    cases h1
    rw [show q.devCounts.get? prm = some n' from h2] at hn
    cases hn
    unfold condOf at h3
    rw [hcs] at h3
    simp only at h3
    rw [h3]
    exact congrArg some (Arr3.at_full _ hl hc hd)
  | none =>
    obtain ⟨shared, counts', w1, -, h2, h3⟩ := genEnvCondVals_inv h
    obtain ⟨d', w2, w3, h4, h5⟩ := result_get h3 hprm
    rw [hcs] at h4
    cases h4
    obtain ⟨-, g2⟩ := depend_get hm h5
    cases hg : cs.get? x with
    | none => rfl
    | some a =>
      have := (g2 x a hg).1
      rw [Dict.get?_eq_none_iff] at hv
      exact absurd this hv

/-- One stress step for a failure mechanism. -/
theorem failStep_names [InfLaw V] [UnitLaws V] [LawfulRng W V] {ord : SetOrder} {dev : DeviceMdl W V}
    {env : PhysTestEnv V} (hnd : dev.prms.Nodup) {st : StrsSpec V} (hb : st.conditions.Nodup) {i : Nat}
    {s s' : SimState V} {r r' : SimReport V} {w w' : W}
    (h : simStress ord dev env st i (s, r) w = (.ok (s', r'), w')) (hsh : StateShape dev r.info s)
    {prm mech : String} {m : DegPrmMdl W V} (hm : dev.prms.get? prm = some (.deg m)) (hmn : m.mechs.Nodup)
    {k : MechMdl W V} (hk : m.mechs.get? mech = some k) (hkind : k.kind = .fail) {N : Nat → Prop}
    {g : (String → V) → V} (hf : SampleEquation k.mdl.compute g N) (hsafe : ShapeSafe k.mdl.compute N)
    (htn : "time" ∈ k.mdl.compute.argNames)
    (hid : ∀ x ∈ k.mdl.compute.argNames, st.conditions.get? x ≠ none → env.vars.get? x = none)
    {n : Nat} (hn : r.info.devCounts.get? prm = some n) (hN : N (r.info.numLots * r.info.numChps * n))
    {unit : TUnit} (hu : timeUnitMap k.timeUnit = some unit) {lats : Dict (LatNode V)} {lat : Dict (Arr3 V)}
    (hlats : s.latents.get? prm = some lats) (hlat : lats.get? mech = some (.sub lat))
    {pre : Arr3 V} (hpre : mechVal s prm mech = some pre) :
    ∃ v, mechVal s' prm mech = some v ∧ ∀ l < r.info.numLots, ∀ c < r.info.numChps, ∀ d < n,
      v.at' l c d = failPhase k.unitary g unit (condAt lat l c d) (pre.at' l c d) (.strs st) := by
  obtain ⟨conds, s1, e, t, w1, hgen, -⟩ := simStress_ok h
  have hprm : prm ∈ dev.degPrms.map (·.1) := by
    refine List.mem_map_of_mem (f := (·.1)) (a := (prm, m)) ?_
    unfold DeviceMdl.degPrms
    exact List.mem_filterMap.2 ⟨_, Dict.mem_of_get? hm, rfl⟩
  obtain ⟨cs, hcs⟩ : ∃ cs, conds.get? prm = some cs := by
    obtain ⟨shared, counts', w1, -, -, h3⟩ := genEnvCondVals_inv hgen
    obtain ⟨d', w2, w3, h4, -⟩ := result_get h3 hprm
    exact ⟨d', h4⟩
  have hcd : GetDims cs r.info.numLots r.info.numChps n :=
    conds_dims hgen rfl hprm (Dict.mem_keys_of_get? hm) hn hcs
  have hsub : subLatents lats mech = .ok lat := by
    unfold subLatents
    rw [hlat]
  have hld : GetDims lat r.info.numLots r.info.numChps n := by
    obtain ⟨n', lats', e1, e2, e3⟩ := hsh.count prm _ hm
    rw [hn] at e1
    cases e1
    rw [hlats] at e2
    cases e2
    exact (e3 _ _ (Dict.mem_of_get? hlat)).get
  have hpd : pre.HasDims r.info.numLots r.info.numChps n := by
    obtain ⟨cur, e1, -, e2⟩ := (hsh.deg prm m n hm hn).mech
    unfold mechVal at hpre
    rw [e1] at hpre
    exact e2.get _ _ hpre
  have hst : StressedMech ord dev env st i s r w s' prm mech k pre cs lat n :=
    ⟨⟨_, _, h⟩, hnd, ⟨m, hm, hmn, hk⟩, ⟨conds, _, hgen, ⟨hpre, hn, hcs, lats, hlats, hsub⟩⟩, hpd⟩
  obtain ⟨t0, x, v, u1, u2, u3, u4, h1, h2, h3, h4⟩ := stressed_mech hst
  have ht0 : t0 = pre.map fun _ => PyArith.ofRat 0 := by
    unfold MechMdl.calcEquiv at h1
    rw [hkind] at h1
    cases h1
    rfl
  subst ht0
  have hx : x = phaseTime unit st.duration := by
    unfold convertTime at h2
    rw [hu] at h2
    unfold phaseTime
    cases hd : st.duration with
    | td us => rw [hd] at h2; cases h2; rfl
    | pdtd us => rw [hd] at h2; cases h2; rfl
    | num y =>
      rw [hd] at h2
      simp only at h2
      split at h2 <;> cases h2
  subst hx
  rw [calcDegVals_fail hkind] at h3
  obtain ⟨b, u5, h5, h6⟩ := M.bind_eq_ok.1 h3
  obtain ⟨b1, b2⟩ := degBase_names hf hsafe htn hN (times := (pre.map fun _ => (PyArith.ofRat 0 : V)).map
    fun t => PyArith.add t (PyArith.ofRat (phaseTime unit st.duration))) hpd hpd hcd hld h5
  rw [Arr3.bcast2_same _ _ _ hpd b1] at h6
  cases h6
  refine ⟨_, h4, fun l hl c hc d hd => ?_⟩
  have hb1 : l < pre.nl := by rw [hpd.1]; exact hl
  have hb2 : c < pre.nc := by rw [hpd.2.1]; exact hc
  have hb3 : d < pre.nd := by rw [hpd.2.2]; exact hd
  have htime : ((pre.map fun _ => (PyArith.ofRat 0 : V)).map fun t =>
      PyArith.add t (PyArith.ofRat (phaseTime unit st.duration))).at' l c d =
        PyArith.ofRat (phaseTime unit st.duration) := by
    rw [Arr3.at_map _ _ (by exact hb1) (by exact hb2) (by exact hb3), Arr3.at_map _ _ hb1 hb2 hb3,
      UnitLaws.zero_add]
  rw [Arr3.at_ofFn _ hl hc hd, b2 l hl c hc d hd _ fun y hy =>
    ideal_conds hb hgen hm hk hid hcs hn y hy l hl c hc d hd, htime]
  unfold failPhase
  cases PyArith.eq (pre.at' l c d) k.unitary with
  | false => simp
  | true => simp

omit [Rng W V] in
/-- The first stress phase that makes the equation leave the unfailed value decides. -/
theorem failHistory_first {u : V} (huu : PyArith.eq u u = true)
    {g : (String → V) → V} {unit : TUnit} {lat : String → Option V} {pre post : List (Step V)} {st : StrsSpec V}
    (hpre : ∀ x, Step.strs x ∈ pre →
      g (mechNames (PyArith.ofRat (phaseTime unit x.duration)) lat fun k => x.conditions.get? k) = u)
    (hlim : PyArith.lt (PyArith.ofRat 9000000000) (PyArith.ofRat (phaseTime unit st.duration) : V) = false)
    {y : V} (hy : g (mechNames (PyArith.ofRat (phaseTime unit st.duration)) lat fun k => st.conditions.get? k) = y)
    (hf : PyArith.eq y u = false) : failHistory u g unit lat (pre ++ .strs st :: post) = y := by
  have hkeep : ∀ post : List (Step V), post.foldl (failPhase u g unit lat) y = y := by
    intro post
    induction post with
    | nil => rfl
    | cons x xs ih =>
      rw [List.foldl_cons]
      have : failPhase u g unit lat y x = y := by
        cases x with
        | strs x => exact if_pos (Or.inl hf)
        | meas x => rfl
        | other x => rfl
      rw [this, ih]
  have h1 : ∀ pre : List (Step V), (∀ x, Step.strs x ∈ pre →
      g (mechNames (PyArith.ofRat (phaseTime unit x.duration)) lat fun k => x.conditions.get? k) = u) →
      pre.foldl (failPhase u g unit lat) u = u := by
    intro pre
    induction pre with
    | nil => intro _; rfl
    | cons x xs ih =>
      intro hx
      rw [List.foldl_cons]
      have : failPhase u g unit lat u x = u := by
        cases x with
        | strs x =>
          have := hx x List.mem_cons_self
          unfold failPhase
          simp only
          rw [this, ite_self]
        | meas x => rfl
        | other x => rfl
      rw [this]
      exact ih fun y hy => hx y (List.mem_cons_of_mem _ hy)
  unfold failHistory
  rw [List.foldl_append, h1 pre hpre, List.foldl_cons]
  have : failPhase u g unit lat u (.strs st) = y := by
    unfold failPhase
    simp only
    rw [if_neg (by simp [huu, hlim]), hy]
  rw [this, hkeep]

theorem enumFrom_snd {α : Type} (i : Nat) (xs : List α) : (enumFrom i xs).map (·.2) = xs := by
  induction xs generalizing i with
  | nil => rfl
  | cons x xs ih => rw [enumFrom, List.map_cons, ih]

/-- **C73**: in every simulation from new devices, a sample of a failure mechanism ends with the value its
history gives it, computed for the sample alone from its own latent values, the requested conditions and the
lengths of the stress phases. -/
theorem C73_history [InfLaw V] [UnitLaws V] [LawfulRng W V] {ord : SetOrder} {dev : DeviceMdl W V}
    {env : PhysTestEnv V} (hnd : dev.prms.Nodup)
    (hmn : ∀ p d, dev.prms.get? p = some (.deg d) → d.mechs.Nodup) {N : Nat → Prop}
    (hs : ∀ p d, dev.prms.get? p = some (.deg d) → DegShapes d N) {test : TestSpec V} {s : SimState V}
    {r : SimReport V} {w w' : W} (h : simulateFull ord test dev env none w = (.ok (s, r), w'))
    {prm mech : String} {m : DegPrmMdl W V} (hm : dev.prms.get? prm = some (.deg m)) (ho : OwnNames m)
    {k : MechMdl W V} (hk : m.mechs.get? mech = some k) (hkind : k.kind = .fail) {g : (String → V) → V}
    (hf : SampleEquation k.mdl.compute g N) (htn : "time" ∈ k.mdl.compute.argNames)
    (hb : ∀ st, Step.strs st ∈ test.steps → st.conditions.Nodup)
    (hid : ∀ st, Step.strs st ∈ test.steps → ∀ x ∈ k.mdl.compute.argNames, st.conditions.get? x ≠ none →
      env.vars.get? x = none)
    {unit : TUnit} (hu : timeUnitMap k.timeUnit = some unit)
    (hN : SizesIn N r.info := by intro _ _ _; trivial) :
    ∃ n v lat, r.devCounts.get? prm = some n ∧ mechVal s prm mech = some v ∧
      v.HasDims test.numLots test.numChps n ∧ Drawn k.mdl test.numLots test.numChps n lat ∧
      ∀ l < test.numLots, ∀ c < test.numChps, ∀ d < n,
        v.at' l c d = failHistory k.unitary g unit (condAt lat l c d) test.steps := by
  obtain ⟨⟨s0, r0⟩, w0, h1, h2⟩ := M.bind_eq_ok.1 h
  have hsafe : ShapeSafe k.mdl.compute N := (hs prm m hm).mechs _ _ (Dict.mem_of_get? hk)
  have hinfo : r.info = r0.info := by
    obtain ⟨rows, lines, -, rfl⟩ := runSteps_ok.1 h2
    rfl
  have hN0 : SizesIn N r0.info := by rw [← hinfo]; exact hN
  obtain ⟨g1, g2, g3, -, -⟩ := simStart_shape hnd hs h1 hN0
  obtain ⟨n, lats, b1, b2, b3⟩ := g1.count prm _ hm
  obtain ⟨⟨mv, c1, -, -, c2⟩, ⟨lats', c3, -, c4, -⟩⟩ := start_mechs hnd h1 hm ho b1
  rw [b2] at c3
  cases c3
  obtain ⟨lat, hlat, hdrawn⟩ := c4 mech k hk
  obtain ⟨a, d1, d2, d3⟩ := c2 mech k hk
  have e1 : r0.info.numLots = test.numLots := g2
  have e2 : r0.info.numChps = test.numChps := g3
  have key := M.forIn'_ok_inv (P := fun pre (x : SimState V × SimReport V) _ => StateShape dev x.2.info x.1 ∧
      x.2.info = r0.info ∧ x.1.latents.get? prm = some lats ∧ ∃ v, mechVal x.1 prm mech = some v ∧
        ∀ l < test.numLots, ∀ c < test.numChps, ∀ d < n, v.at' l c d =
          failHistory k.unitary g unit (condAt lat l c d) (pre.map (·.2))) h2
    ⟨g1, rfl, b2, a, by unfold mechVal; rw [c1]; exact d1, d3⟩ ?_
  · obtain ⟨k1, k2, k3, v, k4, k5⟩ := key
    refine ⟨n, v, lat, (congrArg (fun q => q.devCounts.get? prm) hinfo).trans b1, k4, ?_, hdrawn, ?_⟩
    · obtain ⟨cur, f1, -, f2⟩ := (k1.deg prm m n hm (by rw [k2]; exact b1)).mech
      unfold mechVal at k4
      rw [f1] at k4
      have := f2.get _ _ k4
      rw [k2, e1, e2] at this
      exact this
    · rw [enumFrom_snd] at k5
      exact k5
  · rintro pre ⟨j, st⟩ post ⟨s1, r1⟩ w1 ⟨s2, r2⟩ w2 hsplit ⟨k1, k2, k3, v, k4, k5⟩ hx
    have hmem : st ∈ test.steps := by
      rw [← enumFrom_snd 0 test.steps, hsplit]
      simp
    simp only at k1 k2 k3 k4
    cases st with
    | strs st =>
      have hsh := simStress_shape hnd hmn hs k1 hx (by rw [k2]; exact hN0)
      obtain ⟨v', f1, f2⟩ := failStep_names hnd (hb st hmem) hx k1 hm (hmn _ _ hm) hk hkind hf hsafe htn
        (hid st hmem) (n := n) (by rw [k2]; exact b1) (by rw [k2]; exact hN0 _ _ b1) hu k3 hlat k4
      rw [k2, e1, e2] at f2
      obtain ⟨_, s3, _, _, _, -, hl, -, -, rfl, rfl⟩ := simStress_ok hx
      refine ⟨hsh, k2, ?_, v', f1, fun l hl c hc d hd => ?_⟩
      · show s3.latents.get? prm = some lats
        refine M.forIn'_ok_inv (P := fun _ (y : SimState V) _ => y.latents.get? prm = some lats) hl k3 ?_
        intro _ _ _ _ _ _ _ _ hy hst
        obtain ⟨_, _, _, _, _, _, _, _, _, _, _, _, -, -, -, -, -, -, -, -, -, -, rfl⟩ := stressPrm_ok hst
        exact hy
      · rw [f2 l hl c hc d hd, k5 l hl c hc d hd]
        unfold failHistory
        rw [List.map_append, List.foldl_append]
        rfl
    | meas st =>
      obtain ⟨_, _, _, _, _, rfl, rfl⟩ := simMeas_ok hx
      refine ⟨k1, k2, k3, v, k4, fun l hl c hc d hd => ?_⟩
      rw [k5 l hl c hc d hd]
      unfold failHistory
      rw [List.map_append, List.foldl_append]
      rfl
    | other o =>
      cases hx
      refine ⟨k1, k2, k3, v, k4, fun l hl c hc d hd => ?_⟩
      rw [k5 l hl c hc d hd]
      unfold failHistory
      rw [List.map_append, List.foldl_append]
      rfl

/-- **C73**, the deciding phase: the first stress phase for which the equation of a sample leaves the unfailed
value gives the sample its final value; nothing after it matters. -/
theorem C73_first_failure [InfLaw V] [UnitLaws V] [LawfulRng W V] {ord : SetOrder} {dev : DeviceMdl W V}
    {env : PhysTestEnv V} (hnd : dev.prms.Nodup)
    (hmn : ∀ p d, dev.prms.get? p = some (.deg d) → d.mechs.Nodup) {N : Nat → Prop}
    (hs : ∀ p d, dev.prms.get? p = some (.deg d) → DegShapes d N) {test : TestSpec V} {s : SimState V}
    {r : SimReport V} {w w' : W} (h : simulateFull ord test dev env none w = (.ok (s, r), w'))
    {prm mech : String} {m : DegPrmMdl W V} (hm : dev.prms.get? prm = some (.deg m)) (ho : OwnNames m)
    {k : MechMdl W V} (hk : m.mechs.get? mech = some k) (hkind : k.kind = .fail) {g : (String → V) → V}
    (hf : SampleEquation k.mdl.compute g N) (htn : "time" ∈ k.mdl.compute.argNames)
    (hb : ∀ st, Step.strs st ∈ test.steps → st.conditions.Nodup)
    (hid : ∀ st, Step.strs st ∈ test.steps → ∀ x ∈ k.mdl.compute.argNames, st.conditions.get? x ≠ none →
      env.vars.get? x = none)
    {unit : TUnit} (hu : timeUnitMap k.timeUnit = some unit) (huu : PyArith.eq k.unitary k.unitary = true)
    {pre post : List (Step V)} {st : StrsSpec V} (hsteps : test.steps = pre ++ .strs st :: post)
    (hlim : PyArith.lt (PyArith.ofRat 9000000000) (PyArith.ofRat (phaseTime unit st.duration) : V) = false)
    (hN : SizesIn N r.info := by intro _ _ _; trivial) :
    ∃ n v lat, r.devCounts.get? prm = some n ∧ mechVal s prm mech = some v ∧
      v.HasDims test.numLots test.numChps n ∧ Drawn k.mdl test.numLots test.numChps n lat ∧
      ∀ l < test.numLots, ∀ c < test.numChps, ∀ d < n,
        (∀ x, Step.strs x ∈ pre → g (mechNames (PyArith.ofRat (phaseTime unit x.duration)) (condAt lat l c d)
          fun k => x.conditions.get? k) = k.unitary) →
        ∀ y, g (mechNames (PyArith.ofRat (phaseTime unit st.duration)) (condAt lat l c d)
          fun k => st.conditions.get? k) = y → PyArith.eq y k.unitary = false → v.at' l c d = y := by
  obtain ⟨n, v, lat, h1, h2, h3, h4, h5⟩ :=
    C73_history hnd hmn hs h hm ho hk hkind hf htn hb hid hu hN
  refine ⟨n, v, lat, h1, h2, h3, h4, fun l hl c hc d hd hpre y hy hne => ?_⟩
  rw [h5 l hl c hc d hd, hsteps]
  exact failHistory_first huu hpre hlim hy hne

end

section
open Ex

/-- 5 as soon as `temp * time` in one phase exceeds the latent limit. -/
def wearExpr : NumExpr Q :=
  .bin (fun x y => if PyArith.gt x y then .fin 5 else .fin 0) (.bin PyArith.mul (.arg "temp") (.arg "time"))
    (.arg "limit")

/-- The mechanism, with the limit 250. -/
def wear : MechMdl Counts Q :=
  { MechMdl.mk' .fail 1 (some (wearExpr.fn ["temp", "time", "limit"])) none (.fin 0) (some "h")
      [("limit", constLatent (.fin 250))] with }

/-- A device with it. -/
def wearDev : DeviceMdl Counts Q where
  prms := [("vth", .deg (degPrm [("wear", wear)] (.fin 3)))]

/-- One hour at 110 degrees, three at 90, two at 100. -/
def wearSteps : List (Step Q) :=
  [.strs ⟨[("temp", .fin 110)], .td 3600000000, "heat"⟩, .meas ⟨[("vth", 2)], [("temp", .fin 20)], "read"⟩,
    .strs ⟨[("temp", .fin 90)], .td 10800000000, "long"⟩, .strs ⟨[("temp", .fin 100)], .td 7200000000, "last"⟩]

/-- The test, on one chip. -/
def wearTest : TestSpec Q := { steps := wearSteps, numChps := 1, numLots := 1, name := "wear", description := "" }

theorem wear_shapes : ∀ p d, wearDev.prms.get? p = some (.deg d) → DegShapes d := by
  intro p d hp
  have hd : d = degPrm [("wear", wear)] (.fin 3) := by
    have := Dict.mem_of_get? hp
    cases List.mem_singleton.1 this
    rfl
  subst hd
  refine ⟨argEqn_shapes _, by decide, by simp [degPrm, initValMk, nameLatents], constEqn_shapes _, ?_,
    basicSum_shapes⟩
  intro k m hk
  cases List.mem_singleton.1 hk
  exact NumExpr.shapes (by intro k; simp [wearExpr, NumExpr.uses])

/-- The history: no failure in the first phase, failure in the second, none undone in the third. -/
example : failHistory (.fin 0) (fun env => exprOn env wearExpr) .hours
    (condAt [("limit", .full 1 1 1 (.fin 250))] 0 0 0) wearSteps = .fin 5 ∧
    failHistory (.fin 0) (fun env => exprOn env wearExpr) .hours
      (condAt [("limit", .full 1 1 1 (.fin 250))] 0 0 0) (wearSteps.take 2) = .fin 0 := by
  decide +kernel

/-- Phases do not add up: three hours in one phase fail, three phases of one hour do not. -/
example : failHistory (.fin 0) (fun env => exprOn env wearExpr) .hours
    (condAt [("limit", .full 1 1 1 (.fin 250))] 0 0 0)
      (List.replicate 3 (.strs ⟨[("temp", .fin 90)], .td 3600000000, "hour"⟩)) = .fin 0 := by
  decide +kernel

/-- The simulation runs, and `C73_history` applies to it. -/
example : ∃ s r w', simulateFull orderA wearTest wearDev {} none Counts.start = (.ok (s, r), w') ∧
    ∃ n v lat, r.devCounts.get? "vth" = some n ∧ mechVal s "vth" "wear" = some v ∧ v.HasDims 1 1 n ∧
      Drawn wear.mdl 1 1 n lat ∧ ∀ l < 1, ∀ c < 1, ∀ d < n, v.at' l c d =
        failHistory (.fin 0) (fun env => exprOn env wearExpr) .hours (condAt lat l c d) wearSteps := by
  obtain ⟨x, hx, -⟩ := exists_ok (x := (simulateFull orderA wearTest wearDev {} none Counts.start).1)
    (f := fun _ => true) (by decide +kernel)
  have h : simulateFull orderA wearTest wearDev {} none Counts.start = (.ok (x.1, x.2), _) := Prod.ext hx rfl
  refine ⟨x.1, x.2, _, h, C73_history (k := wear) (by decide) ?_ wear_shapes h rfl ?_ rfl rfl
    (expr_sample (by intro k; simp [wearExpr, NumExpr.uses])) (by decide) ?_ ?_ rfl⟩
  · intro p d hp
    cases List.mem_singleton.1 (Dict.mem_of_get? hp)
    decide
  · exact ⟨by decide, by decide, by decide, fun k hk => (by cases hk)⟩
  · intro st hst
    simp only [wearTest, wearSteps, List.mem_cons, Step.strs.injEq, reduceCtorEq, List.not_mem_nil, or_false,
      false_or] at hst
    rcases hst with rfl | rfl | rfl <;> decide
  · intro st _ x _ _
    rfl

end

end Gerabaldi.Props
