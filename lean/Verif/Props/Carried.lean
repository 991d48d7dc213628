import Verif.Props.Reorder

/-!
# Simulations of the same devices in another order (C101)
-/

namespace Gerabaldi.Props

open Gerabaldi Gerabaldi.Spec

variable {W V : Type} [PyNum V] [Rng W V]

/-- The phases that devices meet are determined. -/
theorem metPhases_unique {ord : SetOrder} {dev : DeviceMdl W V} {env : PhysTestEnv V} {prm : String} {i : Nat}
    {steps : List (Step V)} {sr : SimState V × SimReport V} {w : W} {a b : List (Phase V)}
    (ha : MetPhases ord dev env prm i steps sr w a) (hb : MetPhases ord dev env prm i steps sr w b) : a = b := by
  induction ha generalizing b with
  | done => cases hb; rfl
  | strs h1 h2 h3 _ ih =>
    cases hb with
    | strs g1 g2 g3 g4 =>
      rw [h1] at g1
      cases g1
      rw [h2] at g2
      cases g2
      rw [h3] at g3
      cases g3
      rw [ih g4]
    | skip g1 => exact absurd rfl (g1 _)
  | skip h1 h2 _ ih =>
    cases hb with
    | strs => exact absurd rfl (h1 _)
    | skip g1 g2 g3 =>
      rw [h2] at g2
      cases g2
      exact ih g3

/-- One stress step for all mechanisms of a parameter, under the conditions that the environment gives in it. -/
theorem stressStep_met [InfLaw V] [UnitLaws V] {ord : SetOrder} {dev : DeviceMdl W V} {env : PhysTestEnv V}
    (hnd : dev.prms.Nodup) {st : StrsSpec V} {i : Nat} {s s' : SimState V} {r r' : SimReport V} {w w' : W}
    (h : simStress ord dev env st i (s, r) w = (.ok (s', r'), w')) (hsh : StateShape dev r.info s)
    {prm : String} {m : DegPrmMdl W V} (hm : dev.prms.get? prm = some (.deg m)) (hmn : m.mechs.Nodup)
    {N : Nat → Prop} (hdeg : DegShapes m N) {gm : String → (String → V) → V} {um : String → TUnit}
    (he : MechEquations m gm um N) {n : Nat} (hn : r.info.devCounts.get? prm = some n)
    (hN : N (r.info.numLots * r.info.numChps * n)) {lats : Dict (LatNode V)} (hlats : s.latents.get? prm = some lats)
    (hsub : ∀ mech k, m.mechs.get? mech = some k → lats.get? mech = some (.sub (partLatents lats mech))) :
    ∃ conds cs u, env.genEnvCondVals ord st.conditions (.names (dev.degPrms.map (·.1))) (some r.info) (some dev)
        .stress 1 1 w = (.ok conds, u) ∧ conds.get? prm = some cs ∧ ∀ mech k, m.mechs.get? mech = some k →
      ∀ pre, mechVal s prm mech = some pre → ∃ v, mechVal s' prm mech = some v ∧
        ∀ l < r.info.numLots, ∀ c < r.info.numChps, ∀ d < n, v.at' l c d =
          phaseValues k (gm mech) (um mech) (partLatents lats mech) r.info.numLots r.info.numChps n pre.at'
            ⟨st.duration, cs⟩ l c d := by
  obtain ⟨conds, s1, e, t, w1, hgen, -⟩ := simStress_ok h
  have hprm : prm ∈ dev.degPrms.map (·.1) :=
    List.mem_map_of_mem (f := (·.1)) (a := (prm, m)) (Gerabaldi.mem_degPrms.2 (Dict.mem_of_get? hm))
  obtain ⟨cs, hcs⟩ : ∃ cs, conds.get? prm = some cs := by
    obtain ⟨shared, counts', w1, -, -, h3⟩ := genEnvCondVals_inv hgen
    obtain ⟨d', w2, w3, h4, -⟩ := result_get h3 hprm
    exact ⟨d', h4⟩
  have hcd : GetDims cs r.info.numLots r.info.numChps n :=
    conds_dims hgen rfl hprm (Dict.mem_keys_of_get? hm) hn hcs
  refine ⟨conds, cs, _, hgen, hcs, fun mech k hk pre hpre => ?_⟩
  have hlat := hsub mech k hk
  have hsl : subLatents lats mech = .ok (partLatents lats mech) := by
    unfold subLatents
    rw [hlat]
  have hld : GetDims (partLatents lats mech) r.info.numLots r.info.numChps n := by
    obtain ⟨n', lats', e1, e2, e3⟩ := hsh.count prm _ hm
    rw [hn] at e1
    cases e1
    rw [hlats] at e2
    cases e2
    exact (e3 _ _ (Dict.mem_of_get? hlat)).get
  have hpd : pre.HasDims r.info.numLots r.info.numChps n := by
    obtain ⟨cur, e1, -, e2⟩ := (hsh.deg prm m n hm hn).mech
    unfold mechVal at hpre
    rw [e1] at hpre
    exact e2.get _ _ hpre
  have hst : StressedMech ord dev env st i s r w s' prm mech k pre cs (partLatents lats mech) n :=
    ⟨⟨_, _, h⟩, hnd, ⟨m, hm, hmn, hk⟩, ⟨conds, _, hgen, ⟨hpre, hn, hcs, lats, hlats, hsl⟩⟩, hpd⟩
  exact mechStep_names hst (he.eqn mech k hk) (hdeg.mechs _ _ (Dict.mem_of_get? hk)) (he.time mech k hk) hN
    (he.unit mech k hk) hcd hld

omit [Rng W V] in
theorem foldPhases_congr {k : MechMdl W V} {g : (String → V) → V} {unit : TUnit} {lat : Dict (Arr3 V)} {L C n : Nat}
    (phases : List (Phase V)) {v v' : Nat → Nat → Nat → V} (h : ∀ l < L, ∀ c < C, ∀ d < n, v l c d = v' l c d) :
    ∀ l < L, ∀ c < C, ∀ d < n, phases.foldl (phaseValues k g unit lat L C n) v l c d =
      phases.foldl (phaseValues k g unit lat L C n) v' l c d := by
  induction phases generalizing v v' with
  | nil => exact h
  | cons ph rest ih => exact ih (phaseValues_congr h)

/-- The mechanism values after some steps, from those before and the phases that the devices meet. -/
theorem run_met [InfLaw V] [UnitLaws V] {ord : SetOrder} {dev : DeviceMdl W V} {env : PhysTestEnv V}
    (hnd : dev.prms.Nodup) (hmn : ∀ p d, dev.prms.get? p = some (.deg d) → d.mechs.Nodup) {N : Nat → Prop}
    (hs : ∀ p d, dev.prms.get? p = some (.deg d) → DegShapes d N) {steps : List (Step V)} {i : Nat} {s s' : SimState V}
    {r r' : SimReport V} {w w' : W} (h : runSteps ord dev env i steps (s, r) w = (.ok (s', r'), w'))
    (hsh : StateShape dev r.info s) {prm : String} {m : DegPrmMdl W V} (hm : dev.prms.get? prm = some (.deg m))
    {gm : String → (String → V) → V} {um : String → TUnit} (he : MechEquations m gm um N)
    {n : Nat} (hq : r.info.devCounts.get? prm = some n) (hN : SizesIn N r.info) {lats : Dict (LatNode V)}
    (hlats : s.latents.get? prm = some lats)
    (hsub : ∀ mech k, m.mechs.get? mech = some k → lats.get? mech = some (.sub (partLatents lats mech))) :
    ∃ phases, MetPhases ord dev env prm i steps (s, r) w phases ∧ s'.latents.get? prm = some lats ∧
      s'.initPrm.get? prm = s.initPrm.get? prm ∧ ∀ mech k, m.mechs.get? mech = some k → ∀ v, mechVal s prm mech = some v →
        ∃ v', mechVal s' prm mech = some v' ∧ ∀ l < r.info.numLots, ∀ c < r.info.numChps, ∀ d < n, v'.at' l c d =
          phases.foldl (phaseValues k (gm mech) (um mech) (partLatents lats mech) r.info.numLots r.info.numChps n)
            v.at' l c d := by
  induction steps generalizing i s r w with
  | nil =>
    cases h
    exact ⟨[], .done, hlats, rfl, fun mech k _ v hv => ⟨v, hv, fun _ _ _ _ _ _ => rfl⟩⟩
  | cons st rest ih =>
    obtain ⟨⟨s1, r1⟩, w1, hx, hrest⟩ := M.bind_eq_ok.1 h
    cases st with
    | strs st =>
      have hx' : simStress ord dev env st i (s, r) w = (.ok (s1, r1), w1) := hx
      have hsh1 := simStress_shape hnd hmn hs hsh hx' hN
      obtain ⟨conds, cs, u, f1, f2, f3⟩ := stressStep_met hnd hx' hsh hm (hmn _ _ hm) (hs _ _ hm) he hq (hN _ _ hq) hlats
        hsub
      obtain ⟨_, s3, _, _, _, -, hl, -, -, rfl, rfl⟩ := simStress_ok hx'
      have hkeep : s3.latents.get? prm = some lats ∧ s3.initPrm.get? prm = s.initPrm.get? prm := by
        refine M.forIn'_ok_inv (P := fun _ (y : SimState V) _ => y.latents.get? prm = some lats ∧
          y.initPrm.get? prm = s.initPrm.get? prm) hl ⟨hlats, rfl⟩ ?_
        intro _ _ _ _ _ _ _ _ hy hst
        obtain ⟨_, _, _, _, _, _, _, _, _, _, _, _, -, -, -, -, -, -, -, -, -, -, rfl⟩ := stressPrm_ok hst
        exact hy
      obtain ⟨phases, k1, k2, k3, k4⟩ := ih hrest hsh1 hq hN hkeep.1
      refine ⟨⟨st.duration, cs⟩ :: phases, .strs f1 f2 hx k1, k2, k3.trans hkeep.2, fun mech k hk v hv => ?_⟩
      obtain ⟨v1, a1, a2⟩ := f3 mech k hk v hv
      obtain ⟨v2, b1, b2⟩ := k4 mech k hk v1 a1
      refine ⟨v2, b1, fun l hl c hc d hd => ?_⟩
      rw [b2 l hl c hc d hd]
      exact foldPhases_congr phases a2 l hl c hc d hd
    | meas st =>
      have hx' : simMeas ord dev env st i (s, r) w = (.ok (s1, r1), w1) := hx
      obtain ⟨_, _, _, _, _, rfl, rfl⟩ := simMeas_ok hx'
      obtain ⟨phases, k1, k2, k3, k4⟩ := ih hrest hsh hq hN hlats
      exact ⟨phases, .skip nofun hx k1, k2, k3, k4⟩
    | other o =>
      have hx' := hx
      cases hx'
      obtain ⟨phases, k1, k2, k3, k4⟩ := ih hrest hsh hq hN hlats
      exact ⟨phases, .skip nofun hx k1, k2, k3, k4⟩

theorem steps_info {ord : SetOrder} {dev : DeviceMdl W V} {env : PhysTestEnv V} {steps : List (Step V)} {i : Nat}
    {s s' : SimState V} {r r' : SimReport V} {w w' : W}
    (h : runSteps ord dev env i steps (s, r) w = (.ok (s', r'), w')) : r'.info = r.info := by
  induction steps generalizing i s r w with
  | nil => cases h; rfl
  | cons st rest ih =>
    obtain ⟨⟨s1, r1⟩, w1, hx, hrest⟩ := M.bind_eq_ok.1 h
    refine (ih hrest).trans ?_
    cases st with
    | strs st =>
      have hx' : simStress ord dev env st i (s, r) w = (.ok (s1, r1), w1) := hx
      obtain ⟨_, _, _, _, _, -, -, -, -, -, rfl⟩ := simStress_ok hx'
      rfl
    | meas st =>
      have hx' : simMeas ord dev env st i (s, r) w = (.ok (s1, r1), w1) := hx
      obtain ⟨_, _, _, _, _, rfl, rfl⟩ := simMeas_ok hx'
      rfl
    | other o => cases hx; rfl

/-- The true values of the devices, from what they are and meet. -/
theorem runWith_true [InfLaw V] [UnitLaws V] {ord : SetOrder} {dev : DeviceMdl W V} {env : PhysTestEnv V}
    (hnd : dev.prms.Nodup) (hmn : ∀ p d, dev.prms.get? p = some (.deg d) → d.mechs.Nodup) {N : Nat → Prop}
    (hs : ∀ p d, dev.prms.get? p = some (.deg d) → DegShapes d N) {test : TestSpec V} {steps : List (Step V)}
    {s₀ s : SimState V} {r₀ r : SimReport V} {w w₀ w₁ : W} (h1 : simStart dev test none w = (.ok (s₀, r₀), w₀))
    (h2 : runSteps ord dev env 0 steps (s₀, r₀) w₀ = (.ok (s, r), w₁))
    {prm : String} {m : DegPrmMdl W V} (hm : dev.prms.get? prm = some (.deg m)) (ho : OwnNames m)
    (hil : m.initMdl.latentVars.Nodup) {g gi : (String → V) → V} {S : PyVal V → Prop} (hg : HasEquation m g N S)
    (hi : CircEquation m.initMdl.compute gi) {gm : String → (String → V) → V} {um : String → TUnit}
    (he : MechEquations m gm um N) {n : Nat} (hq : r₀.devCounts.get? prm = some n)
    (hN : SizesIn N r₀.info := by intro _ _ _; trivial) :
    ∃ lat init phases cur, RunWith ord dev env test steps prm w w₁ n lat init phases s r ∧
      s.latents.get? prm = some lat ∧ s.currPrm.get? prm = some (.arr cur) ∧
      ∀ l < test.numLots, ∀ c < test.numChps, ∀ d < n, cur.at' l c d =
        trueAfter m g gm um (init.at' l c d) lat test.numLots test.numChps n phases l c d := by
  obtain ⟨g1, g2, g3, -, -⟩ := simStart_shape hnd hs h1 hN
  have e1 : r₀.info.numLots = test.numLots := g2
  have e2 : r₀.info.numChps = test.numChps := g3
  obtain ⟨-, ⟨⟨-, lat, c3, -, -, -⟩, ⟨ia, il, d1, d2, -, -, -⟩⟩⟩ :=
    C72_start hnd hs h1 hm ho hil hi hq (by
    have := hN prm n hq
    rwa [e1, e2] at this)
  obtain ⟨⟨mv, c1, -, -, c2⟩, ⟨lats, c3', -, c4, -⟩⟩ := start_mechs hnd h1 hm ho hq
  rw [c3] at c3'
  cases c3'
  have hsub : ∀ mech k, m.mechs.get? mech = some k → lat.get? mech = some (.sub (partLatents lat mech)) := by
    intro mech k hk
    obtain ⟨d, hd, -⟩ := c4 mech k hk
    unfold partLatents
    rw [hd]
  obtain ⟨phases, k1, k2, k3, k4⟩ := run_met hnd hmn hs h2 g1 hm he (n := n) hq hN c3 hsub
  have hrun := run_computed hnd hmn hs g1 h2 hm hg hq hN
  have hempty : stressSteps steps = [] ↔ phases = [] := by
    clear hrun k4 k3 k2 h2
    generalize (0 : Nat) = i at k1
    generalize (s₀, r₀) = sr at k1
    generalize w₀ = u at k1
    induction k1 with
    | done => simp [stressSteps]
    | strs _ _ _ _ _ => simp [stressSteps]
    | @skip _ st _ _ _ _ _ _ hst _ _ ih =>
      cases st with
      | strs st => exact absurd rfl (hst st)
      | meas _ => exact ih
      | other _ => exact ih
  have run : RunWith ord dev env test steps prm w w₁ n lat ia phases s r :=
    ⟨s₀, r₀, w₀, h1, h2, hq, c3, d1, k1⟩
  by_cases hph : stressSteps steps = []
  · rw [if_pos hph] at hrun
    refine ⟨lat, ia, phases, ia, run, k2, by rw [hrun]; exact d2, fun l hl c hc d hd => ?_⟩
    unfold trueAfter
    rw [hempty.1 hph]
    rfl
  · rw [if_neg hph] at hrun
    obtain ⟨ia', a, mv', lat', q1, -, q3, -, q5, q6, q7, q8⟩ := hrun
    rw [k2] at q7
    cases q7
    rw [k3, d1] at q1
    cases q1
    refine ⟨lat, ia, phases, a, run, k2, q3, fun l hl c hc d hd => ?_⟩
    rw [q8 l (by rw [e1]; exact hl) c (by rw [e2]; exact hc) d hd]
    unfold trueAfter
    rw [if_neg (by
      rw [List.isEmpty_iff]
      exact fun h => hph (hempty.2 h))]
    congr 2
    funext mech
    unfold mechsAfter
    cases hk : m.mechs.get? mech with
    | none =>
      have : mv'.get? mech = none := by
        rw [Dict.get?_eq_none_iff, q6]
        exact (Dict.get?_eq_none_iff _ _).1 hk
      rw [this]
      rfl
    | some k =>
      obtain ⟨a0, b1, -, b3⟩ := c2 mech k hk
      obtain ⟨v, x1, x2⟩ := k4 mech k hk a0 (by unfold mechVal; rw [c1]; exact b1)
      unfold mechVal at x1
      rw [q5] at x1
      have x1' : mv'.get? mech = some v := x1
      rw [x1']
      refine congrArg some ?_
      show v.at' l c d = _
      rw [x2 l (by rw [e1]; exact hl) c (by rw [e2]; exact hc) d hd]
      rw [e1, e2]
      exact foldPhases_congr phases b3 l hl c hc d hd

/-- **C101**, simulations: two simulations of any tests and environments with the same device model. If the devices of
one are those of the other in another order - they are drawn with the same latent and initial values and meet the same
conditions in stress phases of the same lengths -, then after these steps their true values are the same, each at its
place. -/
theorem C101_run [InfLaw V] [UnitLaws V] {ord ord' : SetOrder} {dev : DeviceMdl W V} {env env' : PhysTestEnv V}
    (hnd : dev.prms.Nodup) (hmn : ∀ p d, dev.prms.get? p = some (.deg d) → d.mechs.Nodup) {N : Nat → Prop}
    (hs : ∀ p d, dev.prms.get? p = some (.deg d) → DegShapes d N) {test test' : TestSpec V} {steps steps' : List (Step V)}
    {prm : String} {w w' w₁ w₁' : W} {n n' : Nat} {lat lat' : Dict (LatNode V)} {init init' : Arr3 V}
    {phases phases' : List (Phase V)} {s s' : SimState V} {r r' : SimReport V}
    (h : RunWith ord dev env test steps prm w w₁ n lat init phases s r)
    (h' : RunWith ord' dev env' test' steps' prm w' w₁' n' lat' init' phases' s' r')
    {m : DegPrmMdl W V} (hm : dev.prms.get? prm = some (.deg m)) (ho : OwnNames m)
    (hil : m.initMdl.latentVars.Nodup) {g gi : (String → V) → V} {S : PyVal V → Prop} (hg : HasEquation m g N S)
    (hi : CircEquation m.initMdl.compute gi) {gm : String → (String → V) → V} {um : String → TUnit}
    (he : MechEquations m gm um N) {f : Nat × Nat × Nat → Nat × Nat × Nat}
    (hf : Reorders f test.numLots test.numChps n test'.numLots test'.numChps n')
    (hsame : ∀ l < test'.numLots, ∀ c < test'.numChps, ∀ d < n', SameLatents lat' lat (l, c, d) (f (l, c, d)) ∧
      LikeStress phases' phases (l, c, d) (f (l, c, d)) ∧
      init'.at' l c d = init.at' (f (l, c, d)).1 (f (l, c, d)).2.1 (f (l, c, d)).2.2)
    (hN : SizesIn N r.info := by intro _ _ _; trivial) (hN' : SizesIn N r'.info := by intro _ _ _; trivial) :
    ∃ cur cur', s.currPrm.get? prm = some (.arr cur) ∧ s'.currPrm.get? prm = some (.arr cur') ∧
      ∀ l < test'.numLots, ∀ c < test'.numChps, ∀ d < n',
        cur'.at' l c d = cur.at' (f (l, c, d)).1 (f (l, c, d)).2.1 (f (l, c, d)).2.2 := by
  have key : ∀ {ord : SetOrder} {env : PhysTestEnv V} {test : TestSpec V} {steps : List (Step V)} {w w₁ : W} {n : Nat}
      {lat : Dict (LatNode V)} {init : Arr3 V} {phases : List (Phase V)} {s : SimState V} {r : SimReport V},
      RunWith ord dev env test steps prm w w₁ n lat init phases s r → SizesIn N r.info →
      ∃ cur, s.currPrm.get? prm = some (.arr cur) ∧ ∀ l < test.numLots, ∀ c < test.numChps, ∀ d < n, cur.at' l c d =
        trueAfter m g gm um (init.at' l c d) lat test.numLots test.numChps n phases l c d := by
    intro ord env test steps w w₁ n lat init phases s r h hN
    obtain ⟨s₀, r₀, w₀, h1, h2, h3, h4, h5, h6⟩ := h
    have hN0 : SizesIn N r₀.info := by rw [← steps_info h2]; exact hN
    obtain ⟨lat1, init1, phases1, cur, ⟨s₁, r₁, u₁, j1, j2, j3, j4, j5, j6⟩, a2, a3, a4⟩ :=
      runWith_true hnd hmn hs h1 h2 hm ho hil hg hi he h3 hN0
    rw [h1] at j1
    cases j1
    rw [h4] at j4
    cases j4
    rw [h5] at j5
    cases j5
    cases metPhases_unique h6 j6
    exact ⟨cur, a3, a4⟩
  obtain ⟨cur, a1, a2⟩ := key h hN
  obtain ⟨cur', b1, b2⟩ := key h' hN'
  refine ⟨cur, cur', a1, b1, fun l hl c hc d hd => ?_⟩
  obtain ⟨x1, x2, x3⟩ := hf.into l hl c hc d hd
  rw [b2 l hl c hc d hd, a2 _ x1 _ x2 _ x3, (hsame l hl c hc d hd).2.2]
  exact C101_true hf (fun l hl c hc d hd => ⟨(hsame l hl c hc d hd).1, (hsame l hl c hc d hd).2.1⟩) hl hc hd _

/-- **C101**, reports: when these devices are then measured under the same conditions, the instruments are shown the
same values, each at its place. -/
theorem C101_reading [InfLaw V] [UnitLaws V] [LawfulRng W V] {ord ord' : SetOrder} {dev : DeviceMdl W V}
    {env env' : PhysTestEnv V} (hnd : dev.prms.Nodup)
    (hmn : ∀ p d, dev.prms.get? p = some (.deg d) → d.mechs.Nodup) {N : Nat → Prop}
    (hs : ∀ p d, dev.prms.get? p = some (.deg d) → DegShapes d N) {test test' : TestSpec V}
    {rep rep' : SimReport V} {w w' w₂ w₂' : W} (h : simulate ord test dev env none w = (.ok rep, w₂))
    (h' : simulate ord' test' dev env' none w' = (.ok rep', w₂')) {pre post pre' post' : List (Step V)}
    {step step' : MeasSpec V} (ht : test.steps = pre ++ .meas step :: post)
    (ht' : test'.steps = pre' ++ .meas step' :: post') (hnm : step.measurements.Nodup)
    (hnm' : step'.measurements.Nodup) {prm : String} {q q' : Nat} (hp : (prm, q) ∈ step.measurements)
    (hp' : (prm, q') ∈ step'.measurements) {w₁ w₁' : W} {n n' : Nat} {lat lat' : Dict (LatNode V)} {init init' : Arr3 V}
    {phases phases' : List (Phase V)} {s s' : SimState V} {r r' : SimReport V}
    (hr : RunWith ord dev env test pre prm w w₁ n lat init phases s r)
    (hr' : RunWith ord' dev env' test' pre' prm w' w₁' n' lat' init' phases' s' r') {u u' : W}
    {conds conds' : Dict (Dict (Arr3 V))} {cs cs' : Dict (Arr3 V)}
    (hc : env.genEnvCondVals ord step.conditions (.counts step.measurements) (some rep.info) (some dev)
        .measure 1 1 w₁ = (.ok conds, u)) (hcs : conds.get? prm = some cs)
    (hc' : env'.genEnvCondVals ord' step'.conditions (.counts step'.measurements) (some rep'.info) (some dev)
        .measure 1 1 w₁' = (.ok conds', u')) (hcs' : conds'.get? prm = some cs')
    {m : DegPrmMdl W V} (hm : dev.prms.get? prm = some (.deg m)) (ho : OwnNames m)
    (hil : m.initMdl.latentVars.Nodup) {g gi gc : (String → V) → V} {S : PyVal V → Prop} (hg : HasEquation m g N S)
    (hi : CircEquation m.initMdl.compute gi) (hcond : SampleEquation m.condMdl.compute gc N)
    {gm : String → (String → V) → V} {um : String → TUnit}
    (he : MechEquations m gm um N) {f : Nat × Nat × Nat → Nat × Nat × Nat}
    (hf : Reorders f test.numLots test.numChps n test'.numLots test'.numChps n')
    (hsame : ∀ l < test'.numLots, ∀ c < test'.numChps, ∀ d < n', SameLatents lat' lat (l, c, d) (f (l, c, d)) ∧
      LikeStress phases' phases (l, c, d) (f (l, c, d)) ∧
      init'.at' l c d = init.at' (f (l, c, d)).1 (f (l, c, d)).2.1 (f (l, c, d)).2.2)
    (hsc : ∀ l < test'.numLots, ∀ c < test'.numChps, ∀ d < q', (f (l, c, d)).2.2 < q →
      condAt cs' l c d = condAt cs (f (l, c, d)).1 (f (l, c, d)).2.1 (f (l, c, d)).2.2)
    (hN : SizesIn N rep.info := by intro _ _ _; trivial) (hN' : SizesIn N rep'.info := by intro _ _ _; trivial)
    (hNn : N (test.numLots * test.numChps * q) := by trivial)
    (hNn' : N (test'.numLots * test'.numChps * q') := by trivial) :
    ∃ x x', ShownFrom (W := W) env prm pre.length test.numLots test.numChps q x rep.measurements ∧
      ShownFrom (W := W) env' prm pre'.length test'.numLots test'.numChps q' x' rep'.measurements ∧
      ∀ l < test'.numLots, ∀ c < test'.numChps, ∀ d < q', (f (l, c, d)).2.2 < q →
        x' l c d = x (f (l, c, d)).1 (f (l, c, d)).2.1 (f (l, c, d)).2.2 := by
  have key : ∀ {ord : SetOrder} {env : PhysTestEnv V} {test : TestSpec V} {rep : SimReport V} {w w₂ : W}
      {pre post : List (Step V)} {step : MeasSpec V} {q n : Nat} {w₁ u : W} {lat : Dict (LatNode V)} {init : Arr3 V}
      {phases : List (Phase V)} {s : SimState V} {r : SimReport V} {conds : Dict (Dict (Arr3 V))} {cs : Dict (Arr3 V)},
      simulate ord test dev env none w = (.ok rep, w₂) → test.steps = pre ++ .meas step :: post →
      step.measurements.Nodup → (prm, q) ∈ step.measurements →
      RunWith ord dev env test pre prm w w₁ n lat init phases s r →
      env.genEnvCondVals ord step.conditions (.counts step.measurements) (some rep.info) (some dev)
        .measure 1 1 w₁ = (.ok conds, u) → conds.get? prm = some cs → SizesIn N rep.info →
      N (test.numLots * test.numChps * q) → SizesIn N r.info ∧ q ≤ n ∧ ∃ cur, s.currPrm.get? prm = some (.arr cur) ∧
        ShownFrom (W := W) env prm pre.length test.numLots test.numChps q (fun l c d => shownAfter m g gc (cur.at' l c d)
          lat cs l c d) rep.measurements := by
    intro ord env test rep w w₂ pre post step q n w₁ u lat init phases s r conds cs h ht hnm hp hr hc hcs hN hNn
    obtain ⟨s₀, r₀, w₀, h1, h2, h3, h4, h5, h6⟩ := hr
    obtain ⟨s0, r0, s1, r1, conds1, cs1, cur, lat1, cl, k, ys, v0, v1, v2, u2, u3, a1, a2, a3, a4, a5, a6, a7, a8, a9,
      a10, a11⟩ := C71_reading hnd hmn hs h ht hnm hp hm hg hcond hN hNn
    obtain ⟨b1, b2, -, -, -, -, -, b3, -, -, -, -, -, b4, -, b5, -⟩ := C57_instrument h ht hnm hp
    rw [h1] at a1
    cases a1
    rw [h1] at b4
    cases b4
    rw [h2] at a2
    cases a2
    rw [hc] at a3
    cases a3
    rw [hcs] at a4
    cases a4
    have hN0 : SizesIn N r₀.info := by rw [← b5]; exact hN
    obtain ⟨lat2, -, -, cur2, ⟨s₃, r₃, u₃, j1, -, -, j4, -, -⟩, k2, k3, -⟩ :=
      runWith_true hnd hmn hs h1 h2 hm ho hil hg hi he h3 hN0
    rw [h1] at j1
    cases j1
    rw [h4] at j4
    cases j4
    rw [k2] at a8
    cases a8
    rw [k3] at a5
    cases a5
    obtain ⟨g1, -⟩ := simStart_shape hnd hs h1 hN0
    obtain ⟨g6, g7⟩ := runSteps_shape hnd hmn hs (sr := (s₀, r₀)) (sr' := (s, r)) g1 h2 hN0
    have hk : k = n := by
      obtain ⟨cur', q1, q2⟩ := (g6.deg prm m n hm (by rw [g7]; exact h3)).prm
      simp only at q1
      rw [k3] at q1
      cases q1
      exact a6.2.2.symm.trans q2.2.2
    have hcl : partLatents lat "cond" = cl := by
      unfold partLatents
      rw [a9]
    subst hcl
    refine ⟨by rw [steps_info h2]; exact hN0, by rw [← hk]; exact a7, cur, k3, s.elapsed, ys, u2, u3, a10, a11⟩
  obtain ⟨n1, n2, cur, a1, a2⟩ := key h ht hnm hp hr hc hcs hN hNn
  obtain ⟨n1', n2', cur', b1, b2⟩ := key h' ht' hnm' hp' hr' hc' hcs' hN' hNn'
  obtain ⟨d1, d2, e1, e2, e3⟩ := C101_run hnd hmn hs hr hr' hm ho hil hg hi he hf hsame n1 n1'
  rw [a1] at e1
  cases e1
  rw [b1] at e2
  cases e2
  refine ⟨_, _, a2, b2, fun l hl c hc d hd hq => ?_⟩
  have hd' : d < n' := Nat.lt_of_lt_of_le hd n2'
  obtain ⟨x1, -⟩ := hsame l hl c hc d hd'
  have y1 : ownAt lat' l c d = ownAt lat (f (l, c, d)).1 (f (l, c, d)).2.1 (f (l, c, d)).2.2 := x1.own
  have y2 := x1.parts "cond"
  simp only at y2
  unfold shownAfter
  rw [e3 l hl c hc d hd', y1, y2, hsc l hl c hc d hd hq]

end Gerabaldi.Props
