import Verif.Spec.Nominal
import Verif.Props.History

/-!
# Devices and tests without any variation (C77)
-/

namespace Gerabaldi.Props

open Gerabaldi Gerabaldi.Spec

variable {W V : Type} [PyNum V]

/-! ## Mechanisms -/

theorem phaseValue_congr {kind : MechKind} {u : V} {g : (String → V) → V} {lat lat' cond cond' : String → Option V}
    (h : ∀ t, g (mechNames t lat cond) = g (mechNames t lat' cond')) (length : V) (rounds : Nat) (v : V) :
    residueOne g lat cond v = residueOne g lat' cond' v ∧
      phaseValue kind u g lat cond length rounds v = phaseValue kind u g lat' cond' length rounds v := by
  have hr : residueOne g lat cond v = residueOne g lat' cond' v := by
    funext t
    unfold residueOne
    rw [h]
  refine ⟨hr, ?_⟩
  cases kind <;> simp only [phaseValue, hr, h]

theorem commonRounds_own {c : MinCfg V} {L C n : Nat} {f : Nat → Nat → Nat → V → V} {f0 : V → V}
    (h : ∀ l < L, ∀ ch < C, ∀ d < n, f l ch d = f0) (hL : 0 < L) (hC : 0 < C) (hn : 0 < n) :
    commonRounds c L C n f = ownRounds c f0 := by
  unfold commonRounds ownRounds
  congr 2
  funext k
  rw [Bool.eq_iff_iff, allSamples_iff]
  constructor
  · intro hall
    have := hall 0 hL 0 hC 0 hn
    rwa [h 0 hL 0 hC 0 hn] at this
  · intro hk l hl ch hc d hd
    rw [h l hl ch hc d hd]
    exact hk

theorem mechNames_uses {g : (String → V) → V} {names : String → Prop} (hg : UsesOnly g names)
    {lat cond cond' : String → Option V} (h : ∀ x, names x → cond x = cond' x) (t : V) :
    g (mechNames t lat cond) = g (mechNames t lat cond') := by
  refine hg _ _ fun k hk => ?_
  unfold mechNames
  rw [h k hk]

/-- With fixed latent values and the requested conditions, all samples have the one nominal history. -/
theorem nominal_history {k : MechMdl W V} {g : (String → V) → V} {names : String → Prop} (hg : UsesOnly g names)
    {unit : TUnit} {lat : Dict (Arr3 V)} {lat0 : String → Option V} {L C n : Nat}
    (hlat : ∀ l < L, ∀ c < C, ∀ d < n, condAt lat l c d = lat0) {phases : List (Phase V)} {sts : List (StrsSpec V)}
    (hph : List.Forall₂ (fun (ph : Phase V) (st : StrsSpec V) => ph.duration = st.duration ∧
      ∀ x, names x → ∀ l < L, ∀ c < C, ∀ d < n, condAt ph.conds l c d x = st.conditions.get? x) phases sts) :
    ∀ l < L, ∀ c < C, ∀ d < n, mechHistory k g unit lat L C n phases l c d = nominalMech k g unit lat0 sts := by
  unfold mechHistory nominalMech
  have hgen : ∀ (v : Nat → Nat → Nat → V) (v0 : V), (∀ l < L, ∀ c < C, ∀ d < n, v l c d = v0) →
      ∀ l < L, ∀ c < C, ∀ d < n, phases.foldl (phaseValues k g unit lat L C n) v l c d =
        sts.foldl (fun v st => phaseValue k.kind k.unitary g lat0 (fun x => st.conditions.get? x)
          (PyArith.ofRat (phaseTime unit st.duration))
          (ownRounds (equivTimeCfg V) (residueOne g lat0 (fun x => st.conditions.get? x) v)) v) v0 := by
    induction hph with
    | nil => exact fun v v0 hv => hv
    | @cons ph st phases sts hp _ ih =>
      intro v v0 hv
      refine ih _ _ ?_
      intro l hl c hc d hd
      have hsame : ∀ l < L, ∀ c < C, ∀ d < n, ∀ t, g (mechNames t lat0 (condAt ph.conds l c d)) =
          g (mechNames t lat0 fun x => st.conditions.get? x) := fun l hl c hc d hd t =>
        mechNames_uses hg (fun x hx => hp.2 x hx l hl c hc d hd) t
      have hres : ∀ l < L, ∀ c < C, ∀ d < n, residueOne g (condAt lat l c d) (condAt ph.conds l c d) (v l c d) =
          residueOne g lat0 (fun x => st.conditions.get? x) v0 := by
        intro l hl c hc d hd
        rw [hlat l hl c hc d hd, hv l hl c hc d hd]
        exact (phaseValue_congr (kind := .deg) (u := v0) (hsame l hl c hc d hd) v0 0 v0).1
      unfold phaseValues
      rw [commonRounds_own hres (by omega) (by omega) (by omega), hlat l hl c hc d hd, hv l hl c hc d hd, hp.1]
      exact (phaseValue_congr (hsame l hl c hc d hd) _ _ _).2
  exact hgen _ _ fun _ _ _ _ _ _ => rfl

/-! ## Latent values and conditions -/

variable [Rng W V]

theorem fixed_drawn {m : LatentMdl W V} {lat : String → Option V} (hf : Fixed m lat) {L C n : Nat}
    {d : Dict (Arr3 V)} (hd : Drawn m L C n d) :
    ∀ l < L, ∀ c < C, ∀ i < n, condAt d l c i = lat := by
  intro l hl c hc i hi
  funext k
  unfold condAt
  cases hk : m.latentVars.get? k with
  | none => rw [hd.2 k hk, hf.2 k hk]; rfl
  | some lv =>
    obtain ⟨v, h1, h2⟩ := hf.1 k lv hk
    obtain ⟨a, u, u', h3, -, h4⟩ := hd.1 k lv hk
    rw [h2] at h4
    cases h4
    rw [h1, h3]
    exact congrArg some (Arr3.at_full v hl hc hi)

/-- The conditions a measurement without variation has at every device are the requested ones. -/
theorem ideal_meas [LawfulRng W V] [UnitLaws V] {ord : SetOrder} {dev : DeviceMdl W V} {env : PhysTestEnv V}
    {base : Dict V} (hb : base.Nodup) {q : Quantities} {ms : Dict Nat} {w w' : W} {conds : Dict (Dict (Arr3 V))}
    (h : env.genEnvCondVals ord base (.counts ms) (some q) (some dev) .measure 1 1 w = (.ok conds, w'))
    {prm : String} {m : DegPrmMdl W V} (hm : dev.prms.get? prm = some (.deg m))
    (hid : ∀ x, base.get? x ≠ none → env.vars.get? x = none) {cs : Dict (Arr3 V)}
    (hcs : conds.get? prm = some cs) {n : Nat} (hn : ms.get? prm = some n) :
    ∀ x ∈ m.condMdl.compute.argNames, ∀ l < q.numLots, ∀ c < q.numChps, ∀ d < n,
      condAt cs l c d x = base.get? x := by
  intro x hx l hl c hc d hd
  have hprm : prm ∈ (PrmSel.counts ms).toList := Dict.mem_keys_of_get? hn
  unfold condAt
  cases hv : base.get? x with
  | some v =>
    obtain ⟨n', counts, h1, h2, h3⟩ := C17_device hb h (hid x (by rw [hv]; exact nofun)) hv hprm hm (.inr hx)
    cases h1
    rw [show ms.get? prm = some n' from h2] at hn
    cases hn
    unfold condOf at h3
    rw [hcs] at h3
    simp only at h3
    rw [h3]
    exact congrArg some (Arr3.at_full _ hl hc hd)
  | none =>
    obtain ⟨shared, counts', w1, -, h2, h3⟩ := genEnvCondVals_inv h
    obtain ⟨d', w2, w3, h4, h5⟩ := result_get h3 hprm
    rw [hcs] at h4
    cases h4
    obtain ⟨-, g2⟩ := depend_get hm h5
    cases hg : cs.get? x with
    | none => rfl
    | some a =>
      have := (g2 x a hg).1
      rw [Dict.get?_eq_none_iff] at hv
      exact absurd this hv

theorem fixed_own {m : DegPrmMdl W V} {own : String → Option V} (hf : Fixed m.mdl own) {L C n : Nat}
    {lat : Dict (LatNode V)} {d : Dict (Arr3 V)} (hd : Drawn m.mdl L C n d)
    (hl : ∀ k a, d.get? k = some a → lat.get? k = some (.arr a)) :
    ∀ k ∈ m.mdl.latentVars.keys, ∀ l < L, ∀ c < C, ∀ i < n, ownAt lat l c i k = own k := by
  intro k hk l hll c hc i hi
  have hdr := congrFun (fixed_drawn hf hd l hll c hc i hi) k
  cases hg : m.mdl.latentVars.get? k with
  | none => exact absurd hk ((Dict.get?_eq_none_iff _ _).1 hg)
  | some lv =>
    obtain ⟨a, -, -, h3, -⟩ := hd.1 k lv hg
    unfold condAt at hdr
    rw [h3] at hdr
    unfold ownAt
    rw [hl k a h3]
    exact hdr

omit [Rng W V] in
/-- The equation of a parameter sees equal values for all of its arguments. -/
theorem prmNames_uses {m : DegPrmMdl W V} {g : (String → V) → V}
    (hg : UsesOnly g fun k => k = "init" ∨ k = "cond" ∨ k ∈ m.mechs.keys ∨ k ∈ m.mdl.latentVars.keys)
    {init cond cond' : V} {mech mech' own own' : String → Option V} (hc : cond = cond')
    (hm : ∀ k, mech k = mech' k) (hmk : ∀ k ∈ m.mechs.keys, mech k ≠ none)
    (ho : ∀ k ∈ m.mdl.latentVars.keys, own k = own' k) :
    g (prmNames init cond mech own) = g (prmNames init cond' mech' own') := by
  refine hg _ _ fun k hk => ?_
  unfold prmNames
  rw [← hm k]
  cases h : mech k with
  | some v => rfl
  | none =>
    simp only
    by_cases h1 : k = "init"
    · rw [if_pos h1, if_pos h1]
    by_cases h2 : k = "cond"
    · rw [if_neg h1, if_neg h1, if_pos h2, if_pos h2, hc]
    rw [if_neg h1, if_neg h1, if_neg h2, if_neg h2]
    rcases hk with hk | hk | hk | hk
    · exact absurd hk h1
    · exact absurd hk h2
    · exact absurd h (hmk k hk)
    · rw [ho k hk]

omit [PyNum V] in
theorem mem_stressSteps {st : StrsSpec V} {steps : List (Step V)} (h : st ∈ stressSteps steps) :
    .strs st ∈ steps := by
  induction steps with
  | nil => cases h
  | cons s rest ih =>
    cases s with
    | strs st' =>
      rcases List.mem_cons.1 h with rfl | h
      · exact List.mem_cons_self
      · exact List.mem_cons_of_mem _ (ih h)
    | meas _ => exact List.mem_cons_of_mem _ (ih h)
    | other _ => exact List.mem_cons_of_mem _ (ih h)

/-- **C77**: without variation of the devices, the conditions and the instrument, every row of a measurement
shows the one nominal reading. -/
theorem C77_reading [InfLaw V] [UnitLaws V] [LawfulRng W V] {ord : SetOrder} {dev : DeviceMdl W V}
    {env : PhysTestEnv V} (hnd : dev.prms.Nodup)
    (hmn : ∀ p d, dev.prms.get? p = some (.deg d) → d.mechs.Nodup) {N : Nat → Prop}
    (hs : ∀ p d, dev.prms.get? p = some (.deg d) → DegShapes d N) {test : TestSpec V}
    {r : SimReport V} {w w' : W} (h : simulate ord test dev env none w = (.ok r, w'))
    {pre post : List (Step V)} {step : MeasSpec V} (ht : test.steps = pre ++ .meas step :: post)
    (hnm : step.measurements.Nodup) {prm : String} {n : Nat} (hp : (prm, n) ∈ step.measurements)
    {m : DegPrmMdl W V} (hm : dev.prms.get? prm = some (.deg m)) (ho : OwnNames m)
    (hil : m.initMdl.latentVars.Nodup) {g gi gc : (String → V) → V} {S : PyVal V → Prop}
    (hg : HasEquation m g N S) (hi : CircEquation m.initMdl.compute gi)
    (hc : SampleEquation m.condMdl.compute gc N) {gm : String → (String → V) → V} {um : String → TUnit}
    (he : MechEquations m gm um N) {nom : LatentValues V} (hv : NoVariation m nom) (hu : OwnArguments m g gc gm)
    (hst : ∀ st, .strs st ∈ pre → st.conditions.Nodup ∧ ∀ x, st.conditions.get? x ≠ none → env.vars.get? x = none)
    (hsc : step.conditions.Nodup) (hsv : ∀ x, step.conditions.get? x ≠ none → env.vars.get? x = none)
    (hins : env.instms.get? prm = none)
    (hN : SizesIn N r.info := by intro _ _ _; trivial)
    (hNn : N (test.numLots * test.numChps * n) := by trivial) :
    ∃ t : TimeVal, Spec.timeVal t = (pre.map stressLen).sum ∧
      rowsAt r.measurements pre.length prm = expectedRows test.numLots test.numChps n
        (fun _ _ _ => nominalReading m g gi gc gm um nom pre step.conditions) prm t pre.length := by
  obtain ⟨phases, il, lat, k, conds, cs, ys, u, u1, u2, u3, t, f1, hle, f3, f4, f5, f6, f7⟩ :=
    C74_reading hnd hmn hs h ht hnm hp hm ho hil hg hi hc he hN hNn
  obtain ⟨s0, r0, -, -, -, -, -, w0, -, -, -, -, -, h1, -, h3, -⟩ := C57_instrument h ht hnm hp
  obtain ⟨-, g2, g3, -, -⟩ := simStart_shape hnd hs h1 (by rw [← h3]; exact hN)
  have e1 : r.info.numLots = test.numLots := by rw [h3]; exact g2
  have e2 : r.info.numChps = test.numChps := by rw [h3]; exact g3
  have hinst : instrumentOf env prm = ({ precision := none, range := none, error := none } : Instrument V) := by
    unfold instrumentOf
    rw [hins]
  rw [hinst] at f6
  rw [exact_reading f6] at f7
  refine ⟨t, f5, f7.trans (expectedRows_congr fun l hl c hcc d hd => ?_)⟩
  have hd' : d < k := Nat.lt_of_lt_of_le hd hle
  have hl' : l < r.info.numLots := by rw [e1]; exact hl
  have hc' : c < r.info.numChps := by rw [e2]; exact hcc
  obtain ⟨own, o1, o2⟩ := f1.own
  have hown := fixed_own hv.own o1 o2
  have hmech : ∀ mech, mechsAfter m gm um lat test.numLots test.numChps k phases l c d mech =
      (m.mechs.get? mech).map fun k =>
        nominalMech k (gm mech) (um mech) (nom.mech mech) (stressSteps pre) := by
    intro mech
    unfold mechsAfter
    cases hk : m.mechs.get? mech with
    | none => rfl
    | some km =>
      refine congrArg some (nominal_history (hu.mechs mech km hk) ?_ ?_ l hl c hcc d hd')
      · rw [← e1, ← e2]
        exact fixed_drawn (hv.mechs mech km hk) (f1.mechs mech km hk)
      · have hph := f1.phases.flip
        rw [← e1, ← e2]
        refine List.forall₂_iff_get.2 ⟨hph.length_eq, fun i h1 h2 => ?_⟩
        obtain ⟨p1, conds', v, v', p2, p3⟩ := hph.get h1 h2
        have hmem := hst _ (mem_stressSteps (List.get_mem (stressSteps pre) ⟨i, h2⟩))
        exact ⟨p1, ideal_conds hmem.1 p2 hm hk (fun x _ hx => hmem.2 x hx) p3 f1.count⟩
  have hinit : initialAt gi il l c d = gi fun k => (nom.init k).getD default := by
    unfold initialAt
    rw [fixed_drawn hv.init f1.init l hl' c hc' d hd']
  have htrue : trueAfter m g gm um (initialAt gi il l c d) lat test.numLots test.numChps k phases l c d =
      nominalTrue m g gi gm um nom pre := by
    have hem : phases.isEmpty = (stressSteps pre).isEmpty := by
      have := f1.phases.length_eq
      cases phases <;> cases hsp : stressSteps pre <;> simp_all
    unfold trueAfter nominalTrue
    rw [hem, hinit]
    congr 1
    refine prmNames_uses hu.prm rfl hmech (fun x hx => ?_) (fun x hx => hown x hx l hl' c hc' d hd')
    unfold mechsAfter
    cases hk : m.mechs.get? x with
    | none => exact absurd hx ((Dict.get?_eq_none_iff _ _).1 hk)
    | some _ => exact nofun
  unfold shownAfter nominalReading
  rw [htrue]
  refine prmNames_uses hu.prm ?_ (fun _ => rfl) (fun x hx => ?_) (fun x hx => hown x hx l hl' c hc' d hd')
  · refine hu.cond _ _ fun x hx => ?_
    unfold condNames
    rw [fixed_drawn hv.cond f1.cond l hl' c hc' d hd',
      ideal_meas hsc f3 hm hsv f4 (Dict.get?_of_mem hnm hp) x hx l hl' c hc' d hd]
  · cases hk : m.mechs.get? x with
    | none => exact absurd hx ((Dict.get?_eq_none_iff _ _).1 hk)
    | some _ => exact nofun

omit [PyNum V] in
theorem expectedRows_const {L C n : Nat} {v : V} {prm : String} {t : TimeVal} {i : Nat} {x : MeasRow V}
    (hx : x ∈ expectedRows L C n (fun _ _ _ => v) prm t i) : x.measured = v := by
  unfold expectedRows at hx
  simp only [List.mem_flatMap, List.mem_map] at hx
  obtain ⟨_, -, _, -, _, -, rfl⟩ := hx
  rfl

/-- A measurement step, after the steps `pre`, in a simulation without variation of the parameter `prm`. -/
structure NominalRun (N : Nat → Prop) (ord : SetOrder) (dev : DeviceMdl W V) (env : PhysTestEnv V)
    (test : TestSpec V) (r : SimReport V) (pre : List (Step V)) (step : MeasSpec V) (prm : String) (n : Nat)
    (m : DegPrmMdl W V) : Prop where
  prms : dev.prms.Nodup
  mechs : ∀ p d, dev.prms.get? p = some (.deg d) → d.mechs.Nodup
  shapes : ∀ p d, dev.prms.get? p = some (.deg d) → DegShapes d N
  run : ∃ w w' : W, simulate ord test dev env none w = (.ok r, w')
  steps : ∃ post, test.steps = pre ++ .meas step :: post
  names : step.measurements.Nodup
  measured : (prm, n) ∈ step.measurements
  model : dev.prms.get? prm = some (.deg m)
  stress : ∀ st, .strs st ∈ pre →
    st.conditions.Nodup ∧ ∀ x, st.conditions.get? x ≠ none → env.vars.get? x = none
  conditions : step.conditions.Nodup
  vars : ∀ x, step.conditions.get? x ≠ none → env.vars.get? x = none
  instm : env.instms.get? prm = none
  sizes : SizesIn N r.info
  size : N (test.numLots * test.numChps * n)

/-- **C77**, comparison: two simulations without variation read the same value from the same parameter after the
same stress steps under the same conditions, whatever the seeds, the numbers of lots, chips and devices, the
orders of sets, the other parameters, the measurements in between and the later steps are. -/
theorem C77_same [InfLaw V] [UnitLaws V] [LawfulRng W V] {N : Nat → Prop} {ord ord' : SetOrder}
    {dev dev' : DeviceMdl W V} {env env' : PhysTestEnv V} {test test' : TestSpec V} {r r' : SimReport V}
    {pre pre' : List (Step V)} {step step' : MeasSpec V} {prm prm' : String} {n n' : Nat} {m : DegPrmMdl W V}
    (a : NominalRun N ord dev env test r pre step prm n m)
    (b : NominalRun N ord' dev' env' test' r' pre' step' prm' n' m)
    (hpre : stressSteps pre = stressSteps pre')
    (hcond : ∀ x, step.conditions.get? x = step'.conditions.get? x) (ho : OwnNames m)
    (hil : m.initMdl.latentVars.Nodup) {g gi gc : (String → V) → V} {S : PyVal V → Prop}
    (hg : HasEquation m g N S) (hi : CircEquation m.initMdl.compute gi)
    (hc : SampleEquation m.condMdl.compute gc N) {gm : String → (String → V) → V} {um : String → TUnit}
    (he : MechEquations m gm um N) {nom : LatentValues V} (hv : NoVariation m nom) (hu : OwnArguments m g gc gm) :
    ∀ x ∈ rowsAt r.measurements pre.length prm, ∀ y ∈ rowsAt r'.measurements pre'.length prm',
      x.measured = y.measured := by
  obtain ⟨_, _, h⟩ := a.run
  obtain ⟨_, _, h'⟩ := b.run
  obtain ⟨_, ht⟩ := a.steps
  obtain ⟨_, ht'⟩ := b.steps
  obtain ⟨t, -, e⟩ := C77_reading a.prms a.mechs a.shapes h ht a.names a.measured a.model ho hil hg hi hc he hv hu
    a.stress a.conditions a.vars a.instm a.sizes a.size
  obtain ⟨t', -, e'⟩ := C77_reading b.prms b.mechs b.shapes h' ht' b.names b.measured b.model ho hil hg hi hc he hv
    hu b.stress b.conditions b.vars b.instm b.sizes b.size
  intro x hx y hy
  rw [e] at hx
  rw [e'] at hy
  rw [expectedRows_const hx, expectedRows_const hy]
  unfold nominalReading nominalTrue
  rw [hpre, funext hcond]

/-! ## The aging device of C74 -/

section
open Ex

/-- Its latent values. -/
def agingValues : LatentValues Q where
  init k := if k = "init_val" then some (.fin 3) else none
  cond k := if k = "tc" then some (.fin 2) else none
  own _ := none
  mech mech k :=
    if mech = "drift" then if k = "rate" then some (.fin 2) else none
    else if k = "limit" then some (.fin 250) else none

theorem constLatent_fixed (v : Q) (nm : Option String) (L C n : Nat) (w : Counts) :
    ((constLatent v).setName nm).genLatentVals n C L w = (.ok (Arr3.full L C n v), w) :=
  C12_constant (constLatent_eq v) [.name nm] (v := v) (by
    intro cfg h
    subst h
    exact ⟨rfl, rfl, rfl, rfl⟩) L C n w

theorem fixed_one {m : LatentMdl Counts Q} {k : String} {v : Q} {nm : Option String}
    (h : m.latentVars = [(k, (constLatent v).setName nm)]) : Fixed m fun x => if x = k then some v else none := by
  constructor
  · intro x lv hx
    rw [h] at hx
    have := List.mem_singleton.1 (Dict.mem_of_get? hx)
    cases this
    exact ⟨v, if_pos rfl, constLatent_fixed v nm⟩
  · intro x hx
    rw [h, Dict.get?_eq_none_iff] at hx
    exact if_neg fun e => hx (by rw [e]; exact List.mem_singleton.2 rfl)

theorem aging_fixed : NoVariation agingPrm agingValues := by
  refine ⟨fixed_one (nm := some "init_val") rfl, fixed_one (nm := none) rfl,
    ⟨fun _ _ h => (nomatch h), fun _ _ => rfl⟩, fun mech k hk => ?_⟩
  have := Dict.mem_of_get? hk
  simp only [agingPrm, degPrm, List.mem_cons, List.not_mem_nil, or_false, Prod.mk.injEq] at this
  rcases this with ⟨rfl, rfl⟩ | ⟨rfl, rfl⟩
  · exact fixed_one (nm := some "rate") rfl
  · exact fixed_one (nm := some "limit") rfl

omit [PyNum V] in
theorem exprOn_uses [PyArith V] (e : NumExpr V) {names : String → Prop} (h : ∀ k ∈ e.uses, names k) :
    UsesOnly (fun env => exprOn env e) names := by
  intro env env' he
  induction e with
  | arg a => exact he a (h a (List.mem_singleton.2 rfl))
  | lit v => rfl
  | un f e ih => exact congrArg f (ih h)
  | bin f e₁ e₂ ih₁ ih₂ =>
    exact congrArg₂ f (ih₁ fun k hk => h k (List.mem_append_left _ hk))
      (ih₂ fun k hk => h k (List.mem_append_right _ hk))

theorem aging_arguments : OwnArguments agingPrm (fun env => exprOn env agingExpr)
    (fun env => exprOn env tempExpr) agingMechs := by
  refine ⟨exprOn_uses _ (by decide +kernel), exprOn_uses _ (by decide +kernel), fun mech k hk => ?_⟩
  have := Dict.mem_of_get? hk
  simp only [agingPrm, degPrm, List.mem_cons, List.not_mem_nil, or_false, Prod.mk.injEq] at this
  rcases this with ⟨rfl, rfl⟩ | ⟨rfl, rfl⟩
  · exact exprOn_uses driftExpr (by decide +kernel)
  · exact exprOn_uses wearExpr (by decide +kernel)

/-- The measurements of the aging test, whatever the order of sets and the state of the random generator. -/
theorem aging_nominal {ord : SetOrder} {w w' : Counts} {r : SimReport Q}
    (h : simulate ord agingTest agingDev ⟨[], []⟩ none w = (.ok r, w')) :
    NominalRun (W := Counts) (fun _ => True) ord agingDev ⟨[], []⟩ agingTest r
      [.meas ⟨[("vth", 2)], [("temp", .fin 20)], "read"⟩, .strs ⟨[("temp", .fin 90)], .td 10800000000, "heat"⟩]
      ⟨[("vth", 1)], [("temp", .fin 30)], "read"⟩ "vth" 1 agingPrm where
  prms := aging_device.1
  mechs := aging_device.2.1
  shapes := aging_device.2.2
  run := ⟨w, w', h⟩
  steps := ⟨[], rfl⟩
  names := by decide
  measured := List.mem_singleton.2 rfl
  model := rfl
  stress := by
    intro st hst
    simp only [List.mem_cons, List.not_mem_nil, or_false, reduceCtorEq, false_or, Step.strs.injEq] at hst
    subst hst
    exact ⟨by decide, fun _ _ => rfl⟩
  conditions := by decide
  vars _ _ := rfl
  instm := rfl
  sizes _ _ _ := trivial
  size := trivial

/-- `C77_same` applies to any two runs of the aging test. -/
example {ord ord' : SetOrder} {w w' u u' : Counts} {r r' : SimReport Q}
    (h : simulate ord agingTest agingDev ⟨[], []⟩ none w = (.ok r, w'))
    (h' : simulate ord' agingTest agingDev ⟨[], []⟩ none u = (.ok r', u')) :
    ∀ x ∈ rowsAt r.measurements 2 "vth", ∀ y ∈ rowsAt r'.measurements 2 "vth", x.measured = y.measured :=
  C77_same (aging_nominal h) (aging_nominal h') rfl (fun _ => rfl) aging_names (by decide +kernel) aging_equation
    (argEqn_value _) (expr_sample (by intro k; simp [tempExpr, NumExpr.uses])) aging_mechs aging_fixed
    aging_arguments

/-- The nominal reading after the three hours is the one the run shows. -/
example : ∃ r w', simulate orderA agingTest agingDev ⟨[], []⟩ none Counts.start = (.ok r, w') ∧
    (rowsAt r.measurements 2 "vth").map (·.measured) =
      [nominalReading agingPrm (fun env => exprOn env agingExpr) (fun env => env "init_val")
        (fun env => exprOn env tempExpr) agingMechs (fun _ => .hours) agingValues (agingTest.steps.take 2)
        [("temp", .fin 30)]] := by
  obtain ⟨r, w', h, -⟩ := aging_run
  refine ⟨r, w', h, ?_⟩
  have a := aging_nominal h
  obtain ⟨t, -, e⟩ := C77_reading a.prms a.mechs a.shapes h (post := []) rfl a.names a.measured a.model aging_names
    (by decide +kernel) aging_equation (argEqn_value _) (expr_sample (by intro k; simp [tempExpr, NumExpr.uses]))
    aging_mechs aging_fixed aging_arguments a.stress a.conditions a.vars a.instm
  exact (congrArg _ e).trans rfl

end

end Gerabaldi.Props
