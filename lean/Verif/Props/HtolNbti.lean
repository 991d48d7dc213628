import Verif.Props.NbtiHistory
import Verif.Props.Htol
import Verif.Props.Env

/-!
# C103: the prebuilt HTOL test on devices with the prebuilt NBTI mechanism
-/

namespace Gerabaldi.Props

open Gerabaldi Gerabaldi.Spec

variable {W : Type}

/-- The stress steps of an HTOL test with intervals, up to any point of the test. -/
theorem htol_stress {V : Type} [PyArith V] {toMeas : Dict Nat} {vddNom mult temp : V} {i d : Int} {n : Nat} (hi : 0 < i)
    (hid : i < d) (hn : d = n * i) (hr : d + i ≤ 23999999976) {chps lots fuel : Nat} (hf : n < fuel) {test : TestSpec V}
    (ht : htol fuel toMeas vddNom mult i d chps lots temp = some (.ok test)) :
    test.numChps = chps ∧ test.numLots = lots ∧ (stressSteps test.steps).length = n ∧ ∀ steps, steps <+: test.steps →
      ∀ st ∈ stressSteps steps, st.conditions = htolConds vddNom mult temp ∧ st.duration = .td (i * 3600000000) := by
  rw [C09_htol_interval toMeas vddNom mult temp hi hid hn hr chps lots fuel hf] at ht
  cases ht
  have hc : ∀ n, stressSteps (copies n [htolStress vddNom mult temp i, stressMeas toMeas vddNom mult temp]) =
      List.replicate n (⟨htolConds vddNom mult temp, .td (i * 3600000000), "HTOL Stress"⟩ : StrsSpec V) := by
    intro n
    induction n with
    | zero => rfl
    | succ n ih =>
      show stressSteps ([htolStress vddNom mult temp i, stressMeas toMeas vddNom mult temp] ++ copies n _) = _
      rw [stressSteps_append, ih]
      rfl
  have hall : stressSteps (htolTest chps lots ([roomMeas toMeas vddNom, stressMeas toMeas vddNom mult temp] ++
      copies n [htolStress vddNom mult temp i, stressMeas toMeas vddNom mult temp] ++
      [roomMeas toMeas vddNom])).steps =
      List.replicate n (⟨htolConds vddNom mult temp, .td (i * 3600000000), "HTOL Stress"⟩ : StrsSpec V) := by
    show stressSteps (_ ++ _ ++ _) = _
    rw [stressSteps_append, stressSteps_append, hc]
    exact List.append_nil _
  refine ⟨rfl, rfl, by rw [hall, List.length_replicate], ?_⟩
  rintro steps ⟨rest, hrest⟩ st hst
  have : st ∈ stressSteps (steps ++ rest) := by
    rw [stressSteps_append]
    exact List.mem_append_left _ hst
  rw [hrest, hall] at this
  rw [List.eq_of_mem_replicate this]
  exact ⟨rfl, rfl⟩

/-- What an environment without variations of temperature and supply makes of an HTOL stress step. -/
theorem htol_phase [Rng W (Ext ℝ)] [LawfulRng W (Ext ℝ)] {ord : SetOrder} {dev : DeviceMdl W (Ext ℝ)}
    {env : PhysTestEnv (Ext ℝ)} (e1 : env.vars.get? "temp" = none)
    (e2 : env.vars.get? "vdd" = none) {q : Quantities} {prm : String} {md : DegPrmMdl W (Ext ℝ)}
    (hmd : dev.prms.get? prm = some (.deg md)) {mech : String} {k : MechMdl W (Ext ℝ)}
    (hk : md.mechs.get? mech = some k) (hnb : IsNbti k) {n : Nat} (hq : q.devCounts.get? prm = some n)
    {vddNom mult temp : ℝ} {st : StrsSpec (Ext ℝ)} (hst : st.conditions = htolConds (.fin vddNom) (.fin mult) (.fin temp))
    {ph : Phase (Ext ℝ)} (h : PhaseOf (W := W) ord dev env q prm st ph) :
    ph.conds.get? "time" = none ∧
    ph.conds.get? "temp" = some (Arr3.full q.numLots q.numChps n (.fin (temp + 27315 / 100))) ∧
    ph.conds.get? "vdd" = some (Arr3.full q.numLots q.numChps n (.fin (vddNom * mult))) := by
  obtain ⟨-, conds, u, u', hg, hc⟩ := h
  have hb : st.conditions.Nodup := by
    rw [hst]
    simp [htolConds, Dict.Nodup, Dict.keys]
  have hp : prm ∈ (PrmSel.names (dev.degPrms.map (·.1))).toList := by
    show prm ∈ dev.degPrms.map (·.1)
    exact List.mem_map.2 ⟨(prm, md), Gerabaldi.mem_degPrms.2 (Dict.mem_of_get? hmd), rfl⟩
  have hne : ∀ x ∈ ["temp", "vdd"], NeedsCond (W := W) (V := Ext ℝ) (.deg md) .stress x := by
    intro x hx
    refine .inr ⟨(mech, k), Dict.mem_of_get? hk, ?_⟩
    show x ∈ k.mdl.compute.argNames
    rw [(nbti_eq hnb).2.2.1]
    have e : (nbtiExpr.fn nbtiParams : PyFun W (Ext ℝ)).argNames = nbtiParams := rfl
    rw [e]
    revert x
    decide
  have get : ∀ x v, x ∈ ["temp", "vdd"] → env.vars.get? x = none → st.conditions.get? x = some v →
      ph.conds.get? x = some (Arr3.full q.numLots q.numChps n v) := by
    intro x v hx hid hv
    obtain ⟨n', counts, c1, c2, c3⟩ := C17_device hb hg hid hv hp hmd (hne x hx)
    cases c1
    rw [hq] at c2
    cases c2
    unfold condOf at c3
    rw [hc] at c3
    exact c3
  refine ⟨?_, get "temp" _ (by simp) e1 ?_, get "vdd" _ (by simp) e2 (by rw [hst]; rfl)⟩
  swap
  · rw [hst]
    show some (Ext.fin (temp + ((27315 / 100 : ℚ) : ℝ))) = _
    norm_num
  obtain ⟨shared, counts, w1, h1, h2, h3⟩ := genEnvCondVals_inv hg
  obtain ⟨d, u4, u5, r1, r2⟩ := result_get h3 hp
  rw [hc] at r1
  cases r1
  rcases ho : ph.conds.get? "time" with - | a
  · rfl
  · have := ((depend_get hmd r2).2 "time" a ho).1
    rw [hst] at this
    simp [htolConds, Dict.keys] at this

/-- The latent values of a sample. -/
structure NbtiDevice (lat : Dict (Arr3 (Ext ℝ))) (l c d : Nat) (a e α n : ℝ) : Prop where
  a_0 : ∃ x, lat.get? "a_0" = some x ∧ x.at' l c d = .fin a
  e_aa : ∃ x, lat.get? "e_aa" = some x ∧ x.at' l c d = .fin e
  alpha : ∃ x, lat.get? "alpha" = some x ∧ x.at' l c d = .fin α
  n : ∃ x, lat.get? "n" = some x ∧ x.at' l c d = .fin n

/-- Phases of one length and one rate are within the reach of the search. -/
theorem reach_constant {unit : TUnit} {rate : Phase (Ext ℝ) → ℝ} {ρ x : ℝ} (hρ : 0 < ρ) (hx : 0 < x) {J : Nat}
    (h1 : slack ^ J ≤ 1000 * x) (h2 : ((J + 1) * x + 11 / 10000) * slack ^ J + x ≤ 9000000000) :
    ∀ (phases : List (Phase (Ext ℝ))) (j : Nat), (∀ ph ∈ phases, rate ph = ρ ∧ lengthOf unit ph = x) →
      j + phases.length ≤ J → InReach unit rate (ρ * (11 / 10000)) j (ρ * ((j + 1) * x)) phases
  | [], _, _, _ => trivial
  | ph :: rest, j, h, hj => by
    obtain ⟨r1, r2⟩ := h ph List.mem_cons_self
    have hs1 : (1 : ℝ) ≤ slack := slack_one.le
    have hlen : j + 1 ≤ J := by simp at hj; omega
    have hsj : slack ^ j ≤ slack ^ J := pow_le_pow_right₀ hs1 (by omega)
    have hsj1 : slack ^ (j + 1) ≤ slack ^ J := pow_le_pow_right₀ hs1 hlen
    have hpos : 0 < slack ^ j := pow_pos (by linarith) _
    have hjr : ((j : ℝ) + 1) ≤ J := by exact_mod_cast hlen
    have hj0 : (0 : ℝ) ≤ j := Nat.cast_nonneg j
    refine ⟨?_, ?_, ?_⟩
    · rw [r1, le_div_iff₀ hpos]
      nlinarith [mul_nonneg hj0 hx.le, mul_le_mul_of_nonneg_left (hsj.trans h1) hρ.le, mul_nonneg hρ.le (mul_nonneg hj0 hx.le)]
    · rw [r1, r2]
      have e1 : (((j : ℝ) + 1) * x + 11 / 10000) * slack ^ (j + 1) ≤ ((J + 1) * x + 11 / 10000) * slack ^ J := by
        refine mul_le_mul ?_ hsj1 (pow_nonneg (by linarith) _) (by positivity)
        nlinarith
      have e2 : (((j : ℝ) + 1) * x + 11 / 10000) * slack ^ (j + 1) + x ≤ 9000000000 := by linarith
      have e3 := mul_le_mul_of_nonneg_left e2 hρ.le
      linarith
    · have := reach_constant hρ hx h1 h2 rest (j + 1) (fun p hp => h p (List.mem_cons_of_mem _ hp)) (by simp at hj; omega)
      rw [r1, r2]
      convert this using 1
      push_cast
      ring

/-- The stress step of an HTOL test without intervals. -/
theorem htol_single {V : Type} [PyArith V] {toMeas : Dict Nat} {vddNom mult temp : V} {i d : Int} (hd : 0 < d)
    (hdm : d ≤ 23999999976) (hi : d ≤ i) {chps lots fuel : Nat} {test : TestSpec V}
    (ht : htol fuel toMeas vddNom mult i d chps lots temp = some (.ok test)) :
    test.numChps = chps ∧ test.numLots = lots ∧ (∀ steps, steps <+: test.steps →
      ∀ st ∈ stressSteps steps, st.conditions = htolConds vddNom mult temp ∧ st.duration = .td (d * 3600000000)) ∧
      ∀ steps, steps <+: test.steps → (stressSteps steps).length ≤ 1 := by
  rw [C09_htol_no_interval fuel toMeas vddNom mult temp hd hdm hi] at ht
  cases ht
  have hall : ∀ steps, steps <+: (htolTest chps lots [roomMeas toMeas vddNom, htolStress vddNom mult temp d,
      roomMeas toMeas vddNom]).steps → stressSteps steps <+:
        [(⟨htolConds vddNom mult temp, .td (d * 3600000000), "HTOL Stress"⟩ : StrsSpec V)] := by
    rintro steps ⟨rest, hrest⟩
    refine ⟨stressSteps rest, ?_⟩
    rw [← stressSteps_append, hrest]
    rfl
  refine ⟨rfl, rfl, fun steps hs st hst => ?_, fun steps hs => (hall steps hs).length_le⟩
  cases List.mem_singleton.1 ((hall steps hs).subset hst)
  exact ⟨rfl, rfl⟩

/-- The aging of the devices in any test all of whose stress steps are the HTOL stress. -/
theorem htol_run [Rng W (Ext ℝ)] [LawfulRng W (Ext ℝ)] {ord : SetOrder} {dev : DeviceMdl W (Ext ℝ)}
    {env : PhysTestEnv (Ext ℝ)} (hnd : dev.prms.Nodup)
    (hmn : ∀ p d, dev.prms.get? p = some (.deg d) → d.mechs.Nodup) {N : Nat → Prop}
    (hs : ∀ p d, dev.prms.get? p = some (.deg d) → DegShapes d N)
    (e1 : env.vars.get? "temp" = none) (e2 : env.vars.get? "vdd" = none)
    {vddNom mult temp : ℝ} {i : Int} (hi : 0 ≤ i) {chps lots : Nat} {test : TestSpec (Ext ℝ)} (t1 : test.numChps = chps)
    (t2 : test.numLots = lots) (t3 : ∀ steps, steps <+: test.steps → ∀ st ∈ stressSteps steps,
      st.conditions = htolConds (.fin vddNom) (.fin mult) (.fin temp) ∧ st.duration = .td (i * 3600000000))
    (hT : 0 < temp + 27315 / 100) (hv : 0 < vddNom * mult)
    {s0 s : SimState (Ext ℝ)} {r0 r : SimReport (Ext ℝ)} {w w0 w' : W}
    (h1 : simStart dev test none w = (.ok (s0, r0), w0)) {steps : List (Step (Ext ℝ))} (hp : steps <+: test.steps)
    (h2 : runSteps ord dev env 0 steps (s0, r0) w0 = (.ok (s, r), w'))
    {prm : String} {md : DegPrmMdl W (Ext ℝ)} (hmd : dev.prms.get? prm = some (.deg md)) (ho : OwnNames md)
    {gm : String → (String → Ext ℝ) → Ext ℝ} {um : String → TUnit} (he : MechEquations md gm um N)
    {n : Nat} (hq : r0.devCounts.get? prm = some n) {mech : String} {k : MechMdl W (Ext ℝ)}
    (hk : md.mechs.get? mech = some k) (hnb : IsNbti k) (hgm : gm mech = nbtiLaw)
    (hN : SizesIn N r0.info := by intro _ _ _; trivial) :
    ∃ phases lat V, List.Forall₂ (PhaseOf (W := W) ord dev env r0.info prm) (stressSteps steps) phases ∧
      s.latents.get? prm = some lat ∧ mechVal s prm mech = some V ∧
      Drawn k.mdl lots chps n (partLatents lat mech) ∧ ∀ l < lots, ∀ c < chps, ∀ d < n, ∀ (a e α m x : ℝ) ph rest, phases = ph :: rest →
        NbtiDevice (partLatents lat mech) l c d a e α m → 0 < a → 0 < m → m ≤ 1 →
        x = (phaseTime (um mech) (.td (i * 3600000000)) : ℚ) → slack ^ rest.length ≤ 1000 * x →
        ((rest.length + 1) * x + 11 / 10000) * slack ^ rest.length + x ≤ 9000000000 →
        Finishes k nbtiLaw (um mech) (partLatents lat mech) lots chps n l c d
          (phaseValues k nbtiLaw (um mech) (partLatents lat mech) lots chps n (fun _ _ _ => k.unitary) ph) rest →
        ∃ y : ℝ, V.at' l c d = .fin y ∧
          nbtiShift a e (temp + 27315 / 100) (vddNom * mult) α m ((rest.length + 1) * x / slack ^ rest.length) ≤ y ∧
          y ≤ nbtiShift a e (temp + 27315 / 100) (vddNom * mult) α m
            (((rest.length + 1) * x + 11 / 10000) * slack ^ rest.length) := by
  obtain ⟨g1, g2, g3, -, -⟩ := simStart_shape hnd hs h1 hN
  obtain ⟨phases, lat, f1, -, f3, -, f5⟩ := C74_mechanisms hnd hmn hs h1 h2 hmd ho he hq hN
  obtain ⟨V, b1, b2, b3⟩ := f5 mech k hk
  refine ⟨phases, lat, V, f1, f3, b1, by rw [t1, t2] at b2; exact b2, ?_⟩
  rintro l hl c hc d hd a e α m x ph rest rfl hdv ha hm hm1 hx hx1 hx2 hfin
  have hL : r0.info.numLots = lots := (show _ = test.numLots from g2).trans t2
  have hC : r0.info.numChps = chps := (show _ = test.numChps from g3).trans t1
  have hno : ∀ x, x ∉ ["a_0", "e_aa", "alpha", "n"] → (partLatents lat mech).get? x = none := by
    intro x hx
    refine b2.2 x ?_
    rw [← (nbti_eq hnb).2.2.2] at hx
    exact (Dict.get?_eq_none_iff _ _).2 hx
  have hph : ∀ q ∈ ph :: rest, q.duration = .td (i * 3600000000) ∧ q.conds.get? "time" = none ∧
      q.conds.get? "temp" = some (Arr3.full lots chps n (.fin (temp + 27315 / 100))) ∧
      q.conds.get? "vdd" = some (Arr3.full lots chps n (.fin (vddNom * mult))) := by
    intro q hq'
    obtain ⟨st, hst, hof⟩ := forall₂_mem_right f1 hq'
    obtain ⟨c1, c2⟩ := t3 steps hp st hst
    obtain ⟨d1, d2, d3⟩ := htol_phase e1 e2 hmd hk hnb hq c1 hof
    rw [hL, hC] at d2 d3
    exact ⟨hof.1.trans c2, d1, d2, d3⟩
  have hlen : ∀ q ∈ ph :: rest, lengthOf (um mech) q = x := by
    intro q hq'
    unfold lengthOf
    rw [(hph q hq').1, hx]
  have hdur : ∀ q ∈ ph :: rest, 0 ≤ Spec.timeVal q.duration := by
    intro q hq'
    rw [(hph q hq').1]
    show (0 : ℚ) ≤ ((i * 3600000000 : Int) : ℚ)
    exact_mod_cast by positivity
  have hs1 : (1 : ℝ) ≤ slack ^ rest.length := one_le_pow₀ slack_one.le
  have hx0 : 0 < x := by linarith
  have hP : NbtiPhases (partLatents lat mech) l c d a e α m (fun _ => temp + 27315 / 100) (fun _ => vddNom * mult)
      (ph :: rest) :=
    ⟨fun q hq' => ⟨⟨_, (hph q hq').2.2.1, Arr3.at_full _ hl hc hd⟩, ⟨_, (hph q hq').2.2.2, Arr3.at_full _ hl hc hd⟩,
      hdv.a_0, hdv.e_aa, hdv.alpha, hdv.n⟩, fun _ _ => ⟨hT, hv⟩, hdur, hno _ (by simp), hno _ (by simp), hno _ (by simp),
      fun q hq' => (hph q hq').2.1⟩
  have hsum : ((ph :: rest).map (lengthOf (um mech))).sum = (rest.length + 1) * x := by
    rw [List.map_congr_left hlen, List.map_const', List.sum_replicate, nsmul_eq_mul, List.length_cons]
    push_cast
    ring
  have hρ : 0 < damage m (nbtiShift a e (temp + 27315 / 100) (vddNom * mult) α m 1) :=
    Real.rpow_pos_of_pos (nbtiShift_pos ha hv) _
  have hreach := reach_constant (unit := um mech)
    (rate := damageRate a e α m (fun _ => temp + 27315 / 100) (fun _ => vddNom * mult)) hρ hx0 hx1 hx2 rest 0
    (fun q hq' => ⟨rfl, hlen q (List.mem_cons_of_mem _ hq')⟩) (by omega)
  rw [b3 l (t2 ▸ hl) c (t1 ▸ hc) d hd, hgm, t2, t1]
  have := C89_constant_new hnb ha hm hm1 hP (fun _ _ => ⟨rfl, rfl⟩) (by
      rw [hlen ph List.mem_cons_self]
      nlinarith [mul_nonneg (Nat.cast_nonneg (α := ℝ) rest.length) hx0.le]) (by
      rw [hlen ph List.mem_cons_self]
      have : damageRate a e α m (fun _ => temp + 27315 / 100) (fun _ => vddNom * mult) ph * x =
          damage m (nbtiShift a e (temp + 27315 / 100) (vddNom * mult) α m 1) * (((0 : Nat) + 1 : ℝ) * x) := by
        simp [damageRate]
      rw [this]
      exact hreach) hfin hl hc hd
  rw [hsum] at this
  exact this


/-- **C103**: at any point of a prebuilt HTOL test, in an environment that does not vary temperature and supply, every
sample of a prebuilt NBTI mechanism has its own JEDEC shift for the stress temperature in kelvin, the raised supply and
the total stress time so far, up to the tolerance of one search for each further interval and 0.0011 units of time. -/
theorem C103_run [Rng W (Ext ℝ)] [LawfulRng W (Ext ℝ)] {ord : SetOrder} {dev : DeviceMdl W (Ext ℝ)}
    {env : PhysTestEnv (Ext ℝ)} (hnd : dev.prms.Nodup)
    (hmn : ∀ p d, dev.prms.get? p = some (.deg d) → d.mechs.Nodup) {N : Nat → Prop}
    (hs : ∀ p d, dev.prms.get? p = some (.deg d) → DegShapes d N)
    (e1 : env.vars.get? "temp" = none) (e2 : env.vars.get? "vdd" = none)
    {toMeas : Dict Nat} {vddNom mult temp : ℝ} {i hours : Int} {count : Nat} (hi : 0 < i) (hid : i < hours)
    (hn : hours = count * i) (hr : hours + i ≤ 23999999976) {chps lots fuel : Nat} (hf : count < fuel)
    {test : TestSpec (Ext ℝ)}
    (ht : htol fuel toMeas (.fin vddNom) (.fin mult) i hours chps lots (.fin temp) = some (.ok test))
    (hT : 0 < temp + 27315 / 100) (hv : 0 < vddNom * mult)
    {s0 s : SimState (Ext ℝ)} {r0 r : SimReport (Ext ℝ)} {w w0 w' : W}
    (h1 : simStart dev test none w = (.ok (s0, r0), w0)) {steps : List (Step (Ext ℝ))} (hp : steps <+: test.steps)
    (h2 : runSteps ord dev env 0 steps (s0, r0) w0 = (.ok (s, r), w'))
    {prm : String} {md : DegPrmMdl W (Ext ℝ)} (hmd : dev.prms.get? prm = some (.deg md)) (ho : OwnNames md)
    {gm : String → (String → Ext ℝ) → Ext ℝ} {um : String → TUnit} (he : MechEquations md gm um N)
    {n : Nat} (hq : r0.devCounts.get? prm = some n) {mech : String} {k : MechMdl W (Ext ℝ)}
    (hk : md.mechs.get? mech = some k) (hnb : IsNbti k) (hgm : gm mech = nbtiLaw)
    (hN : SizesIn N r0.info := by intro _ _ _; trivial) :
    ∃ phases lat V, List.Forall₂ (PhaseOf (W := W) ord dev env r0.info prm) (stressSteps steps) phases ∧
      s.latents.get? prm = some lat ∧ mechVal s prm mech = some V ∧
      Drawn k.mdl lots chps n (partLatents lat mech) ∧ ∀ l < lots, ∀ c < chps, ∀ d < n, ∀ (a e α m x : ℝ) ph rest, phases = ph :: rest →
        NbtiDevice (partLatents lat mech) l c d a e α m → 0 < a → 0 < m → m ≤ 1 →
        x = (phaseTime (um mech) (.td (i * 3600000000)) : ℚ) → slack ^ rest.length ≤ 1000 * x →
        ((rest.length + 1) * x + 11 / 10000) * slack ^ rest.length + x ≤ 9000000000 →
        Finishes k nbtiLaw (um mech) (partLatents lat mech) lots chps n l c d
          (phaseValues k nbtiLaw (um mech) (partLatents lat mech) lots chps n (fun _ _ _ => k.unitary) ph) rest →
        ∃ y : ℝ, V.at' l c d = .fin y ∧
          nbtiShift a e (temp + 27315 / 100) (vddNom * mult) α m ((rest.length + 1) * x / slack ^ rest.length) ≤ y ∧
          y ≤ nbtiShift a e (temp + 27315 / 100) (vddNom * mult) α m
            (((rest.length + 1) * x + 11 / 10000) * slack ^ rest.length) := by
  obtain ⟨t1, t2, -, t3⟩ := htol_stress hi hid hn hr hf ht
  exact htol_run hnd hmn hs e1 e2 hi.le t1 t2 t3 hT hv h1 hp h2 hmd ho he hq hk hnb hgm hN

/-- **C103** for the HTOL test without intermediate measurements: after its only stress phase every sample has its own
JEDEC shift for the whole duration, up to 0.0011 units of time. -/
theorem C103_whole [Rng W (Ext ℝ)] [LawfulRng W (Ext ℝ)] {ord : SetOrder} {dev : DeviceMdl W (Ext ℝ)}
    {env : PhysTestEnv (Ext ℝ)} (hnd : dev.prms.Nodup)
    (hmn : ∀ p d, dev.prms.get? p = some (.deg d) → d.mechs.Nodup) {N : Nat → Prop}
    (hs : ∀ p d, dev.prms.get? p = some (.deg d) → DegShapes d N)
    (e1 : env.vars.get? "temp" = none) (e2 : env.vars.get? "vdd" = none)
    {toMeas : Dict Nat} {vddNom mult temp : ℝ} {i hours : Int} (hd : 0 < hours) (hdm : hours ≤ 23999999976)
    (hi : hours ≤ i) {chps lots fuel : Nat} {test : TestSpec (Ext ℝ)}
    (ht : htol fuel toMeas (.fin vddNom) (.fin mult) i hours chps lots (.fin temp) = some (.ok test))
    (hT : 0 < temp + 27315 / 100) (hv : 0 < vddNom * mult)
    {s0 s : SimState (Ext ℝ)} {r0 r : SimReport (Ext ℝ)} {w w0 w' : W}
    (h1 : simStart dev test none w = (.ok (s0, r0), w0)) {steps : List (Step (Ext ℝ))} (hp : steps <+: test.steps)
    (h2 : runSteps ord dev env 0 steps (s0, r0) w0 = (.ok (s, r), w'))
    {prm : String} {md : DegPrmMdl W (Ext ℝ)} (hmd : dev.prms.get? prm = some (.deg md)) (ho : OwnNames md)
    {gm : String → (String → Ext ℝ) → Ext ℝ} {um : String → TUnit} (he : MechEquations md gm um N)
    {n : Nat} (hq : r0.devCounts.get? prm = some n) {mech : String} {k : MechMdl W (Ext ℝ)}
    (hk : md.mechs.get? mech = some k) (hnb : IsNbti k) (hgm : gm mech = nbtiLaw)
    (hN : SizesIn N r0.info := by intro _ _ _; trivial) :
    ∃ lat V, s.latents.get? prm = some lat ∧ mechVal s prm mech = some V ∧
      Drawn k.mdl lots chps n (partLatents lat mech) ∧ ∀ l < lots, ∀ c < chps, ∀ d < n, ∀ (a e α m x : ℝ),
        stressSteps steps ≠ [] → NbtiDevice (partLatents lat mech) l c d a e α m → 0 < a → 0 < m → m ≤ 1 →
        x = (phaseTime (um mech) (.td (hours * 3600000000)) : ℚ) → 1 / 1000 ≤ x → x ≤ 4000000000 →
        ∃ y : ℝ, V.at' l c d = .fin y ∧
          nbtiShift a e (temp + 27315 / 100) (vddNom * mult) α m x ≤ y ∧
          y ≤ nbtiShift a e (temp + 27315 / 100) (vddNom * mult) α m (x + 11 / 10000) := by
  obtain ⟨t1, t2, t3, t4⟩ := htol_single hd hdm hi ht
  obtain ⟨phases, lat, V, p1, p2, p3, p4, p5⟩ :=
    htol_run hnd hmn hs e1 e2 hd.le t1 t2 t3 hT hv h1 hp h2 hmd ho he hq hk hnb hgm hN
  refine ⟨lat, V, p2, p3, p4, ?_⟩
  intro l hl c hc d' hd' a e α m x hne hdv ha hm hm1 hx hx1 hx2
  have hlen := p1.length_eq
  have h1le := t4 steps hp
  match phases, hlen with
  | [], hlen => exact absurd (List.length_eq_zero_iff.1 hlen) hne
  | [ph], _ =>
    obtain ⟨y, y1, y2, y3⟩ := p5 l hl c hc d' hd' a e α m x ph [] rfl hdv ha hm hm1 hx (by simp; linarith)
      (by simp; linarith) trivial
    simp only [List.length_nil, pow_zero, Nat.cast_zero, zero_add, one_mul, div_one, mul_one] at y2 y3
    exact ⟨y, y1, y2, y3⟩
  | _ :: _ :: _, hlen => simp at hlen; omega

end Gerabaldi.Props
