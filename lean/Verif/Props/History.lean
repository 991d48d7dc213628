import Verif.Spec.History
import Verif.Props.FailHistory
import Verif.Props.Timeline
import Verif.Lemmas.Fresh

/-!
# C74: every simulation, sample by sample
-/

namespace Gerabaldi.Props

open Gerabaldi Gerabaldi.Spec

section
variable {W V : Type} [PyNum V]

/-- The residue of the search at one sample. -/
theorem residue_names {m : MechMdl W V} {N : Nat → Prop} {g : (String → V) → V}
    (hf : SampleEquation m.mdl.compute g N) (hsafe : ShapeSafe m.mdl.compute N)
    (htn : "time" ∈ m.mdl.compute.argNames) {cur : Arr3 V} {cs lat : Dict (Arr3 V)} {L C n : Nat}
    (hN : N (L * C * n)) (hcur : cur.HasDims L C n) (hc : GetDims cs L C n)
    (hl : GetDims lat L C n) {pts ys : List V} {w w' : W}
    (h : m.residue cur cs lat L C n pts w = (.ok ys, w')) :
    ∀ l < L, ∀ c < C, ∀ d < n, ∀ x, pts[(l * C + c) * n + d]? = some x →
      ys[(l * C + c) * n + d]? = some (PyArith.abs (PyArith.sub (cur.at' l c d)
        (g (mechNames x (condAt lat l c d) (condAt cs l c d))))) := by
  unfold MechMdl.residue at h
  obtain ⟨t, h1, h⟩ := M.ofExcept_bind_ok.1 h
  obtain ⟨e1, e2, e3, e4⟩ := Arr3.reshape_eq_ok.1 h1
  obtain ⟨r, h2, rfl⟩ := M.bind_pure_ok.1 h
  have ht : t.HasDims L C n := ⟨e1.trans hcur.1, e2.trans hcur.2.1, e3.trans hcur.2.2⟩
  have hu := mechArgs_uniform m ht hc hl
  have hnd : (m.args t cs lat).Nodup :=
    fillArgs_nodup _ _ (show (Dict.keys [("time", PyVal.arr t)]).Nodup from by simp [Dict.keys])
  -- the values of the equation
  obtain ⟨a, u, ha, hr⟩ : ∃ a u, computeOrLoop m.mdl.compute (m.args t cs lat) L C n w = (.ok (.arr a), u) ∧
      absDiff cur (.arr a) = .ok r := by
    unfold MechMdl.residueArr at h2
    rcases M.catchValueError_ok h2 with h2 | ⟨w1, h2, h3⟩
    · obtain ⟨v, u, g1, g2⟩ := M.bind_eq_ok.1 h2
      have g3 := (M.ofExcept_eq_ok.1 g2).1
      have hcl : computeOrLoop m.mdl.compute (m.args t cs lat) L C n w = (.ok v, u) := computeOrLoop_ok g1
      obtain ⟨a, rfl, -⟩ := computeOrLoop_arr hsafe hu (mechArgs_arr m t cs lat) hcl hN
      exact ⟨a, _, hcl, g3⟩
    · obtain ⟨a, u, g1, g2⟩ := M.bind_eq_ok.1 h3
      refine ⟨a, u, ?_, (M.ofExcept_eq_ok.1 g2).1⟩
      rw [M.bind_run] at h2
      cases hi : m.mdl.compute.invoke (m.args t cs lat) w with
      | mk o w2 =>
        rw [hi] at h2
        cases o with
        | error e =>
          cases h2
          unfold computeOrLoop M.catchValueError
          rw [hi]
          exact M.bind_ok g1
        | ok v =>
          exfalso
          obtain ⟨b, rfl, hb⟩ := computeOrLoop_arr hsafe hu (mechArgs_arr m t cs lat) (computeOrLoop_ok hi) hN
          simp only [absDiff] at h2
          rw [show (PyVal.arr b).toArr = b from rfl, Arr3.bcast2_same _ _ _ hcur hb] at h2
          cases h2
  obtain ⟨b, hb, hbd⟩ := computeOrLoop_arr hsafe hu (mechArgs_arr m t cs lat) ha hN
  cases hb
  obtain ⟨-, hval⟩ := hf _ _ _ _ _ _ _ hN hnd hu (fun k x hx => by
    obtain ⟨-, a, ha⟩ := mechArgs_names htn (l := 0) (c := 0) (d := 0) (fun _ _ => rfl) (Dict.get?_of_mem hnd hx)
    cases ha) ha
  unfold absDiff at hr
  rw [show (PyVal.arr a).toArr = a from rfl, Arr3.bcast2_same _ _ _ hcur hbd] at hr
  cases hr
  intro l hl' c hc' d hd' x hx
  have hx' : t.at' l c d = x := by
    unfold Arr3.at'
    rw [List.getD_eq_getElem?_getD, ht.2.1, ht.2.2, e4, hx]
    rfl
  have key := Arr3.at_map PyArith.abs (Arr3.ofFn L C n fun l c d =>
      PyArith.sub (cur.at' l c d) (a.at' l c d)) (l := l) (c := c) (d := d) hl' hc' hd'
  have hv : a.at' l c d = g (mechNames x (condAt lat l c d) (condAt cs l c d)) := by
    rw [← hx']
    exact hval l hl' c hc' d hd' _ fun k v hv => (mechArgs_names htn (fun _ _ => rfl) hv).1
  rw [Arr3.at_ofFn _ hl' hc' hd', hv] at key
  rw [← key]
  unfold Arr3.at'
  rw [List.getD_eq_getElem _ _ (by rw [Arr3.wf]; exact Arr3.index_lt hl' hc' hd'), List.getElem?_eq_getElem]
  rfl

omit [PyNum V] in
/-- The loop of simultaneous searches is a search for each number alone, with a common number of rounds: until all
are done or the rounds are used up. -/
theorem minLoop_states [PyArith V] {c : MinCfg V} {func : List V → M W (List V)} {n : Nat} {f : Nat → V → V}
    (hf : ∀ pts ys w w', pts.length = n → func pts w = (.ok ys, w') → ∀ (i : Nat) x, pts[i]? = some x →
      ys[i]? = some (f i x)) {k : Nat} {ss ss' : List (BState V)} {w w' : W} (hl : ss.length = n)
    (h : minLoop c func k ss w = (.ok ss', w')) :
    ∃ K ≤ k, (∀ i : Nat, ss'[i]? = (ss[i]?).map
        (fun s : BState V => s.update (s.step c) (f i (c.xf (PyArith.add s.x (s.step c)))))^[K]) ∧
      (K < k → ss'.all (BState.done c) = true) ∧ ∀ j < K, ∃ (i : Nat) (s : BState V), ss[i]? = some s ∧
        ((fun s : BState V => s.update (s.step c) (f i (c.xf (PyArith.add s.x (s.step c)))))^[j] s).done c = false := by
  induction k generalizing ss w with
  | zero =>
    cases h
    exact ⟨0, Nat.le_refl _, fun i => by simp, fun h => absurd h (Nat.lt_irrefl _), fun j hj => absurd hj (Nat.not_lt_zero _)⟩
  | succ k ih =>
    rw [minLoop] at h
    by_cases hd : ss.all (BState.done c) = true
    · rw [if_pos hd] at h
      cases h
      exact ⟨0, Nat.zero_le _, fun i => by simp, fun _ => hd, fun j hj => absurd hj (Nat.not_lt_zero _)⟩
    · rw [if_neg hd] at h
      obtain ⟨fus, w1, h1, h2⟩ := M.bind_eq_ok.1 h
      by_cases hlen : fus.length = ss.length
      · rw [if_pos hlen] at h2
        have hval := hf _ _ _ _ (by simp [nextPoints, hl]) h1
        have hup : ∀ i : Nat, (updateAll c ss fus)[i]? = (ss[i]?).map
            fun s : BState V => s.update (s.step c) (f i (c.xf (PyArith.add s.x (s.step c)))) := by
          intro i
          cases hs : ss[i]? with
          | none =>
            rw [List.getElem?_eq_none_iff] at hs
            rw [List.getElem?_eq_none (by rw [updateAll_length _ _ _ hlen]; exact hs)]
            rfl
          | some s => rw [updateAll_get hs (hval i _ (by rw [nextPoints_get, hs]; rfl))]; rfl
        obtain ⟨K, hK, a1, a2, a3⟩ := ih (by rw [updateAll_length _ _ _ hlen]; exact hl) h2
        refine ⟨K + 1, by omega, fun i => ?_, fun hlt => a2 (by omega), fun j hj => ?_⟩
        · rw [a1 i, hup i, Option.map_map]
          rfl
        · cases j with
          | zero =>
            have hd' : ∃ s ∈ ss, s.done c = false := by
              by_contra hcon
              apply hd
              rw [List.all_eq_true]
              intro s hs
              by_contra hne
              exact hcon ⟨s, hs, by simpa using hne⟩
            obtain ⟨s, hs, hsd⟩ := hd'
            obtain ⟨i, hi⟩ := List.mem_iff_getElem?.1 hs
            exact ⟨i, s, hi, hsd⟩
          | succ j =>
            obtain ⟨i, s, hs, hsd⟩ := a3 j (by omega)
            rw [hup i] at hs
            cases hss : ss[i]? with
            | none => rw [hss] at hs; cases hs
            | some s0 =>
              rw [hss] at hs
              cases hs
              exact ⟨i, s0, hss, hsd⟩
      · rw [if_neg hlen] at h2
        cases h2

theorem allSamples_iff {L C n : Nat} {p : Nat → Nat → Nat → Bool} :
    allSamples L C n p = true ↔ ∀ l < L, ∀ c < C, ∀ d < n, p l c d = true := by
  simp [allSamples, List.all_eq_true]

/-- The common number of rounds is the first after which all searches are done, or the maximum. -/
theorem commonRounds_eq {c : MinCfg V} {L C n K : Nat} {f : Nat → Nat → Nat → V → V} (hK : K ≤ c.maxiter)
    (h1 : K < c.maxiter → ∀ l < L, ∀ ch < C, ∀ d < n, (searchState c (f l ch d) K).done c = true)
    (h2 : ∀ j < K, ∃ l < L, ∃ ch < C, ∃ d < n, (searchState c (f l ch d) j).done c = false) :
    commonRounds c L C n f = K := by
  have hno : ∀ j < K, allSamples L C n (fun l ch d => (searchState c (f l ch d) j).done c) = false := by
    intro j hj
    obtain ⟨l, hl, ch, hc, d, hd, hf⟩ := h2 j hj
    rw [← Bool.not_eq_true, allSamples_iff]
    intro hall
    have := hall l hl ch hc d hd
    rw [hf] at this
    cases this
  unfold commonRounds
  rcases Nat.lt_or_ge K c.maxiter with hlt | hge
  · have : (List.range c.maxiter).find? (fun k =>
        allSamples L C n fun l ch d => (searchState c (f l ch d) k).done c) = some K := by
      rw [List.find?_range_eq_some]
      exact ⟨allSamples_iff.2 (h1 hlt), List.mem_range.2 hlt, fun j hj => by simp [hno j hj]⟩
    rw [this]
    rfl
  · have hKe : K = c.maxiter := Nat.le_antisymm hK hge
    have : (List.range c.maxiter).find? (fun k =>
        allSamples L C n fun l ch d => (searchState c (f l ch d) k).done c) = none := by
      rw [List.find?_range_eq_none]
      exact fun j hj => by simp [hno j (by omega)]
    rw [this]
    exact hKe.symm

theorem commonRounds_congr {c : MinCfg V} {L C n : Nat} {f g : Nat → Nat → Nat → V → V}
    (h : ∀ l < L, ∀ ch < C, ∀ d < n, f l ch d = g l ch d) : commonRounds c L C n f = commonRounds c L C n g := by
  have : ∀ k, allSamples L C n (fun l ch d => (searchState c (f l ch d) k).done c) =
      allSamples L C n (fun l ch d => (searchState c (g l ch d) k).done c) := by
    intro k
    rw [Bool.eq_iff_iff, allSamples_iff, allSamples_iff]
    constructor
    · intro hall l hl ch hc d hd
      rw [← h l hl ch hc d hd]
      exact hall l hl ch hc d hd
    · intro hall l hl ch hc d hd
      rw [h l hl ch hc d hd]
      exact hall l hl ch hc d hd
  unfold commonRounds
  simp only [this]

theorem index_parts {C n l c d : Nat} (hc : c < C) (hd : d < n) :
    ((l * C + c) * n + d) / n / C = l ∧ ((l * C + c) * n + d) / n % C = c ∧ ((l * C + c) * n + d) % n = d := by
  have h1 : ((l * C + c) * n + d) / n = l * C + c := by
    rw [Nat.mul_comm, Nat.mul_add_div (by omega), Nat.div_eq_of_lt hd, Nat.add_zero]
  have h2 : ((l * C + c) * n + d) % n = d := by
    rw [Nat.mul_comm, Nat.mul_add_mod, Nat.mod_eq_of_lt hd]
  rw [h1, h2]
  refine ⟨?_, ?_, rfl⟩
  · rw [Nat.mul_comm, Nat.mul_add_div (by omega), Nat.div_eq_of_lt hc, Nat.add_zero]
  · rw [Nat.mul_comm, Nat.mul_add_mod, Nat.mod_eq_of_lt hc]

/-- The equivalent times found by the search, sample by sample. -/
theorem search_names {m : MechMdl W V} {N : Nat → Prop} {g : (String → V) → V}
    (hf : SampleEquation m.mdl.compute g N) (hsafe : ShapeSafe m.mdl.compute N)
    (htn : "time" ∈ m.mdl.compute.argNames) {cur : Arr3 V} {cs lat : Dict (Arr3 V)} {L C n : Nat}
    (hN : N (L * C * n)) (hcur : cur.HasDims L C n) (hc : GetDims cs L C n)
    (hl : GetDims lat L C n) {t0 : Arr3 V} {w w' : W}
    (h : m.calcEquivSearch cur cs lat L C n w = (.ok t0, w')) :
    t0.HasDims L C n ∧ ∀ l < L, ∀ c < C, ∀ d < n, t0.at' l c d = searchOne (equivTimeCfg V)
      (residueOne g (condAt lat l c d) (condAt cs l c d) (cur.at' l c d))
      (commonRounds (equivTimeCfg V) L C n fun l c d =>
        residueOne g (condAt lat l c d) (condAt cs l c d) (cur.at' l c d)) := by
  unfold MechMdl.calcEquivSearch at h
  obtain ⟨ts, w2, hmin, hr⟩ := M.bind_eq_ok.1 h
  obtain ⟨e1, e2, e3, e4⟩ := Arr3.reshape_eq_ok.1 (M.ofExcept_eq_ok.1 hr).1
  have hd0 : t0.HasDims L C n := ⟨e1.trans hcur.1, e2.trans hcur.2.1, e3.trans hcur.2.2⟩
  have hlen : cur.data.length = L * C * n := by rw [cur.wf, hcur.1, hcur.2.1, hcur.2.2]
  rw [hlen] at hmin
  let f : Nat → V → V := fun i => residueOne g (condAt lat (i / n / C) (i / n % C) (i % n))
    (condAt cs (i / n / C) (i / n % C) (i % n)) (cur.at' (i / n / C) (i / n % C) (i % n))
  have hfi : ∀ l c d, c < C → d < n → f ((l * C + c) * n + d) =
      residueOne g (condAt lat l c d) (condAt cs l c d) (cur.at' l c d) := by
    intro l c d hc' hd'
    obtain ⟨i1, i2, i3⟩ := index_parts (l := l) hc' hd'
    simp only [f, i1, i2, i3]
  have hres : ∀ pts ys w w', pts.length = L * C * n →
      m.residue cur cs lat L C n pts w = (.ok ys, w') → ∀ (i : Nat) x, pts[i]? = some x →
        ys[i]? = some (f i x) := by
    intro pts ys w w' hp hy i x hx
    have hi : i < L * C * n := by
      rw [← hp]
      exact (List.getElem?_eq_some_iff.1 hx).1
    obtain ⟨l, hl', c, hc', d, hd', rfl⟩ := index_exists hi
    rw [hfi l c d hc' hd']
    exact residue_names hf hsafe htn hN hcur hc hl hy l hl' c hc' d hd' x hx
  unfold minimize at hmin
  obtain ⟨f0s, w3, m1, m2⟩ := M.bind_eq_ok.1 hmin
  by_cases hl0 : f0s.length = L * C * n
  · rw [if_pos hl0] at m2
    obtain ⟨ss, m3, rfl⟩ := M.bind_pure_ok.1 m2
    obtain ⟨K, hK, a1, a2, a3⟩ := minLoop_states hres (by simp [hl0]) m3
    have hinit : ∀ (i : Nat), i < L * C * n → (f0s.map (equivTimeCfg V).init)[i]? =
        some ((equivTimeCfg V).init (f i ((equivTimeCfg V).xf (equivTimeCfg V).x0))) := by
      intro i hi
      rw [List.getElem?_map, hres _ _ _ _ (by simp) m1 i _ (by simp [hi]; rfl)]
      rfl
    have hst : ∀ i < L * C * n, ss[i]? = some (searchState (equivTimeCfg V) (f i) K) := by
      intro i hi
      rw [a1 i, hinit i hi]
      rfl
    have hround : commonRounds (equivTimeCfg V) L C n (fun l c d =>
        residueOne g (condAt lat l c d) (condAt cs l c d) (cur.at' l c d)) = K := by
      refine commonRounds_eq hK (fun hlt l hl' c hc' d hd' => ?_) fun j hj => ?_
      · have := hst _ (Arr3.index_lt hl' hc' hd')
        rw [hfi l c d hc' hd'] at this
        exact List.all_eq_true.1 (a2 hlt) _ (List.mem_of_getElem? this)
      · obtain ⟨i, s, hs, hsd⟩ := a3 j hj
        have hi : i < L * C * n := by
          have := (List.getElem?_eq_some_iff.1 hs).1
          simpa [hl0] using this
        rw [hinit i hi] at hs
        cases hs
        obtain ⟨l, hl', c, hc', d, hd', rfl⟩ := index_exists hi
        rw [hfi l c d hc' hd'] at hsd
        exact ⟨l, hl', c, hc', d, hd', hsd⟩
    refine ⟨hd0, fun l hl' c hc' d hd' => ?_⟩
    have := hst _ (Arr3.index_lt hl' hc' hd')
    rw [hfi l c d hc' hd'] at this
    rw [hround]
    have ht : t0.at' l c d = (t0.data[(l * C + c) * n + d]?).getD default := by
      unfold Arr3.at'
      rw [List.getD_eq_getElem?_getD, hd0.2.1, hd0.2.2]
    rw [ht, e4, List.getElem?_map, this]
    rfl
  · rw [if_neg hl0] at m2
    cases m2

variable [Rng W V]

/-- One stress step for one mechanism. -/
theorem mechStep_names [InfLaw V] [UnitLaws V] {ord : SetOrder} {dev : DeviceMdl W V} {env : PhysTestEnv V}
    {st : StrsSpec V} {i : Nat} {s s' : SimState V} {r : SimReport V} {w : W} {prm mech : String} {k : MechMdl W V}
    {pre : Arr3 V} {cs lat : Dict (Arr3 V)} {n : Nat}
    (h : StressedMech ord dev env st i s r w s' prm mech k pre cs lat n) {N : Nat → Prop}
    {g : (String → V) → V} (hf : SampleEquation k.mdl.compute g N) (hsafe : ShapeSafe k.mdl.compute N)
    (htn : "time" ∈ k.mdl.compute.argNames) (hN : N (r.info.numLots * r.info.numChps * n))
    {unit : TUnit} (hu : timeUnitMap k.timeUnit = some unit) (hcd : GetDims cs r.info.numLots r.info.numChps n)
    (hld : GetDims lat r.info.numLots r.info.numChps n) :
    ∃ v, mechVal s' prm mech = some v ∧ ∀ l < r.info.numLots, ∀ c < r.info.numChps, ∀ d < n,
      v.at' l c d = phaseValues k g unit lat r.info.numLots r.info.numChps n pre.at' ⟨st.duration, cs⟩ l c d := by
  have hpd := h.dims
  obtain ⟨t0, x, v, u1, u2, u3, u4, h1, h2, h3, h4⟩ := stressed_mech h
  have hx : x = phaseTime unit st.duration := by
    unfold convertTime at h2
    rw [hu] at h2
    unfold phaseTime
    cases hd : st.duration with
    | td us => rw [hd] at h2; cases h2; rfl
    | pdtd us => rw [hd] at h2; cases h2; rfl
    | num y =>
      rw [hd] at h2
      simp only at h2
      split at h2 <;> cases h2
  subst hx
  cases hkind : k.kind with
  | base =>
    unfold MechMdl.calcEquiv at h1
    rw [hkind] at h1
    cases h1
  | deg =>
    have h1' : k.calcEquivSearch pre cs lat r.info.numLots r.info.numChps n u1 = (.ok t0, u2) := by
      unfold MechMdl.calcEquiv at h1
      rw [hkind] at h1
      exact h1
    obtain ⟨hd0, hs⟩ := search_names hf hsafe htn hN hpd hcd hld h1'
    rw [calcDegVals_other (by rw [hkind]; exact nofun)] at h3
    obtain ⟨b1, b2⟩ := degBase_names hf hsafe htn hN
      (times := t0.map fun t => PyArith.add t (PyArith.ofRat (phaseTime unit st.duration))) hd0 hpd hcd hld h3
    refine ⟨v, h4, fun l hl c hc d hd => ?_⟩
    rw [b2 l hl c hc d hd _ fun _ _ => rfl, Arr3.at_map _ _ (by rw [hd0.1]; exact hl) (by rw [hd0.2.1]; exact hc)
      (by rw [hd0.2.2]; exact hd), hs l hl c hc d hd]
    unfold phaseValues
    rw [hkind]
    rfl
  | fail =>
    have ht0 : t0 = pre.map fun _ => PyArith.ofRat 0 := by
      unfold MechMdl.calcEquiv at h1
      rw [hkind] at h1
      cases h1
      rfl
    subst ht0
    rw [calcDegVals_fail hkind] at h3
    obtain ⟨b, u5, h5, h6⟩ := M.bind_eq_ok.1 h3
    obtain ⟨b1, b2⟩ := degBase_names hf hsafe htn hN (times := (pre.map fun _ => (PyArith.ofRat 0 : V)).map
      fun t => PyArith.add t (PyArith.ofRat (phaseTime unit st.duration))) hpd hpd hcd hld h5
    rw [Arr3.bcast2_same _ _ _ hpd b1] at h6
    cases h6
    refine ⟨_, h4, fun l hl c hc d hd => ?_⟩
    have hb1 : l < pre.nl := by rw [hpd.1]; exact hl
    have hb2 : c < pre.nc := by rw [hpd.2.1]; exact hc
    have hb3 : d < pre.nd := by rw [hpd.2.2]; exact hd
    have htime : ((pre.map fun _ => (PyArith.ofRat 0 : V)).map fun t =>
        PyArith.add t (PyArith.ofRat (phaseTime unit st.duration))).at' l c d =
          PyArith.ofRat (phaseTime unit st.duration) := by
      rw [Arr3.at_map _ _ (by exact hb1) (by exact hb2) (by exact hb3), Arr3.at_map _ _ hb1 hb2 hb3,
        UnitLaws.zero_add]
    rw [Arr3.at_ofFn _ hl hc hd, b2 l hl c hc d hd _ fun _ _ => rfl, htime]
    unfold phaseValues phaseValue
    rw [hkind]
    cases PyArith.eq (pre.at' l c d) k.unitary with
    | false => simp
    | true => simp

/-- One stress step for all mechanisms of a parameter. -/
theorem stressStep_names [InfLaw V] [UnitLaws V] {ord : SetOrder} {dev : DeviceMdl W V} {env : PhysTestEnv V}
    (hnd : dev.prms.Nodup) {st : StrsSpec V} {i : Nat} {s s' : SimState V} {r r' : SimReport V} {w w' : W}
    (h : simStress ord dev env st i (s, r) w = (.ok (s', r'), w')) (hsh : StateShape dev r.info s)
    {prm : String} {m : DegPrmMdl W V} (hm : dev.prms.get? prm = some (.deg m)) (hmn : m.mechs.Nodup)
    {N : Nat → Prop} (hdeg : DegShapes m N) {gm : String → (String → V) → V} {um : String → TUnit}
    (he : MechEquations m gm um N) {n : Nat} (hn : r.info.devCounts.get? prm = some n)
    (hN : N (r.info.numLots * r.info.numChps * n)) {lats : Dict (LatNode V)} (hlats : s.latents.get? prm = some lats)
    (hsub : ∀ mech k, m.mechs.get? mech = some k → lats.get? mech = some (.sub (partLatents lats mech))) :
    ∃ ph, PhaseOf (W := W) ord dev env r.info prm st ph ∧ ∀ mech k, m.mechs.get? mech = some k →
      ∀ pre, mechVal s prm mech = some pre → ∃ v, mechVal s' prm mech = some v ∧
        ∀ l < r.info.numLots, ∀ c < r.info.numChps, ∀ d < n, v.at' l c d =
          phaseValues k (gm mech) (um mech) (partLatents lats mech) r.info.numLots r.info.numChps n pre.at' ph l c d := by
  obtain ⟨conds, s1, e, t, w1, hgen, -⟩ := simStress_ok h
  have hprm : prm ∈ dev.degPrms.map (·.1) :=
    List.mem_map_of_mem (f := (·.1)) (a := (prm, m)) (Gerabaldi.mem_degPrms.2 (Dict.mem_of_get? hm))
  obtain ⟨cs, hcs⟩ : ∃ cs, conds.get? prm = some cs := by
    obtain ⟨shared, counts', w1, -, -, h3⟩ := genEnvCondVals_inv hgen
    obtain ⟨d', w2, w3, h4, -⟩ := result_get h3 hprm
    exact ⟨d', h4⟩
  have hcd : GetDims cs r.info.numLots r.info.numChps n :=
    conds_dims hgen rfl hprm (Dict.mem_keys_of_get? hm) hn hcs
  refine ⟨⟨st.duration, cs⟩, ⟨rfl, conds, _, _, hgen, hcs⟩, fun mech k hk pre hpre => ?_⟩
  have hlat := hsub mech k hk
  have hsl : subLatents lats mech = .ok (partLatents lats mech) := by
    unfold subLatents
    rw [hlat]
  have hld : GetDims (partLatents lats mech) r.info.numLots r.info.numChps n := by
    obtain ⟨n', lats', e1, e2, e3⟩ := hsh.count prm _ hm
    rw [hn] at e1
    cases e1
    rw [hlats] at e2
    cases e2
    exact (e3 _ _ (Dict.mem_of_get? hlat)).get
  have hpd : pre.HasDims r.info.numLots r.info.numChps n := by
    obtain ⟨cur, e1, -, e2⟩ := (hsh.deg prm m n hm hn).mech
    unfold mechVal at hpre
    rw [e1] at hpre
    exact e2.get _ _ hpre
  have hst : StressedMech ord dev env st i s r w s' prm mech k pre cs (partLatents lats mech) n :=
    ⟨⟨_, _, h⟩, hnd, ⟨m, hm, hmn, hk⟩, ⟨conds, _, hgen, ⟨hpre, hn, hcs, lats, hlats, hsl⟩⟩, hpd⟩
  exact mechStep_names hst (he.eqn mech k hk) (hdeg.mechs _ _ (Dict.mem_of_get? hk)) (he.time mech k hk) hN
    (he.unit mech k hk) hcd hld

omit [Rng W V] in
/-- The values after a phase depend on the values before it at the samples only. -/
theorem phaseValues_congr {k : MechMdl W V} {g : (String → V) → V} {unit : TUnit} {lat : Dict (Arr3 V)} {L C n : Nat}
    {v v' : Nat → Nat → Nat → V} {ph : Phase V} (h : ∀ l < L, ∀ c < C, ∀ d < n, v l c d = v' l c d) :
    ∀ l < L, ∀ c < C, ∀ d < n,
      phaseValues k g unit lat L C n v ph l c d = phaseValues k g unit lat L C n v' ph l c d := by
  intro l hl c hc d hd
  unfold phaseValues
  rw [h l hl c hc d hd, commonRounds_congr fun l hl c hc d hd => by rw [h l hl c hc d hd]]

omit [PyNum V] in
theorem stressSteps_append (xs ys : List (Step V)) :
    stressSteps (xs ++ ys) = stressSteps xs ++ stressSteps ys := by
  induction xs with
  | nil => rfl
  | cons x xs ih =>
    cases x <;> simp only [List.cons_append, stressSteps, ih]

/-- **C74**, mechanisms: in every simulation from new devices and for every parameter, there are stress phases,
one for each stress step passed, such that each sample of each mechanism has the value its history gives it. -/
theorem C74_mechanisms [InfLaw V] [UnitLaws V] {ord : SetOrder} {dev : DeviceMdl W V} {env : PhysTestEnv V}
    (hnd : dev.prms.Nodup) (hmn : ∀ p d, dev.prms.get? p = some (.deg d) → d.mechs.Nodup) {N : Nat → Prop}
    (hs : ∀ p d, dev.prms.get? p = some (.deg d) → DegShapes d N) {test : TestSpec V} {s0 s : SimState V}
    {r0 r : SimReport V} {w w0 w' : W} (h1 : simStart dev test none w = (.ok (s0, r0), w0)) {steps : List (Step V)}
    (h2 : runSteps ord dev env 0 steps (s0, r0) w0 = (.ok (s, r), w'))
    {prm : String} {m : DegPrmMdl W V} (hm : dev.prms.get? prm = some (.deg m)) (ho : OwnNames m)
    {gm : String → (String → V) → V} {um : String → TUnit} (he : MechEquations m gm um N)
    {n : Nat} (hq : r0.devCounts.get? prm = some n) (hN : SizesIn N r0.info := by intro _ _ _; trivial) :
    ∃ phases lat, List.Forall₂ (PhaseOf (W := W) ord dev env r0.info prm) (stressSteps steps) phases ∧
      s0.latents.get? prm = some lat ∧ s.latents.get? prm = some lat ∧
      s.initPrm.get? prm = s0.initPrm.get? prm ∧
      ∀ mech k, m.mechs.get? mech = some k → ∃ v, mechVal s prm mech = some v ∧
        Drawn k.mdl test.numLots test.numChps n (partLatents lat mech) ∧
        ∀ l < test.numLots, ∀ c < test.numChps, ∀ d < n, v.at' l c d =
          mechHistory k (gm mech) (um mech) (partLatents lat mech) test.numLots test.numChps n phases l c d := by
  obtain ⟨g1, g2, g3, -, -⟩ := simStart_shape hnd hs h1 hN
  obtain ⟨⟨mv, c1, -, -, c2⟩, ⟨lats, c3, -, c4, -⟩⟩ := start_mechs hnd h1 hm ho hq
  have hsub : ∀ mech k, m.mechs.get? mech = some k → lats.get? mech = some (.sub (partLatents lats mech)) ∧
      Drawn k.mdl test.numLots test.numChps n (partLatents lats mech) := by
    intro mech k hk
    obtain ⟨d, hd, hdr⟩ := c4 mech k hk
    have : partLatents lats mech = d := by
      unfold partLatents
      rw [hd]
    rw [this]
    exact ⟨hd, hdr⟩
  have e1 : r0.info.numLots = test.numLots := g2
  have e2 : r0.info.numChps = test.numChps := g3
  have key := M.forIn'_ok_inv (P := fun pre (x : SimState V × SimReport V) _ => StateShape dev x.2.info x.1 ∧
      x.2.info = r0.info ∧ x.1.latents.get? prm = some lats ∧ x.1.initPrm.get? prm = s0.initPrm.get? prm ∧
      ∃ phases, List.Forall₂ (PhaseOf (W := W) ord dev env r0.info prm) (stressSteps (pre.map (·.2))) phases ∧
        ∀ mech k, m.mechs.get? mech = some k → ∃ v, mechVal x.1 prm mech = some v ∧
        ∀ l < test.numLots, ∀ c < test.numChps, ∀ d < n, v.at' l c d =
          mechHistory k (gm mech) (um mech) (partLatents lats mech) test.numLots test.numChps n phases l c d) h2
    ⟨g1, rfl, c3, rfl, [], .nil, fun mech k hk => by
      obtain ⟨a, d1, -, d3⟩ := c2 mech k hk
      exact ⟨a, by unfold mechVal; rw [c1]; exact d1, d3⟩⟩ ?_
  · obtain ⟨-, -, k3, k6, phases, k4, k5⟩ := key
    rw [enumFrom_snd] at k4
    refine ⟨phases, lats, k4, c3, k3, k6, fun mech k hk => ?_⟩
    obtain ⟨v, b1, b2⟩ := k5 mech k hk
    exact ⟨v, b1, (hsub mech k hk).2, b2⟩
  · rintro pre ⟨j, st⟩ post ⟨s1, r1⟩ w1 ⟨s2, r2⟩ w2 hsplit ⟨k1, k2, k3, k6, phases, k4, k5⟩ hx
    simp only at k1 k2 k3 k6
    cases st with
    | strs st =>
      have hsh := simStress_shape hnd hmn hs k1 hx (by rw [k2]; exact hN)
      obtain ⟨ph, f1, f2⟩ := stressStep_names hnd hx k1 hm (hmn _ _ hm) (hs _ _ hm) he (n := n)
        (by rw [k2]; exact hq) (by rw [k2]; exact hN _ _ hq) k3 fun mech k hk => (hsub mech k hk).1
      rw [k2] at f1
      rw [k2, e1, e2] at f2
      obtain ⟨_, s3, _, _, _, -, hl, -, -, rfl, rfl⟩ := simStress_ok hx
      have hkeep : s3.latents.get? prm = some lats ∧ s3.initPrm.get? prm = s0.initPrm.get? prm := by
        refine M.forIn'_ok_inv (P := fun _ (y : SimState V) _ => y.latents.get? prm = some lats ∧
          y.initPrm.get? prm = s0.initPrm.get? prm) hl ⟨k3, k6⟩ ?_
        intro _ _ _ _ _ _ _ _ hy hst
        obtain ⟨_, _, _, _, _, _, _, _, _, _, _, _, -, -, -, -, -, -, -, -, -, -, rfl⟩ := stressPrm_ok hst
        exact hy
      refine ⟨hsh, k2, hkeep.1, hkeep.2, phases ++ [ph], ?_, fun mech k hk => ?_⟩
      · rw [List.map_append, stressSteps_append]
        exact List.rel_append k4 (.cons f1 .nil)
      · obtain ⟨v, b1, b2⟩ := k5 mech k hk
        obtain ⟨v', b3, b4⟩ := f2 mech k hk v b1
        refine ⟨v', b3, fun l hl c hc d hd => ?_⟩
        rw [b4 l hl c hc d hd, phaseValues_congr b2 l hl c hc d hd]
        unfold mechHistory
        rw [List.foldl_append, List.foldl_cons, List.foldl_nil]
    | meas st =>
      obtain ⟨_, _, _, _, _, rfl, rfl⟩ := simMeas_ok hx
      refine ⟨k1, k2, k3, k6, phases, ?_, k5⟩
      rw [List.map_append, stressSteps_append]
      simpa [stressSteps] using k4
    | other o =>
      cases hx
      refine ⟨k1, k2, k3, k6, phases, ?_, k5⟩
      rw [List.map_append, stressSteps_append]
      simpa [stressSteps] using k4

/-- The true values of a parameter are the initial ones until the first stress step, and what its equation computes
from then on. -/
theorem run_computed {ord : SetOrder} {dev : DeviceMdl W V} {env : PhysTestEnv V}
    (hnd : dev.prms.Nodup) (hmn : ∀ p d, dev.prms.get? p = some (.deg d) → d.mechs.Nodup) {N : Nat → Prop}
    (hs : ∀ p d, dev.prms.get? p = some (.deg d) → DegShapes d N) {steps : List (Step V)} {i : Nat}
    {s s' : SimState V} {r r' : SimReport V} {w w' : W} (hshape : StateShape dev r.info s)
    (h : runSteps ord dev env i steps (s, r) w = (.ok (s', r'), w')) {prm : String} {m : DegPrmMdl W V}
    (hp : dev.prms.get? prm = some (.deg m)) {g : (String → V) → V} {S : PyVal V → Prop}
    (he : HasEquation m g N S) {n : Nat} (hq : r.info.devCounts.get? prm = some n)
    (hN : SizesIn N r.info := by intro _ _ _; trivial) :
    if stressSteps steps = [] then s'.currPrm = s.currPrm
    else Computed m g s' r.info.numLots r.info.numChps n prm := by
  have key := (M.forIn'_ok_inv (P := fun pre (x : SimState V × SimReport V) _ => StateShape dev x.2.info x.1 ∧
    x.2.info = r.info ∧ if stressSteps (pre.map (·.2)) = [] then x.1.currPrm = s.currPrm
    else Computed m g x.1 r.info.numLots r.info.numChps n prm) h
    ⟨hshape, rfl, by simp [stressSteps]⟩ ?_).2.2
  · rw [enumFrom_snd] at key
    exact key
  rintro pre ⟨j, st⟩ post ⟨s1, r1⟩ w1 ⟨s2, r2⟩ w2 - ⟨b1, b2, b4⟩ hf
  simp only at b1 b2
  rw [List.map_append, stressSteps_append]
  cases st with
  | strs st =>
    have hf' : simStress ord dev env st j (s1, r1) w1 = (.ok (s2, r2), w2) := hf
    have hc := C65_stress hnd hmn hs b1 hf' hp he (by rw [b2]; exact hq) (by rw [b2]; exact hN)
    have hsh := simStress_shape hnd hmn hs b1 hf' (by rw [b2]; exact hN)
    rw [b2] at hc
    obtain ⟨_, _, _, _, _, -, -, -, -, -, rfl⟩ := simStress_ok hf'
    refine ⟨hsh, b2, ?_⟩
    rw [if_neg (by simp [stressSteps])]
    exact hc
  | meas st =>
    obtain ⟨_, _, _, _, _, rfl, rfl⟩ := simMeas_ok hf
    refine ⟨b1, b2, ?_⟩
    simpa [stressSteps] using b4
  | other o =>
    cases hf
    refine ⟨b1, b2, ?_⟩
    simpa [stressSteps] using b4

/-- **C74**, true values: after any steps from new devices, the true value of each device of a parameter is the
initial value of its own drawn latent values before any stress, and otherwise what the equation gives for that
initial value and the mechanism values that its own stress history leads to. -/
theorem C74_true [InfLaw V] [UnitLaws V] {ord : SetOrder} {dev : DeviceMdl W V} {env : PhysTestEnv V}
    (hnd : dev.prms.Nodup) (hmn : ∀ p d, dev.prms.get? p = some (.deg d) → d.mechs.Nodup) {N : Nat → Prop}
    (hs : ∀ p d, dev.prms.get? p = some (.deg d) → DegShapes d N) {test : TestSpec V} {s0 s : SimState V}
    {r0 r : SimReport V} {w w0 w' : W} (h1 : simStart dev test none w = (.ok (s0, r0), w0)) {steps : List (Step V)}
    (h2 : runSteps ord dev env 0 steps (s0, r0) w0 = (.ok (s, r), w'))
    {prm : String} {m : DegPrmMdl W V} (hm : dev.prms.get? prm = some (.deg m)) (ho : OwnNames m)
    (hil : m.initMdl.latentVars.Nodup) {g gi : (String → V) → V} {S : PyVal V → Prop} (hg : HasEquation m g N S)
    (hi : CircEquation m.initMdl.compute gi) {gm : String → (String → V) → V} {um : String → TUnit}
    (he : MechEquations m gm um N) {n : Nat} (hq : r0.devCounts.get? prm = some n)
    (hN : SizesIn N r0.info := by intro _ _ _; trivial) :
    ∃ phases il lat cur, DeviceHistory (W := W) ord dev env r0.info prm m n steps phases il lat ∧
      s.latents.get? prm = some lat ∧ s.currPrm.get? prm = some (.arr cur) ∧
      ∀ l < test.numLots, ∀ c < test.numChps, ∀ d < n,
        cur.at' l c d = trueAfter m g gm um (initialAt gi il l c d) lat test.numLots test.numChps n phases l c d := by
  obtain ⟨g1, g2, g3, -, -⟩ := simStart_shape hnd hs h1 hN
  have e1 : r0.info.numLots = test.numLots := g2
  have e2 : r0.info.numChps = test.numChps := g3
  obtain ⟨-, ⟨⟨-, lat0, c3, ⟨cl, c6, c7⟩, -, c5⟩, ⟨ia, il, d1, d2, -, d4, d5⟩⟩⟩ :=
    C72_start hnd hs h1 hm ho hil hi hq (by
    have := hN prm n hq
    rwa [e1, e2] at this)
  obtain ⟨phases, lat, f1, f2, f3, f4, f5⟩ := C74_mechanisms hnd hmn hs h1 h2 hm ho he hq hN
  rw [c3] at f2
  cases f2
  have hcl : partLatents lat0 "cond" = cl := by
    unfold partLatents
    rw [c6]
  have hist : DeviceHistory (W := W) ord dev env r0.info prm m n steps phases il lat0 := by
    refine ⟨hq, f1, ?_, ?_, ?_, ?_⟩
    · rw [e1, e2]; exact d4
    · rw [e1, e2]
      exact fun mech k hk => by
        obtain ⟨_, _, hd, _⟩ := f5 mech k hk
        exact hd
    · rw [e1, e2, hcl]; exact c7
    · rw [e1, e2]; exact c5
  have hrun := run_computed hnd hmn hs g1 h2 hm hg hq hN
  have hempty : stressSteps steps = [] ↔ phases = [] := by
    constructor
    · intro h
      rw [h] at f1
      cases f1
      rfl
    · intro h
      rw [h] at f1
      cases hst : stressSteps steps with
      | nil => rfl
      | cons a b => rw [hst] at f1; cases f1
  by_cases hph : stressSteps steps = []
  · rw [if_pos hph] at hrun
    refine ⟨phases, il, lat0, ia, hist, f3, by rw [hrun]; exact d2, fun l hl c hc d hd => ?_⟩
    unfold trueAfter
    rw [hempty.1 hph]
    exact d5 l hl c hc d hd
  · rw [if_neg hph] at hrun
    obtain ⟨ia', a, mv, lat', k1, -, k3, -, k5, k6, k7, k8⟩ := hrun
    rw [f3] at k7
    cases k7
    rw [f4, d1] at k1
    cases k1
    refine ⟨phases, il, lat0, a, hist, f3, k3, fun l hl c hc d hd => ?_⟩
    rw [k8 l (by rw [e1]; exact hl) c (by rw [e2]; exact hc) d hd, d5 l hl c hc d hd]
    unfold trueAfter
    rw [if_neg (by
      rw [List.isEmpty_iff]
      exact fun h => hph (hempty.2 h))]
    congr 2
    funext mech
    unfold mechsAfter
    cases hk : m.mechs.get? mech with
    | none =>
      have : mv.get? mech = none := by
        rw [Dict.get?_eq_none_iff, k6]
        exact (Dict.get?_eq_none_iff _ _).1 hk
      rw [this]
      rfl
    | some k =>
      obtain ⟨v, b1, -, b2⟩ := f5 mech k hk
      unfold mechVal at b1
      rw [k5] at b1
      have b1' : mv.get? mech = some v := b1
      rw [b1']
      exact congrArg some (b2 l hl c hc d hd)

/-- **C74**, readings: the rows of a measurement of `n` devices of a parameter show what its instrument reads from
the values that the drawn latent values, the stress phases before the measurement and the conditions of the
measurement give, sample by sample. -/
theorem C74_reading [InfLaw V] [UnitLaws V] [LawfulRng W V] {ord : SetOrder} {dev : DeviceMdl W V}
    {env : PhysTestEnv V} (hnd : dev.prms.Nodup)
    (hmn : ∀ p d, dev.prms.get? p = some (.deg d) → d.mechs.Nodup) {N : Nat → Prop}
    (hs : ∀ p d, dev.prms.get? p = some (.deg d) → DegShapes d N) {test : TestSpec V}
    {r : SimReport V} {w w' : W} (h : simulate ord test dev env none w = (.ok r, w'))
    {pre post : List (Step V)} {step : MeasSpec V} (ht : test.steps = pre ++ .meas step :: post)
    (hnm : step.measurements.Nodup) {prm : String} {n : Nat} (hp : (prm, n) ∈ step.measurements)
    {m : DegPrmMdl W V} (hm : dev.prms.get? prm = some (.deg m)) (ho : OwnNames m)
    (hil : m.initMdl.latentVars.Nodup) {g gi gc : (String → V) → V} {S : PyVal V → Prop}
    (hg : HasEquation m g N S) (hi : CircEquation m.initMdl.compute gi)
    (hc : SampleEquation m.condMdl.compute gc N) {gm : String → (String → V) → V} {um : String → TUnit}
    (he : MechEquations m gm um N) (hN : SizesIn N r.info := by intro _ _ _; trivial)
    (hNn : N (test.numLots * test.numChps * n) := by trivial) :
    ∃ phases il lat k conds cs ys, ∃ u u1 u2 u3 : W, ∃ t : TimeVal,
      DeviceHistory (W := W) ord dev env r.info prm m k pre phases il lat ∧ n ≤ k ∧
      env.genEnvCondVals ord step.conditions (.counts step.measurements) (some r.info) (some dev)
        .measure 1 1 u = (.ok conds, u1) ∧ conds.get? prm = some cs ∧
      Spec.timeVal t = (pre.map stressLen).sum ∧
      (instrumentOf env prm).measureVals ((expectedRows test.numLots test.numChps n (fun l c d =>
        shownAfter m g gc (trueAfter m g gm um (initialAt gi il l c d) lat test.numLots test.numChps k phases l c d) lat cs l c d)
        prm t pre.length).map (·.measured)) u2 = (.ok ys, u3) ∧
      rowsAt r.measurements pre.length prm = List.zipWith (fun x y => { x with measured := y })
        (expectedRows test.numLots test.numChps n (fun l c d =>
          shownAfter m g gc (trueAfter m g gm um (initialAt gi il l c d) lat test.numLots test.numChps k phases l c d) lat cs l c d)
          prm t pre.length) ys := by
  obtain ⟨s0, r0, s, r1, conds, cs, cur, lat, cl, k, ys, w0, w1, w2, u2, u3, h1, h2, h4, c1, k3, k4, hle, b2, x1,
    h6, h7⟩ := C71_reading hnd hmn hs h ht hnm hp hm hg hc hN hNn
  obtain ⟨s0', r0', -, -, -, -, -, w0', -, -, -, -, -, h1', -, h3, -⟩ := C57_instrument h ht hnm hp
  rw [h1] at h1'
  cases h1'
  have hN0 : SizesIn N r0.info := by rw [← h3]; exact hN
  obtain ⟨g1, g2, g3, -, -⟩ := simStart_shape hnd hs h1 hN0
  obtain ⟨g6, g7⟩ := runSteps_shape hnd hmn hs (sr := (s0, r0)) (sr' := (s, r1)) g1 h2 hN0
  simp only at g6 g7
  obtain ⟨k', _, b1, -, -⟩ := g6.count prm _ hm
  have hkk : k' = k := by
    obtain ⟨cur', q1, q2⟩ := (g6.deg prm m k' hm b1).prm
    rw [k3] at q1
    cases q1
    exact q2.2.2.symm.trans k4.2.2
  subst hkk
  rw [g7] at b1
  obtain ⟨phases, il, lat', cur', f1, f2, f3, f4⟩ := C74_true hnd hmn hs h1 h2 hm ho hil hg hi he b1 hN0
  rw [b2] at f2
  cases f2
  rw [k3] at f3
  cases f3
  have hcl : partLatents lat "cond" = cl := by
    unfold partLatents
    rw [x1]
  have hval : ∀ l < test.numLots, ∀ c < test.numChps, ∀ d < n,
      g (prmNames (cur.at' l c d) (gc (condNames (condAt cl l c d) (condAt cs l c d)))
        (fun k => (m.mechs.get? k).map (·.unitary)) (ownAt lat l c d)) =
      shownAfter m g gc (trueAfter m g gm um (initialAt gi il l c d) lat test.numLots test.numChps k' phases l c d) lat cs l c d := by
    intro l hl c hc d hd
    unfold shownAfter
    rw [hcl, ← f4 l hl c hc d (Nat.lt_of_lt_of_le hd hle)]
  rw [expectedRows_congr hval] at h6 h7
  refine ⟨phases, il, lat, k', conds, cs, ys, _, _, u2, u3, s.elapsed, by rw [h3]; exact f1, hle, h4, c1, ?_, h6, h7⟩
  have := C37_elapsed h2
  rw [(simStart_elapsed h1).1] at this
  simpa using this

end

/-! ### A device that drifts, wears out and has a temperature coefficient -/

section
open Ex

/-- The drift `rate * temp * time`. -/
def driftExpr : NumExpr Q := .bin PyArith.mul (.bin PyArith.mul (.arg "rate") (.arg "temp")) (.arg "time")

/-- The mechanism, with the rate 2, per hour. -/
def slowDrift : MechMdl Counts Q :=
  { MechMdl.mk' .deg 0 (some (driftExpr.fn ["rate", "temp", "time"])) none (.fin 0) (some "h")
      [("rate", constLatent (.fin 2))] with }

/-- The parameter equation `init + cond + drift + wear`. -/
def agingExpr : NumExpr Q :=
  .bin PyArith.add (.bin PyArith.add (.bin PyArith.add (.arg "init") (.arg "cond")) (.arg "drift")) (.arg "wear")

/-- A parameter with both mechanisms. -/
def agingPrm : DegPrmMdl Counts Q :=
  { degPrm [("drift", slowDrift), ("wear", wear)] (.fin 3) with
    condMdl := { compute := tempExpr.fn ["tc", "temp"], latentVars := [("tc", constLatent (.fin 2))] }
    mdl := { compute := agingExpr.fn ["init", "cond", "drift", "wear"], name := some "vth" } }

/-- A device with it. -/
def agingDev : DeviceMdl Counts Q where
  prms := [("vth", .deg agingPrm)]

/-- It is measured at 20 degrees, stressed for 3 hours at 90 degrees and measured at 30 degrees. -/
def agingTest : TestSpec Q :=
  { steps := [.meas ⟨[("vth", 2)], [("temp", .fin 20)], "read"⟩,
      .strs ⟨[("temp", .fin 90)], .td 10800000000, "heat"⟩, .meas ⟨[("vth", 1)], [("temp", .fin 30)], "read"⟩],
    numChps := 1, numLots := 1, name := "aging", description := "" }

/-- What the mechanisms compute. -/
def agingMechs (mech : String) (env : String → Q) : Q :=
  if mech = "drift" then exprOn env driftExpr else exprOn env wearExpr

theorem aging_mechs : MechEquations agingPrm agingMechs fun _ => .hours := by
  have hk : ∀ mech k, agingPrm.mechs.get? mech = some k →
      (mech = "drift" ∧ k = slowDrift) ∨ (mech = "wear" ∧ k = wear) := by
    intro mech k h
    have := Dict.mem_of_get? h
    simp only [agingPrm, degPrm, List.mem_cons, List.not_mem_nil, or_false, Prod.mk.injEq] at this
    exact this
  constructor
  · intro mech k h
    rcases hk mech k h with ⟨rfl, rfl⟩ | ⟨rfl, rfl⟩
    · exact expr_sample (by intro k; simp [driftExpr, NumExpr.uses])
    · exact expr_sample (by intro k; simp [wearExpr, NumExpr.uses])
  · intro mech k h
    rcases hk mech k h with ⟨rfl, rfl⟩ | ⟨rfl, rfl⟩ <;> decide +kernel
  · intro mech k h
    rcases hk mech k h with ⟨rfl, rfl⟩ | ⟨rfl, rfl⟩ <;> rfl

theorem aging_equation : HasEquation agingPrm fun env => exprOn env agingExpr :=
  expr_equation (params := ["init", "cond", "drift", "wear"]) rfl (by
    intro k
    simp [agingExpr, NumExpr.uses])

theorem aging_names : OwnNames agingPrm :=
  ⟨by decide +kernel, by decide +kernel, by decide +kernel, by decide +kernel⟩

theorem aging_shapes : DegShapes agingPrm := by
  refine ⟨argEqn_shapes _, by decide, by simp [agingPrm, degPrm, initValMk, nameLatents],
    NumExpr.shapes (by intro k; simp [tempExpr, NumExpr.uses]), ?_,
    NumExpr.shapes (by intro k; simp [agingExpr, NumExpr.uses])⟩
  intro k m hk
  simp only [agingPrm, degPrm, List.mem_cons, List.not_mem_nil, or_false, Prod.mk.injEq] at hk
  rcases hk with ⟨rfl, rfl⟩ | ⟨rfl, rfl⟩
  · exact NumExpr.shapes (by intro k; simp [driftExpr, NumExpr.uses])
  · exact NumExpr.shapes (by intro k; simp [wearExpr, NumExpr.uses])

theorem aging_device : agingDev.prms.Nodup ∧
    (∀ p d, agingDev.prms.get? p = some (.deg d) → d.mechs.Nodup) ∧
    ∀ p d, agingDev.prms.get? p = some (.deg d) → DegShapes d := by
  have hd : ∀ p d, agingDev.prms.get? p = some (.deg d) → d = agingPrm := by
    intro p d hp
    have := Dict.mem_of_get? hp
    cases List.mem_singleton.1 this
    rfl
  refine ⟨by decide, fun p d hp => ?_, fun p d hp => ?_⟩ <;> rw [hd p d hp]
  · exact aging_names.mechs
  · exact aging_shapes

/-- The test runs. The first measurement shows the initial value 3 with the shift 40. The last shows the shift
60, the 5 of the wear, and a drift of a little more than the 540 of three hours at 90 degrees, as the search
finds a small equivalent time for no drift. -/
theorem aging_run : ∃ r w', simulate orderA agingTest agingDev ⟨[], []⟩ none Counts.start = (.ok r, w') ∧
    (rowsAt r.measurements 0 "vth").map (·.measured) = [.fin 43, .fin 43] ∧
    ∀ y ∈ (rowsAt r.measurements 2 "vth").map (·.measured),
      PyArith.lt (.fin 608) y = true ∧ PyArith.lt y (.fin 609) = true := by
  obtain ⟨r, hr, hq⟩ := exists_ok (x := (simulate orderA agingTest agingDev ⟨[], []⟩ none Counts.start).1)
    (f := fun r : SimReport Q => decide ((rowsAt r.measurements 0 "vth").map (·.measured) = [.fin 43, .fin 43] ∧
      ∀ y ∈ (rowsAt r.measurements 2 "vth").map (fun x : MeasRow Q => x.measured),
        PyArith.lt (Ext.fin 608) y = true ∧ PyArith.lt y (Ext.fin 609) = true)) (by decide +kernel)
  exact ⟨r, _, Prod.ext hr rfl, (of_decide_eq_true hq).1, (of_decide_eq_true hq).2⟩

/-- The last reading is the value that the closed form gives for the three hours at 90 degrees and the drawn
values. -/
example : ∃ r w', simulate orderA agingTest agingDev ⟨[], []⟩ none Counts.start = (.ok r, w') ∧
    (rowsAt r.measurements 2 "vth").map (·.measured) = [
      let lat := [("drift", .sub [("rate", .full 1 1 2 (.fin 2))]), ("wear", .sub [("limit", .full 1 1 2 (.fin 250))]),
        ("cond", .sub [("tc", .full 1 1 2 (.fin 2))])]
      shownAfter agingPrm (fun env => exprOn env agingExpr) (fun env => exprOn env tempExpr)
        (trueAfter agingPrm (fun env => exprOn env agingExpr) agingMechs (fun _ => .hours)
          (initialAt (fun env => env "init_val") [("init_val", .full 1 1 2 (.fin 3))] 0 0 0) lat 1 1 2
          [⟨.td 10800000000, [("temp", .full 1 1 2 (.fin 90))]⟩] 0 0 0) lat
        [("temp", .full 1 1 1 (.fin 30))] 0 0 0] := by
  obtain ⟨r, hr, hq⟩ := exists_ok (x := (simulate orderA agingTest agingDev ⟨[], []⟩ none Counts.start).1)
    (f := fun r : SimReport Q => decide ((rowsAt r.measurements 2 "vth").map (fun x : MeasRow Q => x.measured) = [
      let lat : Dict (LatNode Q) := [("drift", .sub [("rate", .full 1 1 2 (.fin 2))]),
        ("wear", .sub [("limit", .full 1 1 2 (.fin 250))]), ("cond", .sub [("tc", .full 1 1 2 (.fin 2))])]
      shownAfter agingPrm (fun env => exprOn env agingExpr) (fun env => exprOn env tempExpr)
        (trueAfter agingPrm (fun env => exprOn env agingExpr) agingMechs (fun _ => .hours)
          (initialAt (fun env => env "init_val") [("init_val", .full 1 1 2 (.fin 3))] 0 0 0) lat 1 1 2
          [⟨.td 10800000000, [("temp", .full 1 1 2 (.fin 90))]⟩] 0 0 0) lat
        [("temp", .full 1 1 1 (.fin 30))] 0 0 0])) (by decide +kernel)
  exact ⟨r, _, Prod.ext hr rfl, of_decide_eq_true hq⟩

/-- `C74_reading` applies to both measurements of the run. -/
example {r w'} (h : simulate orderA agingTest agingDev ⟨[], []⟩ none Counts.start = (.ok r, w')) :=
  And.intro
    (C74_reading aging_device.1 aging_device.2.1 aging_device.2.2 h (pre := []) rfl (by decide)
      (List.mem_singleton.2 rfl) rfl aging_names (by decide +kernel) aging_equation
      (argEqn_value _) (expr_sample (by intro k; simp [tempExpr, NumExpr.uses])) aging_mechs)
    (C74_reading aging_device.1 aging_device.2.1 aging_device.2.2 h (pre := [_, _]) rfl (by decide)
      (List.mem_singleton.2 rfl) rfl aging_names (by decide +kernel) aging_equation
      (argEqn_value _) (expr_sample (by intro k; simp [tempExpr, NumExpr.uses])) aging_mechs)

end
end Gerabaldi.Props
