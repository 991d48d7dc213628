import Verif.Lemmas.RangeSearch
import Verif.Lemmas.State

/-!
# C63: values stay in their ranges
-/

namespace Gerabaldi.Props
open Spec

section
variable {W V : Type} [PyNum V] [Rng W V]
open PyArith

/-! ## Stress -/

/-- The values of a mechanism stay in their range. -/
theorem degBase_in [InfLaw V] {R : Ranges V} {p k : String} {m : MechMdl W V} (hm : MechIn R p k m)
    {times pre : Arr3 V} {conds lat : Dict (Arr3 V)} {L C D : Nat} (ht : ArrIn (R.arg p "time") times)
    (hp : ArrIn (R.arg p k) pre) (hc : EveryEntry (fun k a => ArrIn (R.arg p k) a) conds)
    (hl : EveryEntry (fun k a => ArrIn (R.arg p k) a) lat) {w w' : W} {v : Arr3 V}
    (h : m.calcDegBase times pre conds lat L C D w = (.ok v, w')) : ArrIn (R.arg p k) v := by
  unfold MechMdl.calcDegBase at h
  obtain ⟨mask, w1, h1, h⟩ := M.bind_eq_ok.1 h
  obtain ⟨h1, -⟩ := M.ofExcept_eq_ok.1 h1
  obtain ⟨deg, w2, h2, h3⟩ := M.bind_eq_ok.1 h
  obtain ⟨h3, -⟩ := M.ofExcept_eq_ok.1 h3
  have hmask : ArrIn (fun x => x = PyNum.inf ∨ R.arg p k x) mask :=
    ht.bcast2 hp (fun x y _ hy => by
      by_cases hx : pastLimit x = true
      · rw [if_pos hx]; exact .inr hy
      · rw [if_neg hx]; exact .inl rfl) h1
  have hdeg := (hm.eqn.orLoop (mechArgs_in m ht hc hl) h2).toArr
  refine hmask.bcast2 hdeg (fun x y hx hy => ?_) h3
  rcases hx with rfl | hx
  · rw [if_pos InfLaw.eq_inf]; exact hy
  · exact ite_in hy hx

theorem degVals_in [InfLaw V] {R : Ranges V} {p k : String} {m : MechMdl W V} (hm : MechIn R p k m)
    {times pre : Arr3 V} {conds lat : Dict (Arr3 V)} {L C D : Nat} (ht : ArrIn (R.arg p "time") times)
    (hp : ArrIn (R.arg p k) pre) (hc : EveryEntry (fun k a => ArrIn (R.arg p k) a) conds)
    (hl : EveryEntry (fun k a => ArrIn (R.arg p k) a) lat) {w w' : W} {v : Arr3 V}
    (h : m.calcDegVals times pre conds lat L C D w = (.ok v, w')) : ArrIn (R.arg p k) v := by
  unfold MechMdl.calcDegVals at h
  cases hk : m.kind with
  | fail =>
    rw [hk] at h
    obtain ⟨r, w1, h1, h2⟩ := M.bind_eq_ok.1 h
    obtain ⟨h2, -⟩ := M.ofExcept_eq_ok.1 h2
    exact hp.bcast2 (degBase_in hm ht hp hc hl h1) (fun x y hx hy => ite_in hx hy) h2
  | deg => rw [hk] at h; exact degBase_in hm ht hp hc hl h
  | base => rw [hk] at h; exact degBase_in hm ht hp hc hl h

/-- The equivalent times of the mechanisms: powers of ten of numbers, or 0 for failure mechanisms. -/
def EquivTimes (R : Ranges V) (d : DegPrmMdl W V) (k : String) (a : Arr3 V) : Prop :=
  ∃ m, (k, m) ∈ d.mechs ∧ ((m.kind = .deg ∧ ArrIn (fun x => ∃ u, R.num u ∧ x = PyNum.pow10 u) a) ∨
    (m.kind = .fail ∧ ArrIn (fun x => x = ofRat 0) a))

theorem equivTimes_in {R : Ranges V} (hF : NumClosed R.num) {p : String} {d : DegPrmMdl W V}
    (hd : DegIn R p d) {cur im : Dict (Arr3 V)} {cs : Dict (Arr3 V)} {lat : Dict (LatNode V)}
    {L C D : Nat} (hcur : EveryEntry (fun k a => ArrIn (R.arg p k) a) cur)
    (hc : EveryEntry (fun k a => ArrIn (R.arg p k) a) cs) (hl : EveryEntry (LatIn (R.arg p)) lat)
    {w w' : W} {ts : Dict (Arr3 V)}
    (h : M.forIn' (DegPrmMdl.equivStep cs lat im cur L C D) d.mechs [] w = (.ok ts, w')) :
    EveryEntry (EquivTimes R d) ts := by
  refine M.forIn'_ok_inv (P := fun _ ts _ => EveryEntry (EquivTimes R d) ts) h EveryEntry.nil ?_
  intro pre kv post b1 w1 b2 w2 hx hb hf
  have hmem : kv ∈ d.mechs := by rw [hx]; simp
  obtain ⟨k, m⟩ := kv
  unfold DegPrmMdl.equivStep at hf
  obtain ⟨c, h1, hf⟩ := M.getE_bind_ok.1 hf
  obtain ⟨_, -, hf⟩ := M.getE_bind_ok.1 hf
  obtain ⟨l, h2, hf⟩ := M.ofExcept_bind_ok.1 hf
  obtain ⟨t, h3, hf⟩ := M.bind_pure_ok.1 hf
  subst hf
  refine hb.set ⟨m, hmem, ?_⟩
  unfold MechMdl.calcEquiv at h3
  cases hk : m.kind with
  | deg =>
    rw [hk] at h3
    exact .inl ⟨rfl, search_in hF (hd.mechs k m hmem) hk (hcur.get h1) hc (subLatents_in hl h2) h3⟩
  | fail =>
    rw [hk] at h3
    cases h3
    exact .inr ⟨rfl, (hcur.get h1).map fun _ _ => rfl⟩
  | base => rw [hk] at h3; cases h3

theorem addDurations_in {R : Ranges V} {ord : SetOrder} {dev : DeviceMdl W V} {env : PhysTestEnv V}
    {st : StrsSpec V} (hst : StressIn R ord dev env st) {p : String} {d : DegPrmMdl W V}
    (hp : (p, .deg d) ∈ dev.prms) (hu : d.mechs.Nodup) {ts ts' : Dict (Arr3 V)}
    (ht : EveryEntry (EquivTimes R d) ts) (h : addDurations st.duration d.mechs ts = .ok ts') :
    EveryEntry (fun _ a => ArrIn (R.arg p "time") a) ts' := by
  unfold addDurations at h
  induction ts generalizing ts' with
  | nil => cases h; exact EveryEntry.nil
  | cons kv ts ih =>
    rw [List.mapM_cons] at h
    cases h1 : addDuration st.duration d.mechs kv with
    | error e => rw [h1] at h; cases h
    | ok kv' =>
    cases h2 : List.mapM (addDuration st.duration d.mechs) ts with
    | error e => rw [h1, h2] at h; cases h
    | ok rest =>
    rw [h1, h2] at h
    cases h
    have hrest := ih (fun a b hab => ht a b (List.mem_cons_of_mem _ hab)) h2
    obtain ⟨k, a⟩ := kv
    obtain ⟨m, hm, hcase⟩ := ht k a List.mem_cons_self
    have hg := Dict.get?_of_mem hu hm
    unfold addDuration at h1
    simp only [hg] at h1
    split at h1
    · cases h1
    · rename_i q hq
      cases h1
      obtain ⟨h3, h4⟩ := hst.times p d hp k m hm q hq
      refine hrest.cons ?_
      rcases hcase with ⟨hk, ha⟩ | ⟨hk, ha⟩
      · refine ha.map fun x hx => ?_
        obtain ⟨u, hu, rfl⟩ := hx
        exact h3 hk u hu
      · refine ha.map fun x hx => ?_
        cases hx
        exact h4 hk
    · cases h1

theorem mechVals_in [InfLaw V] {R : Ranges V} {p : String} {d : DegPrmMdl W V} (hd : DegIn R p d)
    {times cur cs : Dict (Arr3 V)} {lat : Dict (LatNode V)} {L C D : Nat}
    (ht : EveryEntry (fun _ a => ArrIn (R.arg p "time") a) times)
    (hcur : EveryEntry (fun k a => ArrIn (R.arg p k) a) cur)
    (hc : EveryEntry (fun k a => ArrIn (R.arg p k) a) cs) (hl : EveryEntry (LatIn (R.arg p)) lat)
    {w w' : W} {mv : Dict (Arr3 V)}
    (h : M.forIn' (DegPrmMdl.degStep times cs lat cur L C D) d.mechs [] w = (.ok mv, w')) :
    EveryEntry (fun k a => ArrIn (R.arg p k) a) mv := by
  refine M.forIn'_ok_inv (P := fun _ mv _ => EveryEntry (fun k a => ArrIn (R.arg p k) a) mv) h
    EveryEntry.nil ?_
  intro pre kv post b1 w1 b2 w2 hx hb hf
  have hmem : kv ∈ d.mechs := by rw [hx]; simp
  obtain ⟨k, m⟩ := kv
  unfold DegPrmMdl.degStep at hf
  obtain ⟨t, h1, hf⟩ := M.getE_bind_ok.1 hf
  obtain ⟨c, h2, hf⟩ := M.getE_bind_ok.1 hf
  obtain ⟨l, h3, hf⟩ := M.ofExcept_bind_ok.1 hf
  obtain ⟨v, h4, hf⟩ := M.bind_pure_ok.1 hf
  subst hf
  exact hb.set (degVals_in (hd.mechs k m hmem) (ht.get h1) (hcur.get h2) hc (subLatents_in hl h3) h4)

/-- A stress step keeps the values in their ranges. -/
theorem stress_in [InfLaw V] {R : Ranges V} (hF : NumClosed R.num) {ord : SetOrder}
    {dev : DeviceMdl W V} (hdev : DeviceIn R dev) {env : PhysTestEnv V} {st : StrsSpec V}
    (hst : StressIn R ord dev env st) {i : Nat} {s s' : SimState V} {r r' : SimReport V} {w w' : W}
    (hs : StateIn R s) (h : simStress ord dev env st i (s, r) w = (.ok (s', r'), w')) :
    StateIn R s' ∧ r'.measurements = r.measurements := by
  obtain ⟨conds, s1, e, b, w1, h1, h2, -, -, rfl, rfl⟩ := simStress_ok h
  refine ⟨?_, rfl⟩
  have hconds := hst.conds _ _ _ _ h1
  have : StateIn R s1 := by
    refine M.forIn'_ok_inv (P := fun _ s _ => StateIn R s) h2 hs ?_
    intro pre kv post s1 w1 s2 w2 hx hb hf
    have hmem : kv ∈ dev.degPrms := by rw [hx]; simp
    obtain ⟨p, d⟩ := kv
    have hp := Gerabaldi.mem_degPrms.1 hmem
    have hd := hdev.deg p d hp
    obtain ⟨n, cur, cs, im, lat, eq0, times, ip, v, mv, w3, w4, a1, a2, a3, a4, a5, a6, a7, a8, a9, a10,
      rfl⟩ := stressPrm_ok hf
    have hcur := hb.mech.get a2
    have hcs := EveryEntry.get hconds a3
    have hlat := hb.latents.get a5
    have ht := addDurations_in hst hp hd.unique (equivTimes_in hF hd hcur hcs hlat a6) a7
    have hmv := mechVals_in hd ht hcur hcs hlat a9
    refine ⟨hb.prm.set ?_, hb.initPrm, hb.mech.set hmv, hb.latents⟩
    refine hd.eqn.orLoop (ValIn.fillMissing (ownLatent_in hlat) _ (EveryEntry.update ?_ ?_)) a10
    · exact (EveryEntry.nil.cons (v := PyVal.scal d.condUnitary) hd.cond).cons
        ((hb.initPrm.get a8).mono hd.init)
    · exact hmv.map fun k a ha => ha
  exact ⟨this.prm, this.initPrm, this.mech, this.latents⟩

/-! ## Measurements -/

omit [Rng W V] [PyNum V] in
theorem rows_in {A : V → Prop} {v : PyVal V} (hv : ValIn A v) {p : String} {t : TimeVal} {i : Nat}
    {ty : PrmType} {rows : List (MeasRow V)} (h : formatMeasurements v p t i ty = .ok rows) :
    ∀ x ∈ rows, x.prm = p ∧ A x.measured := by
  cases v with
  | arr a =>
    cases h
    intro x hx
    unfold formatArr at hx
    obtain ⟨j, hj, rfl⟩ := List.mem_iff_getElem.1 hx
    rw [List.getElem_zipWith]
    exact ⟨rfl, hv _ (List.getElem_mem _)⟩
  | scal x => cases h
  | npscal x => cases h

/-- The true values of one measured name are in their range. -/
theorem true_in {R : Ranges V} {ord : SetOrder} {dev : DeviceMdl W V} (hdev : DeviceIn R dev)
    {env : PhysTestEnv V} {q : Quantities} {step : MeasSpec V} (hm : MeasIn R ord dev env step)
    {i : Nat} {s : SimState V} (hs : StateIn R s) {conds : Dict (Dict (Arr3 V))}
    (hconds : CondsIn R conds) {p : String} {n : Nat} (hp : p ∈ step.measurements.keys)
    {w w' : W} {rows : List (MeasRow V)}
    (h : measureTrue q dev step i s conds p n w = (.ok rows, w')) :
    ∀ x ∈ rows, x.prm = p ∧ R.val p x.measured := by
  unfold measureTrue at h
  cases hcur : s.currPrm.get? p with
  | some cur =>
    cases hd : dev.prms.get? p with
    | none => simp only [hcur, hd] at h; cases h
    | some pm =>
    cases pm with
    | circ c => simp only [hcur, hd] at h; cases h
    | deg d =>
      simp only [hcur, hd] at h
      have hd' := hdev.deg p d (Dict.mem_of_get? hd)
      obtain ⟨cs, h1, h⟩ := M.getE_bind_ok.1 h
      obtain ⟨lat, h2, h⟩ := M.getE_bind_ok.1 h
      obtain ⟨v, w1, h3, h⟩ := M.bind_eq_ok.1 h
      obtain ⟨h4, -⟩ := M.ofExcept_eq_ok.1 h
      refine rows_in ?_ h4
      have hcs := EveryEntry.get hconds h1
      have hlat := hs.latents.get h2
      have hcv := hs.prm.get hcur
      unfold DegPrmMdl.calcCondShifted at h3
      cases cur with
      | arr a =>
        simp only at h3
        obtain ⟨cl, h5, h3⟩ := M.ofExcept_bind_ok.1 h3
        obtain ⟨c, w2, h6, h3⟩ := M.bind_eq_ok.1 h3
        have hl' : EveryEntry (LatIn (R.arg p)) (if n < a.nd then reduceLatents lat n else lat) := by
          split
          · exact reduceLatents_in hlat n
          · exact hlat
        have ha' : ArrIn (R.val p) (if n < a.nd then a.takeDev n else a) := by
          split
          · exact ArrIn.takeDev hcv n
          · exact hcv
        have hc : ValIn (R.arg p "cond") c := hd'.condEqn.orLoop
          (ValIn.fill (lookup2_in (subLatents_in hl' h5) hcs) _ EveryEntry.nil) h6
        refine hd'.eqn.orLoop (ValIn.fillMissing (ownLatent_in hl') _ (EveryEntry.update ?_ ?_)) h3
        · exact (EveryEntry.nil.cons (v := c) hc).cons
            (fun x hx => hd'.init x (ha' x hx))
        · intro k v hkv
          obtain ⟨⟨k', m⟩, h7, h8⟩ := List.mem_map.1 hkv
          cases h8
          exact (hd'.mechs _ _ h7).start
      | scal x => cases h3
      | npscal x => cases h3
  | none =>
    cases hc : dev.prms.get? p with
    | some pm =>
      cases pm with
      | deg d => simp only [hcur, hc] at h; cases h
      | circ c =>
      simp only [hcur, hc] at h
      have hc' := hdev.circ p c (Dict.mem_of_get? hc)
      obtain ⟨cs, h1, h⟩ := M.getE_bind_ok.1 h
      obtain ⟨lat, h2, h⟩ := M.getE_bind_ok.1 h
      obtain ⟨v, w1, h3, h⟩ := M.bind_eq_ok.1 h
      obtain ⟨h4, -⟩ := M.ofExcept_eq_ok.1 h
      refine rows_in ?_ h4
      unfold calcCircVals at h3
      obtain ⟨r, w2, h5, h6⟩ := M.bind_eq_ok.1 h3
      obtain ⟨h6, -⟩ := M.ofExcept_eq_ok.1 h6
      have hr := hc'.eqn.invoke (ValIn.fill (fun k v hk => by
        split at hk
        · rename_i v' hv'
          cases hk
          exact ownLatent_in (hs.latents.get h2) _ _ hv'
        · split at hk
          · rename_i a ha
            cases hk
            exact EveryEntry.get (EveryEntry.get hconds h1) ha
          · exact (hs.prm.get hk).mono (hc'.prms k)) _ EveryEntry.nil) h5
      cases r with
      | arr a => cases h6; exact ArrIn.takeLot hr n
      | scal x => cases h6
      | npscal x => cases h6
    | none =>
      simp only [hcur, hc] at h
      have hn := hc
      split at h
      · obtain ⟨cs, h1, h⟩ := M.getE_bind_ok.1 h
        obtain ⟨a, h2, h⟩ := M.getE_bind_ok.1 h
        obtain ⟨h3, -⟩ := M.ofExcept_eq_ok.1 h
        refine rows_in (v := .arr a) ?_ h3
        exact fun x hx => hm.sensors p hp ((Dict.get?_eq_none_iff _ _).1 hn) x
          (EveryEntry.get (EveryEntry.get hconds h1) h2 x hx)
      · cases h

/-- The readings of a measurement step are in their ranges. -/
theorem meas_in {R : Ranges V} {ord : SetOrder} {dev : DeviceMdl W V} (hdev : DeviceIn R dev)
    {env : PhysTestEnv V} {step : MeasSpec V} (hm : MeasIn R ord dev env step) {i : Nat}
    {s s' : SimState V} {r r' : SimReport V} {w w' : W} (hs : StateIn R s)
    (hr : ∀ x ∈ r.measurements, R.read x.prm x.measured)
    (h : simMeas ord dev env step i (s, r) w = (.ok (s', r'), w')) :
    s' = s ∧ ∀ x ∈ r'.measurements, R.read x.prm x.measured := by
  obtain ⟨conds, rows, w1, h1, h2, rfl, rfl⟩ := simMeas_ok h
  refine ⟨rfl, fun x hx => ?_⟩
  have hconds := hm.conds _ _ _ _ h1
  have hrows : ∀ x ∈ rows, R.read x.prm x.measured := by
    refine M.forIn'_ok_inv (P := fun _ rows _ => ∀ x ∈ rows, R.read x.prm x.measured) h2
      (fun _ h => (nomatch h)) ?_
    intro pre kv post b1 w1 b2 w2 hx hb hf
    have hmem : kv ∈ step.measurements := by rw [hx]; simp
    have hp : kv.1 ∈ step.measurements.keys := List.mem_map_of_mem hmem
    obtain ⟨tr, ins, ys, w3, a1, a2, a3, rfl⟩ := measurePrm_ok hf
    have htr := true_in hdev hm hs hconds hp a1
    intro x hx
    rcases List.mem_append.1 hx with hx | hx
    · exact hb x hx
    · obtain ⟨j, hj, rfl⟩ := List.mem_iff_getElem.1 hx
      rw [List.getElem_zipWith]
      rw [(htr _ (List.getElem_mem (by simp at hj; omega : j < tr.length))).1]
      refine hm.instms _ hp ins a2 _ _ _ _ (fun x hx => ?_) a3 _ (List.getElem_mem _)
      obtain ⟨y, hy, rfl⟩ := List.mem_map.1 hx
      exact (htr y hy).2
  rcases List.mem_append.1 (show x ∈ r.measurements ++ rows from hx) with hx | hx
  · exact hr x hx
  · exact hrows x hx

/-! ## The initial state -/

omit [PyNum V] in
theorem drawn_in [PyArith V] {A : String → V → Prop} {m : LatentMdl W V}
    (hm : ∀ k lv, (k, lv) ∈ m.latentVars → ∀ n C L (w : W) a w',
      lv.genLatentVals n C L w = (.ok a, w') → ArrIn (A k) a)
    {n C L : Nat} {w w' : W} {d : Dict (Arr3 V)} (h : m.genLatentVals n C L w = (.ok d, w')) :
    EveryEntry (fun k a => ArrIn (A k) a) d := by
  unfold LatentMdl.genLatentVals at h
  have hall := M.mapList_ok h
  clear h
  have : ∀ (vs : Dict (LatentVar V)) (d : Dict (Arr3 V)), (∀ x ∈ vs, x ∈ m.latentVars) →
      List.Forall₂ (fun x y => ∃ (w1 w2 : W), genLatent n C L x w1 = (.ok y, w2)) vs d →
      EveryEntry (fun k a => ArrIn (A k) a) d := by
    intro vs d hsub hall
    induction hall with
    | nil => exact EveryEntry.nil
    | @cons x y _ _ hxy _ ih =>
      obtain ⟨u, u', hu⟩ := hxy
      unfold genLatent at hu
      obtain ⟨a, h1, h2⟩ := M.bind_pure_ok.1 hu
      subst h2
      exact (ih fun z hz => hsub z (List.mem_cons_of_mem _ hz)).cons
        (hm x.1 x.2 (hsub _ List.mem_cons_self) _ _ _ _ _ _ h1)
  exact this _ _ (fun _ h => h) hall

theorem prmLatents_in {R : Ranges V} {dev : DeviceMdl W V} (hdev : DeviceIn R dev) {p : String}
    {m : PrmMdl W V} (hp : (p, m) ∈ dev.prms) {n C L : Nat} {w w' : W} {d : Dict (LatNode V)}
    (h : m.genLatentVals n C L w = (.ok d, w')) : EveryEntry (LatIn (R.arg p)) d := by
  cases m with
  | circ c =>
    obtain ⟨own, h1, h2⟩ := M.bind_pure_ok.1 h
    subst h2
    exact (drawn_in (hdev.circ p c hp).draws h1).map fun k a ha => ha
  | deg m =>
    have hm := hdev.deg p m hp
    have h : m.genLatentVals n C L w = (.ok d, w') := h
    unfold DegPrmMdl.genLatentVals at h
    obtain ⟨c, w1, h1, h⟩ := M.bind_eq_ok.1 h
    obtain ⟨dd, w2, h2, h⟩ := M.bind_eq_ok.1 h
    obtain ⟨own, h3, h4⟩ := M.bind_pure_ok.1 h
    subst h4
    have hdd : EveryEntry (LatIn (R.arg p)) dd := by
      refine M.forIn'_ok_inv (P := fun _ dd _ => EveryEntry (LatIn (R.arg p)) dd) h2
        (EveryEntry.nil.cons (v := LatNode.sub c) (drawn_in hm.condDraws h1)) ?_
      intro pre kv post b1 w1 b2 w2 hx hb hf
      have hmem : kv ∈ m.mechs := by rw [hx]; simp
      obtain ⟨a, h5, h6⟩ := M.bind_pure_ok.1 hf
      subst h6
      exact hb.set (v := LatNode.sub a) (drawn_in (hm.mechs kv.1 kv.2 hmem).draws h5)
    exact hdd.update ((drawn_in hm.draws h3).map fun k a ha => ha)

/-- The initial state is in its ranges. -/
theorem init_in {R : Ranges V} {dev : DeviceMdl W V} (hdev : DeviceIn R dev) {counts : Dict Nat}
    {C L : Nat} {w w' : W} {s : SimState V} (h : dev.genInitState counts C L w = (.ok s, w')) :
    StateIn R s := by
  unfold DeviceMdl.genInitState at h
  obtain ⟨acc, h1, h2⟩ := M.bind_pure_ok.1 h
  subst h2
  have : EveryEntry (fun p v => ValIn (R.val p) v) acc.prm ∧
      EveryEntry (fun p d => EveryEntry (fun k a => ArrIn (R.arg p k) a) d) acc.mech ∧
      EveryEntry (fun p d => EveryEntry (LatIn (R.arg p)) d) acc.latents := by
    refine M.forIn'_ok_inv (P := fun _ (acc : InitAcc V) _ =>
      EveryEntry (fun p v => ValIn (R.val p) v) acc.prm ∧
      EveryEntry (fun p d => EveryEntry (fun k a => ArrIn (R.arg p k) a) d) acc.mech ∧
      EveryEntry (fun p d => EveryEntry (LatIn (R.arg p)) d) acc.latents) h1
      ⟨EveryEntry.nil, EveryEntry.nil, EveryEntry.nil⟩ ?_
    intro pre kv post b1 w1 b2 w2 hx hb hf
    have hmem : kv ∈ dev.prms := by rw [hx]; simp
    obtain ⟨p, m⟩ := kv
    unfold initStep at hf
    obtain ⟨n, -, hf⟩ := M.getE_bind_ok.1 hf
    obtain ⟨lat, w3, h3, hf⟩ := M.bind_eq_ok.1 hf
    have hlat := prmLatents_in hdev hmem h3
    cases m with
    | circ c => cases hf; exact ⟨hb.1, hb.2.1, hb.2.2.set hlat⟩
    | deg d =>
      have hd := hdev.deg p d hmem
      unfold PrmMdl.addInit at hf
      simp only at hf
      obtain ⟨k, -, hf⟩ := M.getE_bind_ok.1 hf
      obtain ⟨v, h5, hf⟩ := M.bind_pure_ok.1 hf
      subst hf
      refine ⟨hb.1.set ?_, hb.2.1.set ?_, hb.2.2.set hlat⟩
      · unfold genInitVals at h5
        obtain ⟨l, w5, h6, h7⟩ := M.bind_eq_ok.1 h5
        exact hd.initEqn.invoke ((drawn_in hd.initDraws h6).map (f := PyVal.arr) fun k a ha => ha) h7
      · intro k a hka
        obtain ⟨⟨k', m⟩, h7, h8⟩ := List.mem_map.1 hka
        cases h8
        exact ArrIn.full (hd.mechs _ _ h7).start
  exact ⟨this.1, this.1, this.2.1, this.2.2⟩

/-! ## Whole simulations -/

theorem runSteps_in [InfLaw V] {R : Ranges V} (hF : NumClosed R.num) {ord : SetOrder}
    {dev : DeviceMdl W V} (hdev : DeviceIn R dev) {env : PhysTestEnv V} {steps : List (Step V)}
    (hst : StepsIn R ord dev env steps) {i : Nat} {s s' : SimState V} {r r' : SimReport V} {w w' : W}
    (hs : StateIn R s) (hr : ∀ x ∈ r.measurements, R.read x.prm x.measured)
    (h : runSteps ord dev env i steps (s, r) w = (.ok (s', r'), w')) :
    StateIn R s' ∧ ∀ x ∈ r'.measurements, R.read x.prm x.measured := by
  induction steps generalizing i s r w with
  | nil => cases h; exact ⟨hs, hr⟩
  | cons st rest ih =>
    obtain ⟨⟨s1, r1⟩, w1, h1, h2⟩ := M.bind_eq_ok.1 h
    have hrest : StepsIn R ord dev env rest := ⟨fun st h => hst.stress st (List.mem_cons_of_mem _ h),
      fun m h => hst.measure m (List.mem_cons_of_mem _ h)⟩
    cases st with
    | strs st =>
      obtain ⟨a1, a2⟩ := stress_in hF hdev (hst.stress st List.mem_cons_self) hs h1
      exact ih hrest a1 (by rw [a2]; exact hr) h2
    | meas m =>
      obtain ⟨rfl, a2⟩ := meas_in hdev (hst.measure m List.mem_cons_self) hs hr h1
      exact ih hrest hs a2 h2
    | other o => cases h1; exact ih hrest hs hr h2

theorem simStart_in {R : Ranges V} {dev : DeviceMdl W V} (hdev : DeviceIn R dev) {test : TestSpec V}
    {w w' : W} {s : SimState V} {r : SimReport V}
    (h : simStart dev test none w = (.ok (s, r), w')) : StateIn R s ∧ r.measurements = [] := by
  obtain ⟨x, w1, h1, h2⟩ := M.bind_eq_ok.1 h
  obtain ⟨s1, w2, h3, h4⟩ := M.bind_eq_ok.1 h1
  cases h4
  cases h2
  obtain ⟨s0, w3, h5, h6⟩ := M.bind_eq_ok.1 h3
  cases h6
  have := init_in hdev h5
  exact ⟨⟨this.prm, this.initPrm, this.mech, this.latents⟩, rfl⟩

/-- C63: if the equations of the device, the draws of its latent variables, the conditions of the steps and
the instruments keep the values in their ranges, then after any successful simulation all values of the
state and all readings of the report are in their ranges, however many steps there were. -/
theorem C63_ranges [InfLaw V] {R : Ranges V} (hF : NumClosed R.num) {ord : SetOrder}
    {dev : DeviceMdl W V} (hdev : DeviceIn R dev) {env : PhysTestEnv V} {test : TestSpec V}
    (hst : StepsIn R ord dev env test.steps) {w w' : W} {s : SimState V} {r : SimReport V}
    (h : simulateFull ord test dev env none w = (.ok (s, r), w')) :
    StateIn R s ∧ ∀ x ∈ r.measurements, R.read x.prm x.measured := by
  obtain ⟨⟨s0, r0⟩, w1, h1, h2⟩ := M.bind_eq_ok.1 h
  obtain ⟨a1, a2⟩ := simStart_in hdev h1
  exact runSteps_in hF hdev hst a1 (by rw [a2]; exact fun _ h => (nomatch h)) h2

end

end Gerabaldi.Props
