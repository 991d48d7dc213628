import Verif.Props.Sum
import Verif.Props.Instrument

/-!
# C57: what the rows of a report show
-/

set_option linter.unusedSectionVars false

namespace Gerabaldi.Spec

/-- The instrument of a parameter: the configured one, otherwise an exact one. -/
def instrumentOf {V : Type} (env : PhysTestEnv V) (prm : String) : Instrument V :=
  match env.instms.get? prm with
  | some i => i
  | none => { precision := none, range := none, error := none }

end Gerabaldi.Spec

namespace Gerabaldi.Props

open Gerabaldi Gerabaldi.Spec

variable {W V : Type} [PyNum V]

theorem measInstm_eq {env : PhysTestEnv V} {prm : String} {ins : Instrument V}
    (h : env.measInstm prm = .ok ins) : ins = instrumentOf env prm := by
  unfold PhysTestEnv.measInstm at h
  unfold instrumentOf
  split at h
  · cases h
  · cases hg : env.instms.get? prm with
    | some i => rw [hg] at h; cases h; rfl
    | none =>
      rw [hg] at h
      simp only at h
      split at h
      · cases h
      · cases h; rfl

variable [Rng W V]

/-- The rows of one measured name are its true rows with the readings of its own instrument. -/
theorem measLoop_readings [LawfulRng W V] {q : Quantities} {dev : DeviceMdl W V} {env : PhysTestEnv V}
    {step : MeasSpec V} {i : Nat} {s : SimState V} {conds : Dict (Dict (Arr3 V))} {ms : Dict Nat}
    (hnd : ms.Nodup) {acc rows : List (MeasRow V)} {w w' : W}
    (h : M.forIn' (measurePrm q dev env step i s conds) ms acc w = (.ok rows, w')) :
    (∀ prm, prm ∉ ms.keys → rowsOf rows prm = rowsOf acc prm) ∧
    ∀ prm n, (prm, n) ∈ ms → ∃ (t : List (MeasRow V)) (ys : List V) (u1 u2 u3 : W),
      measureTrue q dev step i s conds prm n u1 = (.ok t, u2) ∧
      (instrumentOf env prm).measureVals (t.map (·.measured)) u2 = (.ok ys, u3) ∧
      rowsOf rows prm = rowsOf acc prm ++ List.zipWith (fun r y => { r with measured := y }) t ys := by
  induction ms generalizing acc w with
  | nil =>
    cases h
    exact ⟨fun _ _ => rfl, fun _ _ h => by cases h⟩
  | cons kv rest ih =>
    obtain ⟨acc1, w1, h1, h2⟩ := M.bind_eq_ok.1 h
    obtain ⟨hk, hnd'⟩ := List.nodup_cons.1 hnd
    obtain ⟨t, ins, ys, w2, ht, hi, hy, rfl⟩ := measurePrm_ok h1
    obtain ⟨i1, i2⟩ := ih hnd' h2
    have hlen : ys.length = t.length := by simpa using measureVals_length hy
    have hprm : ∀ x ∈ List.zipWith (fun (r : MeasRow V) y => { r with measured := y }) t ys,
        x.prm = kv.1 := by
      intro x hx
      have : x.prm ∈ t.map (·.prm) := by
        rw [← (zip_rows hlen).2.1]
        exact List.mem_map_of_mem hx
      obtain ⟨y, hy, he⟩ := List.mem_map.1 this
      rw [← he]
      exact (measureTrue_step ht y hy).2.1
    refine ⟨?_, ?_⟩
    · intro prm hp
      have hne : prm ≠ kv.1 := fun h => hp (by rw [h]; exact List.mem_cons_self)
      rw [i1 prm fun h => hp (List.mem_cons_of_mem _ h), rowsOf_append,
        rowsOf_other (rows := List.zipWith _ t ys) fun x hx => by rw [hprm x hx]; exact Ne.symm hne,
        List.append_nil]
    · intro prm n hp
      rcases List.mem_cons.1 hp with rfl | hp
      · refine ⟨t, ys, w, w2, w1, ht, ?_, ?_⟩
        · rw [← measInstm_eq hi]; exact hy
        · rw [i1 _ hk, rowsOf_append, rowsOf_self hprm]
      · have hne : prm ≠ kv.1 := by
          rintro rfl
          exact hk (List.mem_map.2 ⟨_, hp, rfl⟩)
        obtain ⟨t', ys', u1, u2, u3, g1, g2, g3⟩ := i2 prm n hp
        refine ⟨t', ys', u1, u2, u3, g1, g2, ?_⟩
        rw [g3, rowsOf_append, rowsOf_other (rows := List.zipWith _ t ys) fun x hx => by
          rw [hprm x hx]; exact Ne.symm hne, List.append_nil]

/-- A simulation up to one of its measurement steps. -/
theorem simulate_split {ord : SetOrder} {dev : DeviceMdl W V} {env : PhysTestEnv V} {test : TestSpec V}
    {init : Option (SimState V)}
    {r : SimReport V} {w w' : W} (h : simulate ord test dev env init w = (.ok r, w'))
    {pre post : List (Step V)} {step : MeasSpec V} (ht : test.steps = pre ++ .meas step :: post) :
    ∃ s0 r0 s r1 rows lines w0 w1 w2, simStart dev test init w = (.ok (s0, r0), w0) ∧
      runSteps ord dev env 0 pre (s0, r0) w0 = (.ok (s, r1), w1) ∧ r.info = r0.info ∧
      measDelta ord dev env r.info pre.length step s w1 = (.ok (s, rows, lines), w2) ∧
      r.measurements.filter (fun x => x.step == pre.length) = rows := by
  obtain ⟨⟨sf, rf⟩, w1, h1, h2⟩ := M.bind_eq_ok.1 h
  cases h2
  obtain ⟨⟨s0, r0⟩, w2, h3, h4⟩ := M.bind_eq_ok.1 h1
  have g4 : r0.measurements = [] := by
    cases init with
    | none =>
      obtain ⟨x, w1, h1, h2⟩ := M.bind_eq_ok.1 h3
      obtain ⟨q, -, h2⟩ := M.ofExcept_bind_ok.1 h2
      cases h2
      rfl
    | some s => cases h3; rfl
  rw [ht] at h4
  obtain ⟨rows, lines, h5, rfl⟩ := runSteps_ok.1 h4
  rw [runDelta_append] at h5
  obtain ⟨⟨s1, rows1, lines1⟩, w3, h6, h7⟩ := M.bind_eq_ok.1 h5
  obtain ⟨⟨s2, rows2, lines2⟩, h8, h9⟩ := M.bind_pure_ok.1 h7
  cases h9
  obtain ⟨s3, rows3, lines3, rows4, lines4, w4, h10, h11, rfl, rfl⟩ := runDelta_cons_ok.1 h8
  obtain ⟨_, _, _, _, rfl, _⟩ := measDelta_ok h10
  rw [Nat.zero_add] at h10 h11
  refine ⟨s0, r0, s3, r0.grow rows1 lines1, rows3, lines3, w2, w3, w4, h3,
    runSteps_ok.2 ⟨rows1, lines1, h6, rfl⟩, rfl, h10, ?_⟩
  show (r0.measurements ++ (rows1 ++ (rows3 ++ rows4))).filter _ = _
  rw [g4, List.nil_append, List.filter_append, List.filter_append,
    filter_step_nil fun x hx => by have := runDelta_steps h6 x hx; omega,
    filter_step_nil (rows := rows4) fun x hx => by have := runDelta_steps h11 x hx; omega]
  rw [List.nil_append, List.append_nil]
  exact List.filter_eq_self.2 fun x hx => by simp [(measDelta_step h10 x hx).1]

/-- **C57**: the rows that a measurement step adds for one measured name (parameter or condition) are the
rows of its true values in the state left by the preceding steps, with the values replaced by the readings
of the instrument of that name. -/
theorem C57_instrument [LawfulRng W V] {ord : SetOrder} {dev : DeviceMdl W V} {env : PhysTestEnv V}
    {test : TestSpec V} {init : Option (SimState V)}
    {r : SimReport V} {w w' : W} (h : simulate ord test dev env init w = (.ok r, w'))
    {pre post : List (Step V)} {step : MeasSpec V} (ht : test.steps = pre ++ .meas step :: post)
    (hnm : step.measurements.Nodup) {prm : String} {n : Nat} (hp : (prm, n) ∈ step.measurements) :
    ∃ s0 r0 s r1 conds t ys w0 w1 w2 u1 u2 u3, simStart dev test init w = (.ok (s0, r0), w0) ∧
      runSteps ord dev env 0 pre (s0, r0) w0 = (.ok (s, r1), w1) ∧ r.info = r0.info ∧
      env.genEnvCondVals ord step.conditions (.counts step.measurements) (some r.info) (some dev)
        .measure 1 1 w1 = (.ok conds, w2) ∧
      measureTrue r.info dev step pre.length s conds prm n u1 = (.ok t, u2) ∧
      (instrumentOf env prm).measureVals (t.map (·.measured)) u2 = (.ok ys, u3) ∧
      rowsAt r.measurements pre.length prm =
        List.zipWith (fun x y => { x with measured := y }) t ys := by
  obtain ⟨s0, r0, s, r1, rows, lines, w0, w1, w2, h1, h2, h3, h4, h5⟩ := simulate_split h ht
  obtain ⟨conds, w3, h6, h7, _⟩ := measDelta_ok h4
  obtain ⟨t, ys, u1, u2, u3, g1, g2, g3⟩ := (measLoop_readings hnm h7).2 prm n hp
  refine ⟨s0, r0, s, r1, conds, t, ys, w0, w1, w3, u1, u2, u3, h1, h2, h3, h6, g1, g2, ?_⟩
  rw [rowsAt_eq, h5, g3]
  rfl

/-- An exact instrument changes nothing. -/
theorem exact_reading {t : List (MeasRow V)} {ys : List V} {u u' : W}
    (h : ({ precision := none, range := none, error := none } : Instrument V).measureVals
      (t.map (·.measured)) u = (.ok ys, u')) :
    List.zipWith (fun x y => { x with measured := y }) t ys = t := by
  have e : ys = t.map (·.measured) := by cases h; rfl
  rw [e, List.zipWith_map_right, List.zipWith_self]
  simp

/-- **C57** without an instrument: the rows show the true values. -/
theorem C57_exact [LawfulRng W V] {ord : SetOrder} {dev : DeviceMdl W V} {env : PhysTestEnv V}
    {test : TestSpec V} {init : Option (SimState V)}
    {r : SimReport V} {w w' : W} (h : simulate ord test dev env init w = (.ok r, w'))
    {pre post : List (Step V)} {step : MeasSpec V} (ht : test.steps = pre ++ .meas step :: post)
    (hnm : step.measurements.Nodup) {prm : String} {n : Nat} (hp : (prm, n) ∈ step.measurements)
    (hi : env.instms.get? prm = none) :
    ∃ s0 r0 s r1 conds w0 w1 w2 u1 u2, simStart dev test init w = (.ok (s0, r0), w0) ∧
      runSteps ord dev env 0 pre (s0, r0) w0 = (.ok (s, r1), w1) ∧ r.info = r0.info ∧
      env.genEnvCondVals ord step.conditions (.counts step.measurements) (some r.info) (some dev)
        .measure 1 1 w1 = (.ok conds, w2) ∧
      measureTrue r.info dev step pre.length s conds prm n u1 =
        (.ok (rowsAt r.measurements pre.length prm), u2) := by
  obtain ⟨s0, r0, s, r1, conds, t, ys, w0, w1, w2, u1, u2, u3, h1, h2, h3, h4, h5, h6, h7⟩ :=
    C57_instrument h ht hnm hp
  have e : instrumentOf env prm = { precision := none, range := none, error := none } := by
    unfold instrumentOf; rw [hi]
  rw [e] at h6
  rw [exact_reading h6] at h7
  rw [← h7] at h5
  exact ⟨s0, r0, s, r1, conds, w0, w1, w2, u1, u2, h1, h2, h3, h4, h5⟩

/-- Names of a parameter with the default equation that can be added up: mechanisms are not called 'init'
or 'cond', and the equation has no latent variable 'mechs'. -/
structure PlainDef (m : DegPrmMdl W V) : Prop where
  nodup : m.mechs.Nodup
  init : "init" ∉ m.mechs.keys
  cond : "cond" ∉ m.mechs.keys
  own : "mechs" ∉ m.mdl.latentVars.keys

theorem plain_generated {m : DegPrmMdl W V} (hm : PlainDef m) {D C L : Nat} {w w' : W}
    {lat : Dict (LatNode V)} (h : m.genLatentVals D C L w = (.ok lat, w')) : PlainNames m lat := by
  refine ⟨hm.nodup, hm.init, hm.cond, ?_⟩
  unfold DegPrmMdl.genLatentVals at h
  obtain ⟨c, w1, h1, h⟩ := M.bind_eq_ok.1 h
  obtain ⟨d, w2, h2, h⟩ := M.bind_eq_ok.1 h
  obtain ⟨own, w3, h3, h⟩ := M.bind_eq_ok.1 h
  cases h
  have hsub : ∀ kv ∈ d, ∃ e, kv.2 = LatNode.sub e := by
    refine M.forIn'_ok_inv (P := fun _ d _ => ∀ kv ∈ d, ∃ e, kv.2 = LatNode.sub e) h2 ?_ ?_
    · intro kv hkv
      cases List.mem_singleton.1 hkv
      exact ⟨_, rfl⟩
    · rintro pr kv post a u b u' - hP hstep x hx
      obtain ⟨e, u1, g1, g2⟩ := M.bind_eq_ok.1 hstep
      cases g2
      rcases Dict.mem_set hx with hx | hx
      · rw [hx]; exact ⟨_, rfl⟩
      · exact hP x hx
  unfold ownLatent
  split
  · rename_i a ha
    rcases Dict.mem_update (Dict.mem_of_get? ha) with hx | hx
    rotate_left
    · obtain ⟨e, he⟩ := hsub _ hx
      cases he
    · obtain ⟨kv, hkv, he⟩ := List.mem_map.1 hx
      obtain ⟨x, hxm, u1, u2, hg⟩ := forall₂_mem_right (M.mapList_ok h3) hkv
      obtain ⟨b, u3, -, g2⟩ := M.bind_eq_ok.1 hg
      have e1 : x.1 = kv.1 := by cases g2; rfl
      have e2 : kv.1 = "mechs" := congrArg Prod.fst he
      exact absurd (List.mem_map.2 ⟨x, hxm, e1.trans e2⟩) hm.own
  · rfl

/-- **C34**, readings: with no conditional model and neutral value 0, the rows of a measurement
of `n` devices show what the instrument of the parameter reads from the current values of its first `n`
devices in the state left by the preceding steps; these are the initial values plus the sums of the
mechanism values. -/
theorem C34_reading_partial [UnitLaws V] [LawfulRng W V] {ord : SetOrder} {dev : DeviceMdl W V}
    {env : PhysTestEnv V}
    (hnd : dev.prms.Nodup) (hm : ∀ p d, dev.prms.get? p = some (.deg d) → d.mechs.Nodup)
    (hs : ∀ p d, dev.prms.get? p = some (.deg d) → DegShapes d) {test : TestSpec V}
    {r : SimReport V} {w w' : W} (h : simulate ord test dev env none w = (.ok r, w'))
    {pre post : List (Step V)} {step : MeasSpec V} (ht : test.steps = pre ++ .meas step :: post)
    (hnm : step.measurements.Nodup) {prm : String} {n : Nat} (hp : (prm, n) ∈ step.measurements)
    {m : DegPrmMdl W V} (hd : dev.prms.get? prm = some (.deg m)) (hz : NeutralZero m)
    (hc : m.condUnitary = PyArith.ofRat 0) (hn : PlainDef m) :
    ∃ s0 r0 s r1 cur k ys, ∃ w0 w1 u2 u3 : W, simStart dev test none w = (.ok (s0, r0), w0) ∧
      runSteps ord dev env 0 pre (s0, r0) w0 = (.ok (s, r1), w1) ∧
      s.currPrm.get? prm = some (.arr cur) ∧ n ≤ k ∧ SumsUp m s test.numLots test.numChps k prm ∧
      (instrumentOf env prm).measureVals
        ((expectedRows test.numLots test.numChps n cur.at' prm s.elapsed pre.length).map (·.measured))
        u2 = (.ok ys, u3) ∧
      rowsAt r.measurements pre.length prm = List.zipWith (fun x y => { x with measured := y })
        (expectedRows test.numLots test.numChps n cur.at' prm s.elapsed pre.length) ys := by
  obtain ⟨s0, r0, s, r1, conds, t, ys, w0, w1, w2, u1, u2, u3, h1, h2, h3, h4, h5, h6, h7⟩ :=
    C57_instrument h ht hnm hp
  obtain ⟨g1, g2, g3, -, g5⟩ := simStart_shape hnd hs h1
  obtain ⟨g6, g7⟩ := runSteps_shape hnd hm hs (sr := (s0, r0)) (sr' := (s, r1)) g1 h2
  simp only at g6 g7
  obtain ⟨k, lat, b1, b2, -⟩ := g6.count prm _ hd
  rw [g7] at b1
  have hle : n ≤ k := by
    cases hb : (calcSamplesNeeded test.steps).get? prm with
    | none =>
      refine absurd ⟨step, ?_, hp⟩ (((C08_max test.steps prm).2.1 hb) n)
      rw [ht]; simp
    | some j =>
      obtain ⟨k', hk', hkk⟩ := g5.keeps hb
      rw [show r0.devCounts.get? prm = some k from b1] at hk'
      cases hk'
      refine Nat.le_trans (((C08_max test.steps prm).1 j |>.1 hb).2 n ⟨step, ?_, hp⟩) hkk
      rw [ht]; simp
  have e1 : r0.info.numLots = test.numLots := g2
  have e2 : r0.info.numChps = test.numChps := g3
  have hplain : ∀ lat, s0.latents.get? prm = some lat → PlainNames m lat := by
    intro lat hlat
    obtain ⟨x, w3, a1, a2⟩ := M.bind_eq_ok.1 h1
    obtain ⟨s1, w4, a3, a4⟩ := M.bind_eq_ok.1 a1
    cases a4
    cases a2
    obtain ⟨s2, w5, a5, a6⟩ := M.bind_eq_ok.1 a3
    cases a6
    obtain ⟨_, lat', _, c2, ⟨v1, v2, c3⟩, _⟩ := (devInit_ok hnd a5).2.2.2.1 prm _ hd
    have e : lat = lat' := Option.some.inj (hlat.symm.trans c2)
    rw [e]
    exact plain_generated hn c3
  have hlat : s.latents = s0.latents := by
    obtain ⟨rows, lines, a1, -⟩ := runSteps_ok.1 h2
    refine runDelta_inv (P := fun s => s.latents = s0.latents) a1 rfl ?_
    rintro st - i s1 s2 rows lines v1 v2 hP hst
    obtain ⟨_, _, _, _, _, _, a2, _, _, rfl, _⟩ := strsDelta_ok hst
    exact (stress_frame a2).2.2.2.trans hP
  have hsum := C34_run_partial hnd hm hs g1 h2 hd hz.sum hplain b1
    (C34_start hnd hs h1 hd hz hc b1)
  obtain ⟨ia, cur, mv, k1, k2, k3, k4, k5⟩ := id hsum
  have h5' := h5
  unfold measureTrue at h5'
  rw [k3, hd] at h5'
  simp only at h5'
  obtain ⟨cs, c1, h8⟩ := M.getE_bind_ok.1 h5'
  obtain ⟨lat', c2, h9⟩ := M.getE_bind_ok.1 h8
  obtain ⟨v, w3, h10, -⟩ := M.bind_eq_ok.1 h9
  unfold DegPrmMdl.calcCondShifted at h10
  obtain ⟨clat, c3, -⟩ := M.ofExcept_bind_ok.1 h10
  have hcl : ∃ clat, subLatents lat' "cond" = .ok clat := by
    unfold subLatents at c3 ⊢
    split at c3
    · rename_i d hd
      split at hd
      · rw [reduceLatents_get?] at hd
        cases hg : lat'.get? "cond" with
        | none => rw [hg] at hd; cases hd
        | some x =>
          cases x with
          | arr a => rw [hg] at hd; cases hd
          | sub e => exact ⟨e, rfl⟩
      · rw [hd]; exact ⟨d, rfl⟩
    · cases c3
    · cases c3
  obtain ⟨clat', hcl⟩ := hcl
  have htrue := measureTrue_default hz (q := r.info) (step := step) (i := pre.length) (n := n)
    (hplain lat' (hlat ▸ c2)) hd k3
    (by rw [h3]; exact ⟨k4.1, k4.2.1⟩) (by rw [k4.2.2]; exact hle) c1 c2 hcl u1
  rw [h3, e1, e2] at htrue
  rw [h3, htrue] at h5
  cases h5
  rw [e1, e2] at hsum
  exact ⟨s0, r0, s, r1, cur, k, ys, w0, w1, _, u3, h1, h2, k3, hle, hsum, h6, h7⟩

/-! ## Every row -/

theorem mem_zipWith {α β γ : Type} {f : α → β → γ} {as : List α} {bs : List β} {x : γ}
    (h : x ∈ List.zipWith f as bs) : ∃ a ∈ as, ∃ b ∈ bs, x = f a b := by
  induction as generalizing bs with
  | nil => simp at h
  | cons a as ih =>
    cases bs with
    | nil => simp at h
    | cons b bs =>
      rw [List.zipWith_cons_cons] at h
      rcases List.mem_cons.1 h with rfl | h
      · exact ⟨a, List.mem_cons_self, b, List.mem_cons_self, rfl⟩
      · obtain ⟨a', ha, b', hb, e⟩ := ih h
        exact ⟨a', List.mem_cons_of_mem _ ha, b', List.mem_cons_of_mem _ hb, e⟩

theorem measLoop_mem {q : Quantities} {dev : DeviceMdl W V} {env : PhysTestEnv V}
    {step : MeasSpec V} {i : Nat} {s : SimState V} {conds : Dict (Dict (Arr3 V))} {ms : Dict Nat}
    {acc rows : List (MeasRow V)} {w w' : W}
    (h : M.forIn' (measurePrm q dev env step i s conds) ms acc w = (.ok rows, w')) :
    ∀ x ∈ rows, x ∈ acc ∨ ∃ (xs ys : List V) (u u' : W),
      (instrumentOf env x.prm).measureVals xs u = (.ok ys, u') ∧ x.measured ∈ ys := by
  refine M.forIn'_ok_inv (P := fun _ rows _ => ∀ x ∈ rows, x ∈ acc ∨ ∃ (xs ys : List V) (u u' : W),
      (instrumentOf env x.prm).measureVals xs u = (.ok ys, u') ∧ x.measured ∈ ys) h
      (fun x hx => .inl hx) ?_
  rintro pr kv post a u b u' - hP hstep x hx
  obtain ⟨t, ins, ys, w2, ht, hi, hy, rfl⟩ := measurePrm_ok hstep
  rcases List.mem_append.1 hx with hx | hx
  · exact hP x hx
  · right
    obtain ⟨z, hz, y, hyy, rfl⟩ := mem_zipWith hx
    have e : z.prm = kv.1 := (measureTrue_step ht z hz).2.1
    refine ⟨t.map (·.measured), ys, w2, u', ?_, hyy⟩
    show (instrumentOf env z.prm).measureVals _ _ = _
    rw [e, ← measInstm_eq hi]
    exact hy

/-- Every measured value of a report is one of the readings that the instrument of its parameter took. -/
theorem report_reading {ord : SetOrder} {dev : DeviceMdl W V} {env : PhysTestEnv V}
    {test : TestSpec V} {init : Option (SimState V)} {r : SimReport V} {w w' : W}
    (h : simulate ord test dev env init w = (.ok r, w')) :
    ∀ x ∈ r.measurements, ∃ (xs ys : List V) (u u' : W),
      (instrumentOf env x.prm).measureVals xs u = (.ok ys, u') ∧ x.measured ∈ ys := by
  obtain ⟨⟨sf, rf⟩, w1, h1, h2⟩ := M.bind_eq_ok.1 h
  cases h2
  obtain ⟨⟨s0, r0⟩, w2, h3, h4⟩ := M.bind_eq_ok.1 h1
  have g4 : r0.measurements = [] := by
    cases init with
    | none =>
      obtain ⟨x, w1, h1, h2⟩ := M.bind_eq_ok.1 h3
      obtain ⟨q, -, h2⟩ := M.ofExcept_bind_ok.1 h2
      cases h2
      rfl
    | some s => cases h3; rfl
  refine M.forIn'_ok_inv (P := fun _ x _ => ∀ y ∈ x.2.measurements, ∃ (xs ys : List V) (u u' : W),
    (instrumentOf env y.prm).measureVals xs u = (.ok ys, u') ∧ y.measured ∈ ys) h4
    (fun y hy => by simp only [g4] at hy; cases hy) ?_
  rintro pre ⟨j, st⟩ post ⟨s1, r1⟩ v1 ⟨s2, r2⟩ v2 - hP hf
  cases st with
  | strs st =>
    obtain ⟨_, _, _, _, _, _, _, _, _, _, rfl⟩ := simStress_ok (show simStress .. = _ from hf)
    exact hP
  | meas st =>
    obtain ⟨conds, rows, _, _, a2, _, rfl⟩ := simMeas_ok (show simMeas .. = _ from hf)
    intro y hy
    rcases List.mem_append.1 (show y ∈ r1.measurements ++ rows from hy) with hy | hy
    · exact hP y hy
    · rcases measLoop_mem a2 y hy with h | h
      · cases h
      · exact h
  | other t => cases hf; exact hP

section ext
variable {K : Type} [Field K] [LinearOrder K] [IsStrictOrderedRing K] [FloorRing K] [Pow10 K]

omit [IsStrictOrderedRing K] in
/-- **C57**, ranges: every number in a report lies within the limits of the instrument of its parameter. -/
theorem C57_in_range [Rng W (Ext K)] {ord : SetOrder} {dev : DeviceMdl W (Ext K)}
    {env : PhysTestEnv (Ext K)} {test : TestSpec (Ext K)} {init : Option (SimState (Ext K))}
    {r : SimReport (Ext K)} {w w' : W} (h : simulate ord test dev env init w = (.ok r, w'))
    {x : MeasRow (Ext K)} (hx : x ∈ r.measurements) {ins : Instrument (Ext K)}
    (hins : env.instms.get? x.prm = some ins) {lo hi : Ext K} (hr : ins.range = some (lo, hi))
    (hle : PyArith.le lo hi = true) (hnan : x.measured ≠ .nan) : Within lo hi x.measured := by
  obtain ⟨xs, ys, u, u', h1, h2⟩ := report_reading h x hx
  have e : instrumentOf env x.prm = ins := by unfold instrumentOf; rw [hins]
  rw [e] at h1
  exact C20_in_range ins hr hle (c := .series) (c' := .series) (measure_ok.2 ⟨rfl, h1⟩) _ h2 hnan

/-- **C57**, precision: every value in a report has the significant figures of the instrument of its
parameter, if this has no range. -/
theorem C57_precision [Rng W (Ext K)] {ord : SetOrder} {dev : DeviceMdl W (Ext K)}
    {env : PhysTestEnv (Ext K)} {test : TestSpec (Ext K)} {init : Option (SimState (Ext K))}
    {r : SimReport (Ext K)} {w w' : W} (h : simulate ord test dev env init w = (.ok r, w'))
    {x : MeasRow (Ext K)} (hx : x ∈ r.measurements) {ins : Instrument (Ext K)}
    (hins : env.instms.get? x.prm = some ins) {p : Int} (hp : 1 ≤ p) (hpr : ins.precision = some p)
    (hr : ins.range = none) : ∃ y, SigReading p y x.measured := by
  obtain ⟨xs, ys, u, u', h1, h2⟩ := report_reading h x hx
  have e : instrumentOf env x.prm = ins := by unfold instrumentOf; rw [hins]
  rw [e] at h1
  obtain ⟨noisy, -, h3⟩ := C22_sound ins hp hpr hr (c := .series) (c' := .series)
    (measure_ok.2 ⟨rfl, h1⟩)
  obtain ⟨y, -, hy⟩ := forall₂_mem_right h3 h2
  exact ⟨y, hy⟩

end ext

/-! ## Examples -/

open Ex in
/-- An instrument that ends at 6 for "vth", one with one significant figure for "delay". -/
def meters : PhysTestEnv Q :=
  ⟨[], [("vth", { precision := none, range := some (.fin 0, .fin 6), error := none }),
    ("delay", { precision := some 1, range := none, error := none })]⟩

open Ex in
/-- The true values are 8 and 16; the report shows 6 and 20. The theorems apply. -/
example : ∃ r, (simulate orderA twoSteps dev meters none Counts.start).1 = .ok r ∧
    r.measurements.map (fun x => (x.prm, x.measured)) = [("vth", .fin 6), ("delay", .fin 20)] ∧
    (∀ x ∈ r.measurements, x.prm = "vth" → Within (.fin 0) (.fin 6) x.measured) ∧
    (∀ x ∈ r.measurements, x.prm = "delay" → ∃ y, SigReading 1 y x.measured) ∧
    ∃ (s : SimState Q) (cur : Arr3 Q) (k : Nat), s.currPrm.get? "vth" = some (.arr cur) ∧ 1 ≤ k ∧
      SumsUp (degPrm [("burn", burn)] (.fin 3)) s 1 1 k "vth" ∧
      ∃ (ys : List Q) (u u' : Counts), (instrumentOf meters "vth").measureVals
          ((expectedRows 1 1 1 cur.at' "vth" s.elapsed 1).map (·.measured)) u = (.ok ys, u') ∧
        rowsAt r.measurements 1 "vth" = List.zipWith (fun x y => { x with measured := y })
          (expectedRows 1 1 1 cur.at' "vth" s.elapsed 1) ys := by
  obtain ⟨r, h, hr⟩ : ∃ r, (simulate orderA twoSteps dev meters none Counts.start).1 = .ok r ∧
      decide (r.measurements.map (fun x => (x.prm, x.measured)) =
        [("vth", .fin 6), ("delay", .fin 20)]) = true :=
    exists_ok (by decide +kernel)
  have hr := of_decide_eq_true hr
  have hsim : simulate orderA twoSteps dev meters none Counts.start = (.ok r, _) := Prod.ext h rfl
  have hval : ∀ x ∈ r.measurements, x.measured = .fin 6 ∨ x.measured = .fin 20 := by
    intro x hx
    have := List.mem_map_of_mem (f := fun x : MeasRow Q => (x.prm, x.measured)) hx
    rw [hr] at this
    simp only [List.mem_cons, Prod.mk.injEq, List.not_mem_nil, or_false] at this
    exact this.imp (·.2) (·.2)
  refine ⟨r, h, hr, ?_, ?_, ?_⟩
  · intro x hx hp
    refine C57_in_range hsim hx (ins := { precision := none, range := some (.fin 0, .fin 6), error := none })
      (by rw [hp]; rfl) rfl (by decide +kernel) ?_
    rcases hval x hx with h | h <;> rw [h] <;> exact fun h => by cases h
  · intro x hx hp
    exact C57_precision hsim hx (ins := { precision := some 1, range := none, error := none })
      (by rw [hp]; rfl) (by decide) rfl rfl
  · have hz : NeutralZero (degPrm [("burn", burn)] (.fin 3)) := by
      refine ⟨rfl, rfl, fun kv hkv => ?_⟩
      cases List.mem_singleton.1 hkv
      rfl
    obtain ⟨s0, r0, s, r1, cur, k, ys, w0, w1, u2, u3, h1, h2, h3, h4, h5, h6, h7⟩ :=
      C34_reading_partial (by decide) ex_mechs ex_shapes hsim
        (pre := twoSteps.steps.take 1) (post := twoSteps.steps.drop 2) rfl (by decide)
        (prm := "vth") (n := 1) (by decide) rfl hz rfl ⟨by decide, by decide, by decide, by decide⟩
    exact ⟨s, cur, k, h3, h4, h5, ys, u2, u3, h6, h7⟩

end Gerabaldi.Props
