import Verif.Lemmas.Degrade
import Verif.Props.Minimize
import Verif.Props.Fail

/-!
# C30, C31 and C33: the degradation of one sample in a stress step
-/

namespace Gerabaldi.Props

open Gerabaldi Gerabaldi.Spec

section general
variable {W V : Type} [PyNum V] [Rng W V]

/-- One mechanism of a stress step: search, then added duration, then the new values. -/
theorem stressed_mech {ord : SetOrder} {dev : DeviceMdl W V} {env : PhysTestEnv V} {st : StrsSpec V}
    {i : Nat} {s s' : SimState V} {r : SimReport V} {w : W} {prm mech : String} {k : MechMdl W V}
    {pre : Arr3 V} {cs lat : Dict (Arr3 V)} {n : Nat}
    (h : StressedMech ord dev env st i s r w s' prm mech k pre cs lat n) :
    ∃ t0 x v w1 w2 w3 w4,
      k.calcEquiv pre cs lat r.info.numLots r.info.numChps n w1 = (.ok t0, w2) ∧
      convertTime st.duration k.timeUnit = .ok (.num x) ∧
      k.calcDegVals (t0.map fun t => PyArith.add t (PyArith.ofRat x)) pre cs lat r.info.numLots
        r.info.numChps n w3 = (.ok v, w4) ∧ mechVal s' prm mech = some v := by
  obtain ⟨⟨r', w', hrun⟩, hd, ⟨m, hm, hn, hk⟩, ⟨conds, w1, hgen, hin⟩, -⟩ := h
  obtain ⟨conds', s1, e, t, w1', hgen', hl, -, -, rfl, -⟩ := simStress_ok hrun
  rw [hgen] at hgen'
  cases hgen'
  have hmem : (prm, m) ∈ dev.degPrms := by
    unfold DeviceMdl.degPrms
    exact List.mem_filterMap.2 ⟨_, Dict.mem_of_get? hm, rfl⟩
  have hkeys : (dev.degPrms.map (·.1)).Nodup := by
    have hsub : (dev.degPrms.map (·.1)).Sublist dev.prms.keys := by
      unfold DeviceMdl.degPrms Dict.keys
      generalize dev.prms = l
      induction l with
      | nil => exact .slnil
      | cons a l ih =>
        obtain ⟨p, x⟩ := a
        cases x with
        | circ c => exact .cons _ ih
        | deg d => exact .cons_cons _ ih
    exact hsub.nodup hd
  have key := M.forIn'_ok_inv (P := fun pr s1 _ =>
    ((∀ kv ∈ pr, kv.1 ≠ prm) ∧ MechInputs r.info conds s1 prm mech pre cs lat n) ∨
    ((∃ kv ∈ pr, kv.1 = prm) ∧ ∃ s2 s3 w2 w3, MechInputs r.info conds s2 prm mech pre cs lat n ∧
      stressPrm r.info st.duration conds s2 (prm, m) w2 = (.ok s3, w3) ∧
      mechVal s1 prm mech = mechVal s3 prm mech)) hl
    (.inl ⟨fun _ hx => absurd hx List.not_mem_nil, hin⟩) ?_
  · rcases key with ⟨hno, -⟩ | ⟨-, s2, s3, w2, w3, hin2, hs, he⟩
    · exact absurd rfl (hno _ hmem)
    · obtain ⟨t0, x, v, u1, u2, u3, u4, a1, a2, a3, a4⟩ := stressPrm_mech hn hk hin2 hs
      exact ⟨t0, x, v, u1, u2, u3, u4, a1, a2, a3, he.trans a4⟩
  · rintro pr kv post s4 w4 s5 w5 hsplit hP hx
    by_cases hkv : kv.1 = prm
    · have hmem' : kv ∈ dev.degPrms := by rw [hsplit]; simp
      rw [mem_degPrms hd hm hmem' hkv] at hx
      rcases hP with ⟨-, hin4⟩ | ⟨⟨kv', hkv', he'⟩, -⟩
      · exact .inr ⟨⟨kv, by simp, hkv⟩, s4, s5, w4, w5, hin4, hx, rfl⟩
      · exfalso
        rw [hsplit, List.map_append, List.nodup_append] at hkeys
        exact hkeys.2.2 _ (List.mem_map_of_mem hkv') _ (List.mem_map_of_mem List.mem_cons_self)
          (he'.trans hkv.symm)
    · have hmv := stressPrm_other (mech := mech) hkv hx
      rcases hP with ⟨hno, hin4⟩ | ⟨⟨kv', hkv', he'⟩, s2, s3, w2, w3, b1, b2, b3⟩
      · refine .inl ⟨?_, ?_⟩
        · intro kv' hkv'
          rcases List.mem_append.1 hkv' with h1 | h1
          · exact hno _ h1
          · rw [List.mem_singleton.1 h1]; exact hkv
        · have hlat : s5.latents = s4.latents := by
            obtain ⟨_, _, _, _, _, _, _, _, _, _, _, _, -, -, -, -, -, -, -, -, -, -, rfl⟩ :=
              stressPrm_ok hx
            rfl
          exact ⟨hmv.trans hin4.preIs, hin4.countIs, hin4.condsIs, by rw [hlat]; exact hin4.latIs⟩
      · exact .inr ⟨⟨kv', List.mem_append_left _ hkv', he'⟩, s2, s3, w2, w3, b1, b2, hmv.trans b3⟩

/-- The new value of a sample of a `DegMechMdl`, given the equivalent time the search returned. -/
theorem stressed_deg [InfLaw V] {ord : SetOrder} {dev : DeviceMdl W V} {env : PhysTestEnv V}
    {st : StrsSpec V} {i : Nat} {s s' : SimState V} {r : SimReport V} {w : W} {prm mech : String}
    {k : MechMdl W V} {pre : Arr3 V} {cs lat : Dict (Arr3 V)} {n : Nat}
    (h : StressedMech ord dev env st i s r w s' prm mech k pre cs lat n) (hkind : k.kind = .deg)
    {g : Dict (PyVal V) → V} (hs : SampleWise k g cs lat r.info.numLots r.info.numChps n) :
    ∃ t0 x v w1 w2,
      k.calcEquivSearch pre cs lat r.info.numLots r.info.numChps n w1 = (.ok t0, w2) ∧
      t0.HasDims r.info.numLots r.info.numChps n ∧
      convertTime st.duration k.timeUnit = .ok (.num x) ∧ mechVal s' prm mech = some v ∧
      v.HasDims r.info.numLots r.info.numChps n ∧
      ∀ l < r.info.numLots, ∀ c < r.info.numChps, ∀ d < n, v.at' l c d =
        if PyArith.lt (PyArith.ofRat 9000000000) (PyArith.add (t0.at' l c d) (PyArith.ofRat x)) = true ∧
            PyArith.eq (pre.at' l c d) PyNum.inf = false then pre.at' l c d
        else curve k g cs lat r.info.numLots r.info.numChps n l c d
          (PyArith.add (t0.at' l c d) (PyArith.ofRat x)) := by
  obtain ⟨t0, x, v, w1, w2, w3, w4, h1, h2, h3, h4⟩ := stressed_mech h
  have h1' : k.calcEquivSearch pre cs lat r.info.numLots r.info.numChps n w1 = (.ok t0, w2) := by
    unfold MechMdl.calcEquiv at h1
    rw [hkind] at h1
    exact h1
  have hdims : t0.HasDims r.info.numLots r.info.numChps n := by
    unfold MechMdl.calcEquivSearch at h1'
    obtain ⟨ts, u, -, hr⟩ := M.bind_eq_ok.1 h1'
    obtain ⟨e1, e2, e3, -⟩ := Arr3.reshape_eq_ok.1 (M.ofExcept_eq_ok.1 hr).1
    obtain ⟨d1, d2, d3⟩ := h.dims
    exact ⟨e1.trans d1, e2.trans d2, e3.trans d3⟩
  have hmap : (t0.map fun t => PyArith.add t (PyArith.ofRat x)).HasDims r.info.numLots r.info.numChps n :=
    hdims
  obtain ⟨v', e1, e2, e3⟩ := calcDegBase_sample hs hmap h.dims w3
  rw [calcDegVals_other (by rw [hkind]; exact nofun), e1] at h3
  cases h3
  refine ⟨t0, x, v, w1, w2, h1', hdims, h2, h4, e2, fun l hl c hc d hd => ?_⟩
  rw [e3 l hl c hc d hd, Arr3.at_map _ _ (by rw [hdims.1]; exact hl) (by rw [hdims.2.1]; exact hc)
    (by rw [hdims.2.2]; exact hd)]

/-- The new value of a sample of a `FailMechMdl`. -/
theorem stressed_fail [InfLaw V] [UnitLaws V] {ord : SetOrder} {dev : DeviceMdl W V}
    {env : PhysTestEnv V} {st : StrsSpec V} {i : Nat} {s s' : SimState V} {r : SimReport V} {w : W}
    {prm mech : String} {k : MechMdl W V} {pre : Arr3 V} {cs lat : Dict (Arr3 V)} {n : Nat}
    (h : StressedMech ord dev env st i s r w s' prm mech k pre cs lat n) (hkind : k.kind = .fail)
    {g : Dict (PyVal V) → V} (hs : SampleWise k g cs lat r.info.numLots r.info.numChps n) :
    ∃ x v, convertTime st.duration k.timeUnit = .ok (.num x) ∧ mechVal s' prm mech = some v ∧
      v.HasDims r.info.numLots r.info.numChps n ∧
      ∀ l < r.info.numLots, ∀ c < r.info.numChps, ∀ d < n, v.at' l c d =
        if PyArith.eq (pre.at' l c d) k.unitary = false ∨
            (PyArith.lt (PyArith.ofRat 9000000000) (PyArith.ofRat x : V) = true ∧
              PyArith.eq (pre.at' l c d) PyNum.inf = false) then pre.at' l c d
        else curve k g cs lat r.info.numLots r.info.numChps n l c d (PyArith.ofRat x) := by
  obtain ⟨t0, x, v, w1, w2, w3, w4, h1, h2, h3, h4⟩ := stressed_mech h
  have ht0 : t0 = pre.map fun _ => PyArith.ofRat 0 := by
    unfold MechMdl.calcEquiv at h1
    rw [hkind] at h1
    cases h1
    rfl
  subst ht0
  have hmap : ((pre.map fun _ => (PyArith.ofRat 0 : V)).map fun t =>
      PyArith.add t (PyArith.ofRat x)).HasDims r.info.numLots r.info.numChps n := h.dims
  obtain ⟨v', e1, e2, e3⟩ := calcDegBase_sample hs hmap h.dims w3
  rw [calcDegVals_fail hkind, M.bind_ok e1, Arr3.bcast2_same _ _ _ h.dims e2] at h3
  cases h3
  refine ⟨x, _, h2, h4, Arr3.ofFn_hasDims _ _ _ _, fun l hl c hc d hd => ?_⟩
  have hb1 : l < pre.nl := by rw [h.dims.1]; exact hl
  have hb2 : c < pre.nc := by rw [h.dims.2.1]; exact hc
  have hb3 : d < pre.nd := by rw [h.dims.2.2]; exact hd
  have htime : ((pre.map fun _ => (PyArith.ofRat 0 : V)).map fun t =>
      PyArith.add t (PyArith.ofRat x)).at' l c d = PyArith.ofRat x := by
    rw [Arr3.at_map _ _ (by exact hb1) (by exact hb2) (by exact hb3), Arr3.at_map _ _ hb1 hb2 hb3,
      UnitLaws.zero_add]
  rw [Arr3.at_ofFn _ hl hc hd, e3 l hl c hc d hd, htime]
  cases PyArith.eq (pre.at' l c d) k.unitary with
  | false => simp
  | true => simp

/-- **C31** for failure mechanisms: an unfailed sample gets exactly the curve's value at the duration (in
the mechanism's unit, up to 9e9 units). -/
theorem C31_fail_partial [InfLaw V] [UnitLaws V] {ord : SetOrder} {dev : DeviceMdl W V}
    {env : PhysTestEnv V} {st : StrsSpec V} {i : Nat} {s s' : SimState V} {r : SimReport V} {w : W}
    {prm mech : String} {k : MechMdl W V} {pre : Arr3 V} {cs lat : Dict (Arr3 V)} {n : Nat}
    (h : StressedMech ord dev env st i s r w s' prm mech k pre cs lat n) (hkind : k.kind = .fail)
    {g : Dict (PyVal V) → V} (hs : SampleWise k g cs lat r.info.numLots r.info.numChps n)
    {x : ℚ} (hdur : convertTime st.duration k.timeUnit = .ok (.num x))
    (hx : PyArith.lt (PyArith.ofRat 9000000000) (PyArith.ofRat x : V) = false)
    {l c d : Nat} (hl : l < r.info.numLots) (hc : c < r.info.numChps) (hd : d < n)
    (hy : PyArith.eq (pre.at' l c d) k.unitary = true) :
    ∃ v, mechVal s' prm mech = some v ∧
      v.at' l c d = curve k g cs lat r.info.numLots r.info.numChps n l c d (PyArith.ofRat x) := by
  obtain ⟨x', v, h1, h2, -, h4⟩ := stressed_fail h hkind hs
  rw [hdur] at h1
  cases h1
  refine ⟨v, h2, ?_⟩
  rw [h4 l hl c hc d hd, hy, hx]
  simp

/-! ## C33 -/

/-- C33 for failure mechanisms, up to the limit of 9e9: two mechanisms in different time units whose curves
for the sample agree at the same physical times give an unfailed sample the same value after the same
duration, provided the duration is at most 9e9 in both units. Missing: longer durations
(`C33_fail_violated`) and the other mechanism classes (`C33_deg_partial`). -/
theorem C33_fail_partial [InfLaw V] [UnitLaws V] {ord ord' : SetOrder} {dev dev' : DeviceMdl W V}
    {env env' : PhysTestEnv V} {st st' : StrsSpec V} {i i' : Nat} {s s₁ s' s₁' : SimState V}
    {r r' : SimReport V} {w w' : W} {prm mech prm' mech' : String} {k k' : MechMdl W V}
    {pre pre' : Arr3 V} {cs lat cs' lat' : Dict (Arr3 V)} {n n' : Nat}
    (h : StressedMech ord dev env st i s r w s₁ prm mech k pre cs lat n)
    (h' : StressedMech ord' dev' env' st' i' s' r' w' s₁' prm' mech' k' pre' cs' lat' n')
    (hkind : k.kind = .fail) (hkind' : k'.kind = .fail)
    {g g' : Dict (PyVal V) → V} (hs : SampleWise k g cs lat r.info.numLots r.info.numChps n)
    (hs' : SampleWise k' g' cs' lat' r'.info.numLots r'.info.numChps n')
    (hdur : st'.duration = st.duration) {x x' : ℚ}
    (hx : convertTime st.duration k.timeUnit = .ok (.num x))
    (hx' : convertTime st.duration k'.timeUnit = .ok (.num x'))
    (hlim : PyArith.lt (PyArith.ofRat 9000000000) (PyArith.ofRat x : V) = false)
    (hlim' : PyArith.lt (PyArith.ofRat 9000000000) (PyArith.ofRat x' : V) = false)
    {l c d l' c' d' : Nat} (hl : l < r.info.numLots) (hc : c < r.info.numChps) (hd : d < n)
    (hl' : l' < r'.info.numLots) (hc' : c' < r'.info.numChps) (hd' : d' < n')
    (hy : PyArith.eq (pre.at' l c d) k.unitary = true)
    (hy' : PyArith.eq (pre'.at' l' c' d') k'.unitary = true)
    (hsame : ∀ us y y', convertTime (.td us) k.timeUnit = .ok (.num y) →
      convertTime (.td us) k'.timeUnit = .ok (.num y') →
      curve k g cs lat r.info.numLots r.info.numChps n l c d (PyArith.ofRat y) =
        curve k' g' cs' lat' r'.info.numLots r'.info.numChps n' l' c' d' (PyArith.ofRat y')) :
    ∃ v v', mechVal s₁ prm mech = some v ∧ mechVal s₁' prm' mech' = some v' ∧
      v.at' l c d = v'.at' l' c' d' := by
  obtain ⟨v, h1, h2⟩ := C31_fail_partial h hkind hs hx hlim hl hc hd hy
  obtain ⟨v', h3, h4⟩ := C31_fail_partial h' hkind' hs' (by rw [hdur]; exact hx') hlim' hl' hc' hd' hy'
  refine ⟨v, v', h1, h3, ?_⟩
  rw [h2, h4]
  cases hst : st.duration with
  | td us => rw [hst] at hx hx'; exact hsame us x x' hx hx'
  | pdtd us => rw [hst] at hx hx'; exact hsame us x x' hx hx'
  | num q =>
    rw [hst] at hx
    unfold convertTime at hx
    cases hu : timeUnitMap k.timeUnit with
    | none => rw [hu] at hx; cases hx
    | some u =>
      rw [hu] at hx
      simp only at hx
      cases ht : tdOfNum u q <;> rw [ht] at hx <;> cases hx

/-- C33 is violated: in a unit in which the duration exceeds 9e9, a failure mechanism's finite sample keeps its
value whatever its equation says. -/
theorem C33_fail_violated [InfLaw V] [UnitLaws V] {ord : SetOrder} {dev : DeviceMdl W V}
    {env : PhysTestEnv V} {st : StrsSpec V} {i : Nat} {s s' : SimState V} {r : SimReport V} {w : W}
    {prm mech : String} {k : MechMdl W V} {pre : Arr3 V} {cs lat : Dict (Arr3 V)} {n : Nat}
    (h : StressedMech ord dev env st i s r w s' prm mech k pre cs lat n) (hkind : k.kind = .fail)
    {g : Dict (PyVal V) → V} (hs : SampleWise k g cs lat r.info.numLots r.info.numChps n)
    {x : ℚ} (hdur : convertTime st.duration k.timeUnit = .ok (.num x))
    (hx : PyArith.lt (PyArith.ofRat 9000000000) (PyArith.ofRat x : V) = true)
    {l c d : Nat} (hl : l < r.info.numLots) (hc : c < r.info.numChps) (hd : d < n)
    (hfin : PyArith.eq (pre.at' l c d) PyNum.inf = false) :
    ∃ v, mechVal s' prm mech = some v ∧ v.at' l c d = pre.at' l c d := by
  obtain ⟨x', v, h1, h2, -, h4⟩ := stressed_fail h hkind hs
  rw [hdur] at h1
  cases h1
  refine ⟨v, h2, ?_⟩
  rw [h4 l hl c hc d hd, hx, hfin]
  simp

end general

/-! ## The search for one sample, over the extended reals -/

section real
variable {W : Type}

attribute [local instance] fieldArith in
/-- The search as seen by one sample with a finite curve. -/
theorem search_sample_work {m : MechMdl W (Ext ℝ)} {g : Dict (PyVal (Ext ℝ)) → Ext ℝ}
    {conds lat : Dict (Arr3 (Ext ℝ))} {L C D : Nat} (hs : SampleWise m g conds lat L C D)
    {cur : Arr3 (Ext ℝ)} (hcur : cur.HasDims L C D)
    {l c d : Nat} (hl : l < L) (hc : c < C) (hd : d < D) {y : ℝ} (hy : cur.at' l c d = .fin y)
    {f : ℝ → ℝ} (hf : ∀ t : ℝ, 0 < t → curve m g conds lat L C D l c d (.fin t) = .fin (f t))
    {t0 : Arr3 (Ext ℝ)} {w w' : W}
    (h : m.calcEquivSearch cur conds lat L C D w = (.ok t0, w')) :
    ∃ us s₁, t0.at' l c d = .fin ((10 : ℝ) ^ s₁.x) ∧ (∀ e ∈ us, e.2 = |y - f (10 ^ e.1)|) ∧
      Trace cfgR (cfgR.init |y - f (10 ^ cfgR.x0)|) us s₁ ∧
      (Converges m cur conds lat L C D → s₁.done cfgR = true) ∧
      us.length ≤ 50 ∧ (us.length < 50 → s₁.done cfgR = true) := by
  unfold MechMdl.calcEquivSearch at h
  obtain ⟨ts, w2, hmin, hr⟩ := M.bind_eq_ok.1 h
  obtain ⟨e1, e2, e3, e4⟩ := Arr3.reshape_eq_ok.1 (M.ofExcept_eq_ok.1 hr).1
  have hobs := minimize_observed (equivTimeCfg (Ext ℝ)) (m.residue cur conds lat L C D)
    cur.data.length w
  have hout := minimize_outcomes (equivTimeCfg (Ext ℝ)) (m.residue cur conds lat L C D)
    cur.data.length w
  rw [hmin] at hobs
  cases hrun : minimize (equivTimeCfg (Ext ℝ)) (logged (m.residue cur conds lat L C D))
    cur.data.length (w, []) with
  | mk r wl =>
    obtain ⟨w3, log⟩ := wl
    rw [hrun] at hobs hout
    simp only [Prod.mk.injEq] at hobs
    obtain ⟨rfl, rfl⟩ := hobs
    have hi : (l * C + c) * D + d < cur.data.length := by
      rw [cur.wf, hcur.1, hcur.2.1, hcur.2.2]
      exact Arr3.index_lt hl hc hd
    obtain ⟨-, hwork, hlen⟩ := C26_bounded_work _ _ _ _ _ _ _ hrun
    obtain ⟨us, s₁, a1, a2, a3, a4, a5⟩ := minimize_field (FinEmb.ext ℝ) cfgR_emb rfl hrun hi
      (G := fun x => PyArith.abs (PyArith.sub (cur.at' l c d) (curve m g conds lat L C D l c d x)))
      (g := fun u => |y - f (10 ^ u)|)
      (by
        intro u
        show PyArith.abs (PyArith.sub (cur.at' l c d) (curve m g conds lat L C D l c d
          (.fin ((10 : ℝ) ^ u)))) = _
        rw [hy, hf _ (Real.rpow_pos_of_pos (by norm_num) u)]
        show Ext.fin |y + -f (10 ^ u)| = Ext.fin |y - f (10 ^ u)|
        rw [sub_eq_add_neg])
      (by
        rintro j x z ⟨xs, fs, b1, b2, b3⟩
        have hmem := List.mem_of_getElem? b1
        obtain ⟨w4, hw4⟩ := hout _ hmem
        obtain ⟨ys, c1, -, c3⟩ := residue_sample hs hcur (hlen _ hmem) w4
        simp only at hw4 c1
        rw [c1] at hw4
        simp only [Except.ok.injEq] at hw4
        subst hw4
        rw [c3 l hl c hc d hd x b2] at b3
        exact (Option.some.inj b3).symm)
    replace hwork : log.length ≤ 51 := hwork
    refine ⟨us, s₁, ?_, a2, a4, fun hconv => a5 ?_, by omega, fun hu => a5 (by
      show log.length ≤ 50; omega)⟩
    · unfold Arr3.at'
      rw [e2, e3, hcur.2.1, hcur.2.2, e4, List.getD_eq_getElem?_getD, a1]
      rfl
    · have hcv := hconv w
      rw [hrun] at hcv
      show log.length ≤ 50
      simp only at hcv
      omega

attribute [local instance] fieldArith in
theorem search_sample {m : MechMdl W (Ext ℝ)} {g : Dict (PyVal (Ext ℝ)) → Ext ℝ}
    {conds lat : Dict (Arr3 (Ext ℝ))} {L C D : Nat} (hs : SampleWise m g conds lat L C D)
    {cur : Arr3 (Ext ℝ)} (hcur : cur.HasDims L C D)
    {l c d : Nat} (hl : l < L) (hc : c < C) (hd : d < D) {y : ℝ} (hy : cur.at' l c d = .fin y)
    {f : ℝ → ℝ} (hf : ∀ t : ℝ, 0 < t → curve m g conds lat L C D l c d (.fin t) = .fin (f t))
    {t0 : Arr3 (Ext ℝ)} {w w' : W}
    (h : m.calcEquivSearch cur conds lat L C D w = (.ok t0, w')) :
    ∃ us s₁, t0.at' l c d = .fin ((10 : ℝ) ^ s₁.x) ∧ (∀ e ∈ us, e.2 = |y - f (10 ^ e.1)|) ∧
      Trace cfgR (cfgR.init |y - f (10 ^ cfgR.x0)|) us s₁ ∧
      (Converges m cur conds lat L C D → s₁.done cfgR = true) := by
  obtain ⟨us, s₁, h1, h2, h3, h4, -⟩ := search_sample_work hs hcur hl hc hd hy hf h
  exact ⟨us, s₁, h1, h2, h3, h4⟩

attribute [local instance] fieldArith in
theorem tol_cfgR (s : BState ℝ) : s.tol cfgR =
    6369051672525773 / 604462909807314587353088 * |s.x| + 1 / 100000 / 3 := by
  simp only [BState.tol, fa_add, fa_mul, fa_abs, cfgR]
  norm_num

/-- The residue of a sample above (or below) a strictly monotone curve falls with time. -/
theorem residue_falls {f : ℝ → ℝ} {y : ℝ}
    (hm : (StrictMonoOn f (Set.Ioi 0) ∧ ∀ t, 0 < t → f t ≤ y) ∨
      (StrictAntiOn f (Set.Ioi 0) ∧ ∀ t, 0 < t → y ≤ f t)) (a b : ℝ) (hab : a < b) :
    |y - f (10 ^ b)| < |y - f (10 ^ a)| := by
  have hpos : ∀ u : ℝ, (0 : ℝ) < 10 ^ u := fun u => Real.rpow_pos_of_pos (by norm_num) u
  have hlt : (10 : ℝ) ^ a < 10 ^ b := Real.rpow_lt_rpow_of_exponent_lt (by norm_num) hab
  rcases hm with ⟨hm, hy⟩ | ⟨hm, hy⟩
  · have h1 : f (10 ^ a) < f (10 ^ b) := hm (hpos a) (hpos b) hlt
    rw [abs_of_nonneg (by linarith [hy _ (hpos b)]), abs_of_nonneg (by linarith [hy _ (hpos a)])]
    linarith
  · have h1 : f (10 ^ b) < f (10 ^ a) := hm (hpos a) (hpos b) hlt
    rw [abs_of_nonpos (by linarith [hy _ (hpos b)]), abs_of_nonpos (by linarith [hy _ (hpos a)])]
    linarith

/-- The residue of a sample before its curve starts grows with time. -/
theorem residue_grows {f : ℝ → ℝ} {y : ℝ}
    (hm : (StrictMonoOn f (Set.Ioi 0) ∧ ∀ t, 0 < t → y ≤ f t) ∨
      (StrictAntiOn f (Set.Ioi 0) ∧ ∀ t, 0 < t → f t ≤ y)) (a b : ℝ) (hab : a < b) :
    |y - f (10 ^ a)| < |y - f (10 ^ b)| := by
  have hpos : ∀ u : ℝ, (0 : ℝ) < 10 ^ u := fun u => Real.rpow_pos_of_pos (by norm_num) u
  have hlt : (10 : ℝ) ^ a < 10 ^ b := Real.rpow_lt_rpow_of_exponent_lt (by norm_num) hab
  rcases hm with ⟨hm, hy⟩ | ⟨hm, hy⟩
  · have h1 : f (10 ^ a) < f (10 ^ b) := hm (hpos a) (hpos b) hlt
    rw [abs_of_nonpos (by linarith [hy _ (hpos a)]), abs_of_nonpos (by linarith [hy _ (hpos b)])]
    linarith
  · have h1 : f (10 ^ b) < f (10 ^ a) := hm (hpos a) (hpos b) hlt
    rw [abs_of_nonneg (by linarith [hy _ (hpos a)]), abs_of_nonneg (by linarith [hy _ (hpos b)])]
    linarith

/-- `10 ** 9.99 > 9e9`. -/
theorem pow_past_limit {x : ℝ} (hx : 999 / 100 < x) : (9000000000 : ℝ) < 10 ^ x := by
  have h1 : (10 : ℝ) ^ (996 / 100 : ℝ) < 10 ^ x :=
    Real.rpow_lt_rpow_of_exponent_lt (by norm_num) (by linarith)
  refine lt_of_le_of_lt ?_ h1
  have h2 : ((10 : ℝ) ^ (996 / 100 : ℝ)) ^ (25 : ℕ) = 10 ^ (249 : ℕ) := by
    rw [← Real.rpow_natCast, ← Real.rpow_mul (by norm_num), ← Real.rpow_natCast (10 : ℝ)]
    norm_num
  have h3 : (9000000000 : ℝ) ^ (25 : ℕ) ≤ ((10 : ℝ) ^ (996 / 100 : ℝ)) ^ (25 : ℕ) := by
    rw [h2]; norm_num
  exact le_of_pow_le_pow_left₀ (by norm_num) (Real.rpow_nonneg (by norm_num) _) h3

/-- `10 ** -2.96 < 0.0011`. -/
theorem pow_near_zero {x : ℝ} (hx : x < -(296 / 100)) : (10 : ℝ) ^ x < 11 / 10000 := by
  have h1 : (10 : ℝ) ^ x < 10 ^ (-(296 / 100) : ℝ) :=
    Real.rpow_lt_rpow_of_exponent_lt (by norm_num) hx
  refine lt_of_lt_of_le h1 ?_
  have h2 : ((10 : ℝ) ^ (-(296 / 100) : ℝ)) ^ (25 : ℕ) = (1 / 10) ^ (74 : ℕ) := by
    rw [← Real.rpow_natCast, ← Real.rpow_mul (by norm_num)]
    rw [show (-(296 / 100) : ℝ) * ((25 : ℕ) : ℝ) = -((74 : ℕ) : ℝ) by norm_num,
      Real.rpow_neg (by norm_num), Real.rpow_natCast, one_div, inv_pow]
  have h3 : ((10 : ℝ) ^ (-(296 / 100) : ℝ)) ^ (25 : ℕ) ≤ (11 / 10000 : ℝ) ^ (25 : ℕ) := by
    rw [h2]; norm_num
  exact le_of_pow_le_pow_left₀ (by norm_num) (by norm_num) h3

theorem duration_nonneg {us : Int} (h : 0 ≤ us) {unit : Option String} {x : ℚ}
    (hx : convertTime (.td us) unit = .ok (.num x)) : 0 ≤ x := by
  unfold convertTime at hx
  cases hu : timeUnitMap unit with
  | none => rw [hu] at hx; cases hx
  | some u =>
    rw [hu] at hx
    cases hx
    have h' : (0 : ℚ) ≤ us := by exact_mod_cast h
    unfold numOfTd
    cases u <;> simp only [timeSecondFactor] <;> positivity

variable [Rng W (Ext ℝ)]

/-! ## C30 -/

/-- **C30**: if the sample's curve under the new conditions is strictly monotone and never reaches the
present degradation `y`, and the search stops by itself, the sample keeps exactly `y` through the step,
whatever the duration and whatever the other samples, mechanisms and parameters do. -/
theorem C30_unreachable_kept {ord : SetOrder} {dev : DeviceMdl W (Ext ℝ)} {env : PhysTestEnv (Ext ℝ)}
    {st : StrsSpec (Ext ℝ)} {i : Nat} {s s' : SimState (Ext ℝ)} {r : SimReport (Ext ℝ)} {w : W}
    {prm mech : String} {k : MechMdl W (Ext ℝ)} {pre : Arr3 (Ext ℝ)} {cs lat : Dict (Arr3 (Ext ℝ))}
    {n : Nat} (h : StressedMech ord dev env st i s r w s' prm mech k pre cs lat n)
    (hkind : k.kind = .deg) {g : Dict (PyVal (Ext ℝ)) → Ext ℝ}
    (hs : SampleWise k g cs lat r.info.numLots r.info.numChps n)
    (hconv : Converges k pre cs lat r.info.numLots r.info.numChps n)
    {us : Int} (hdur : st.duration = .td us) (hus : 0 ≤ us)
    {l c d : Nat} (hl : l < r.info.numLots) (hc : c < r.info.numChps) (hd : d < n)
    {y : ℝ} (hy : pre.at' l c d = .fin y) {f : ℝ → ℝ}
    (hf : ∀ t : ℝ, 0 < t →
      curve k g cs lat r.info.numLots r.info.numChps n l c d (.fin t) = .fin (f t))
    (hm : (StrictMonoOn f (Set.Ioi 0) ∧ ∀ t, 0 < t → f t < y) ∨
      (StrictAntiOn f (Set.Ioi 0) ∧ ∀ t, 0 < t → y < f t)) :
    ∃ v, mechVal s' prm mech = some v ∧ v.HasDims r.info.numLots r.info.numChps n ∧
      v.at' l c d = .fin y := by
  obtain ⟨t0, x, v, w1, w2, h1, h2, h3, h4, h5, h6⟩ := stressed_deg h hkind hs
  refine ⟨v, h4, h5, ?_⟩
  obtain ⟨us', s₁, e1, e2, e3, e4⟩ := search_sample hs h.dims hl hc hd hy hf h1
  have hm' : (StrictMonoOn f (Set.Ioi 0) ∧ ∀ t, 0 < t → f t ≤ y) ∨
      (StrictAntiOn f (Set.Ioi 0) ∧ ∀ t, 0 < t → y ≤ f t) :=
    hm.imp (And.imp_right fun h t ht => (h t ht).le) (And.imp_right fun h t ht => (h t ht).le)
  have hb := Trace.decreasing rfl cfgR_tol.1 cfgR_tol.2 (residue_falls hm') e3 e2 rfl
  replace e4 := e4 hconv
  rw [done_iff, tol_cfgR] at e4
  have hb10 : s₁.b = 10 := by
    rw [hb]; simp only [MinCfg.init, cfgR]; norm_num
  rw [hb10] at e4
  have hx : 999 / 100 < s₁.x := by
    have h7 := e4.1
    rcases le_total 0 s₁.x with h0 | h0
    · rw [abs_of_nonneg h0] at h7
      norm_num at h7
      nlinarith
    · rw [abs_of_nonpos h0] at h7
      norm_num at h7
      nlinarith
  rw [hdur] at h3
  have hxd : (0 : ℝ) ≤ x := by exact_mod_cast duration_nonneg hus h3
  rw [h6 l hl c hc d hd, e1, hy, if_pos]
  refine ⟨?_, rfl⟩
  show decide (((9000000000 : ℚ) : ℝ) < 10 ^ s₁.x + (x : ℝ)) = true
  rw [decide_eq_true_eq]
  have := pow_past_limit hx
  push_cast
  linarith

/-! ## C31 -/

attribute [local instance] fieldArith in
omit [Rng W (Ext ℝ)] in
/-- A finished search for a fresh sample ends just above the lower bound. -/
theorem fresh_end {f : ℝ → ℝ} {y : ℝ}
    (hm : (StrictMonoOn f (Set.Ioi 0) ∧ ∀ t, 0 < t → y ≤ f t) ∨
      (StrictAntiOn f (Set.Ioi 0) ∧ ∀ t, 0 < t → f t ≤ y))
    {us : List (ℝ × ℝ)} {s₁ : BState ℝ} (e2 : ∀ e ∈ us, e.2 = |y - f (10 ^ e.1)|)
    (e3 : Trace cfgR (cfgR.init |y - f (10 ^ cfgR.x0)|) us s₁) (e4 : s₁.done cfgR = true) :
    (0 : ℝ) < 10 ^ s₁.x ∧ (10 : ℝ) ^ s₁.x < 11 / 10000 := by
  have ha := Trace.increasing rfl cfgR_tol.1 cfgR_tol.2 (residue_grows hm) e3 e2 rfl
  rw [done_iff, tol_cfgR] at e4
  have ha3 : s₁.a = -3 := by
    rw [ha]; simp only [MinCfg.init, cfgR]; norm_num
  rw [ha3] at e4
  have hx : s₁.x < -(296 / 100) := by
    have h7 := e4.2
    rcases le_total 0 s₁.x with h0 | h0
    · rw [abs_of_nonneg h0] at h7
      norm_num at h7
      nlinarith
    · rw [abs_of_nonpos h0] at h7
      norm_num at h7
      nlinarith
  exact ⟨Real.rpow_pos_of_pos (by norm_num) _, pow_near_zero hx⟩

omit [Rng W (Ext ℝ)] in
/-- The search for a fresh sample ends just above the lower bound. -/
theorem fresh_search {m : MechMdl W (Ext ℝ)} {g : Dict (PyVal (Ext ℝ)) → Ext ℝ}
    {conds lat : Dict (Arr3 (Ext ℝ))} {L C D : Nat} (hs : SampleWise m g conds lat L C D)
    {cur : Arr3 (Ext ℝ)} (hcur : cur.HasDims L C D) (hconv : Converges m cur conds lat L C D)
    {l c d : Nat} (hl : l < L) (hc : c < C) (hd : d < D) {y : ℝ} (hy : cur.at' l c d = .fin y)
    {f : ℝ → ℝ} (hf : ∀ t : ℝ, 0 < t → curve m g conds lat L C D l c d (.fin t) = .fin (f t))
    (hm : (StrictMonoOn f (Set.Ioi 0) ∧ ∀ t, 0 < t → y ≤ f t) ∨
      (StrictAntiOn f (Set.Ioi 0) ∧ ∀ t, 0 < t → f t ≤ y))
    {t0 : Arr3 (Ext ℝ)} {w w' : W}
    (h : m.calcEquivSearch cur conds lat L C D w = (.ok t0, w')) :
    ∃ t : ℝ, t0.at' l c d = .fin t ∧ 0 < t ∧ t < 11 / 10000 := by
  obtain ⟨us', s₁, e1, e2, e3, e4⟩ := search_sample hs hcur hl hc hd hy hf h
  exact ⟨_, e1, fresh_end hm e2 e3 (e4 hconv)⟩

/-- A sample whose equivalent time is found just above zero. -/
theorem stressed_late {ord : SetOrder} {dev : DeviceMdl W (Ext ℝ)} {env : PhysTestEnv (Ext ℝ)}
    {st : StrsSpec (Ext ℝ)} {i : Nat} {s s' : SimState (Ext ℝ)} {r : SimReport (Ext ℝ)} {w : W}
    {prm mech : String} {k : MechMdl W (Ext ℝ)} {pre : Arr3 (Ext ℝ)} {cs lat : Dict (Arr3 (Ext ℝ))}
    {n : Nat} (h : StressedMech ord dev env st i s r w s' prm mech k pre cs lat n)
    (hkind : k.kind = .deg) {g : Dict (PyVal (Ext ℝ)) → Ext ℝ}
    (hs : SampleWise k g cs lat r.info.numLots r.info.numChps n)
    {x : ℚ} (hdur : convertTime st.duration k.timeUnit = .ok (.num x)) (hx0 : 0 ≤ x)
    (hx : x + 11 / 10000 ≤ 9000000000)
    {l c d : Nat} (hl : l < r.info.numLots) (hc : c < r.info.numChps) (hd : d < n)
    {f : ℝ → ℝ} (hf : ∀ t : ℝ, 0 < t →
      curve k g cs lat r.info.numLots r.info.numChps n l c d (.fin t) = .fin (f t))
    (hsearch : ∀ t0 w1 w2,
      k.calcEquivSearch pre cs lat r.info.numLots r.info.numChps n w1 = (.ok t0, w2) →
      ∃ t : ℝ, t0.at' l c d = .fin t ∧ 0 < t ∧ t < 11 / 10000) :
    ∃ v, ∃ t : ℝ, mechVal s' prm mech = some v ∧ 0 < t ∧ t < 11 / 10000 ∧
      v.at' l c d = .fin (f (x + t)) := by
  obtain ⟨t0, x', v, w1, w2, h1, h2, h3, h4, h5, h6⟩ := stressed_deg h hkind hs
  rw [hdur] at h3
  cases h3
  obtain ⟨t, e1, e2, e3⟩ := hsearch t0 _ _ h1
  refine ⟨v, t, h4, e2, e3, ?_⟩
  have hxd : (0 : ℝ) ≤ x := by exact_mod_cast hx0
  have hxm : (x : ℝ) + 11 / 10000 ≤ 9000000000 := by
    have := (Rat.cast_le (K := ℝ)).2 hx
    push_cast at this
    exact this
  have hadd : PyArith.add (t0.at' l c d) (PyArith.ofRat x) = Ext.fin ((x : ℝ) + t) := by
    rw [e1]
    show Ext.fin (t + (x : ℝ)) = _
    rw [add_comm]
  rw [h6 l hl c hc d hd, hadd, if_neg, hf _ (by linarith)]
  rintro ⟨h7, -⟩
  have h7' : decide (((9000000000 : ℚ) : ℝ) < (x : ℝ) + t) = true := h7
  rw [decide_eq_true_eq] at h7'
  push_cast at h7'
  linarith

/-- C31 up to an offset in time: a fresh sample (its value is the curve's limit at zero or beyond) of a
mechanism with a strictly monotone curve gets the curve's value at `x + t`, where `x` is the duration in
the mechanism's unit and `0 < t < 0.0011`. Missing: `t` is not zero (`C31_violated`), and durations close
to or beyond 9e9 units. -/
theorem C31_partial {ord : SetOrder} {dev : DeviceMdl W (Ext ℝ)} {env : PhysTestEnv (Ext ℝ)}
    {st : StrsSpec (Ext ℝ)} {i : Nat} {s s' : SimState (Ext ℝ)} {r : SimReport (Ext ℝ)} {w : W}
    {prm mech : String} {k : MechMdl W (Ext ℝ)} {pre : Arr3 (Ext ℝ)} {cs lat : Dict (Arr3 (Ext ℝ))}
    {n : Nat} (h : StressedMech ord dev env st i s r w s' prm mech k pre cs lat n)
    (hkind : k.kind = .deg) {g : Dict (PyVal (Ext ℝ)) → Ext ℝ}
    (hs : SampleWise k g cs lat r.info.numLots r.info.numChps n)
    (hconv : Converges k pre cs lat r.info.numLots r.info.numChps n)
    {x : ℚ} (hdur : convertTime st.duration k.timeUnit = .ok (.num x)) (hx0 : 0 ≤ x)
    (hx : x + 11 / 10000 ≤ 9000000000)
    {l c d : Nat} (hl : l < r.info.numLots) (hc : c < r.info.numChps) (hd : d < n)
    {y : ℝ} (hy : pre.at' l c d = .fin y) {f : ℝ → ℝ}
    (hf : ∀ t : ℝ, 0 < t →
      curve k g cs lat r.info.numLots r.info.numChps n l c d (.fin t) = .fin (f t))
    (hm : (StrictMonoOn f (Set.Ioi 0) ∧ ∀ t, 0 < t → y ≤ f t) ∨
      (StrictAntiOn f (Set.Ioi 0) ∧ ∀ t, 0 < t → f t ≤ y)) :
    ∃ v, ∃ t : ℝ, mechVal s' prm mech = some v ∧ 0 < t ∧ t < 11 / 10000 ∧
      v.at' l c d = .fin (f (x + t)) := by
  exact stressed_late h hkind hs hdur hx0 hx hl hc hd hf fun t0 w1 w2 h1 =>
    fresh_search hs h.dims hconv hl hc hd hy hf hm h1

/-- C31 is violated by every `DegMechMdl` with an increasing curve (for which the search stops): after any
positive duration the sample is strictly above `f(d)`. -/
theorem C31_violated {ord : SetOrder} {dev : DeviceMdl W (Ext ℝ)} {env : PhysTestEnv (Ext ℝ)}
    {st : StrsSpec (Ext ℝ)} {i : Nat} {s s' : SimState (Ext ℝ)} {r : SimReport (Ext ℝ)} {w : W}
    {prm mech : String} {k : MechMdl W (Ext ℝ)} {pre : Arr3 (Ext ℝ)} {cs lat : Dict (Arr3 (Ext ℝ))}
    {n : Nat} (h : StressedMech ord dev env st i s r w s' prm mech k pre cs lat n)
    (hkind : k.kind = .deg) {g : Dict (PyVal (Ext ℝ)) → Ext ℝ}
    (hs : SampleWise k g cs lat r.info.numLots r.info.numChps n)
    (hconv : Converges k pre cs lat r.info.numLots r.info.numChps n)
    {x : ℚ} (hdur : convertTime st.duration k.timeUnit = .ok (.num x)) (hx0 : 0 < x)
    (hx : x + 11 / 10000 ≤ 9000000000)
    {l c d : Nat} (hl : l < r.info.numLots) (hc : c < r.info.numChps) (hd : d < n)
    {y : ℝ} (hy : pre.at' l c d = .fin y) {f : ℝ → ℝ}
    (hf : ∀ t : ℝ, 0 < t →
      curve k g cs lat r.info.numLots r.info.numChps n l c d (.fin t) = .fin (f t))
    (hm : StrictMonoOn f (Set.Ioi 0)) (hfresh : ∀ t, 0 < t → y ≤ f t) :
    ∃ v, ∃ z : ℝ, mechVal s' prm mech = some v ∧ v.at' l c d = .fin z ∧ f x < z := by
  obtain ⟨v, t, h1, h2, -, h4⟩ := C31_partial h hkind hs hconv hdur hx0.le hx hl hc hd hy hf
    (.inl ⟨hm, hfresh⟩)
  have hxd : (0 : ℝ) < x := by exact_mod_cast hx0
  exact ⟨v, _, h1, h4, hm hxd (by show (0 : ℝ) < x + t; linarith) (by linarith)⟩

/-! ## C33 for mechanisms with a search -/

attribute [local instance] fieldArith in
omit [Rng W (Ext ℝ)] in
/-- A finished search for a time between the bounds is within `10 ** 1e-5`. -/
theorem trace_decade {f : ℝ → ℝ} {T : ℝ} (hm : StrictMonoOn f (Set.Ioi 0) ∨ StrictAntiOn f (Set.Ioi 0))
    (hlo : 1 / 1000 ≤ T) (hhi : T ≤ 10 ^ 10) {us : List (ℝ × ℝ)} {s₁ : BState ℝ}
    (e2 : ∀ e ∈ us, e.2 = |f T - f (10 ^ e.1)|)
    (e3 : Trace cfgR (cfgR.init |f T - f (10 ^ cfgR.x0)|) us s₁) (e4 : s₁.done cfgR = true) :
    (0 : ℝ) < 10 ^ s₁.x ∧ |Real.logb 10 (10 ^ s₁.x / T)| < 1 / 100000 := by
  have hT0 : 0 < T := by linarith [show (0 : ℝ) < 1 / 1000 by norm_num]
  have hpos : ∀ u : ℝ, (0 : ℝ) < 10 ^ u := fun u => Real.rpow_pos_of_pos (by norm_num) u
  have hlt : ∀ u v : ℝ, u < v → (10 : ℝ) ^ u < 10 ^ v := fun u v huv =>
    Real.rpow_lt_rpow_of_exponent_lt (by norm_num) huv
  have hle : ∀ u v : ℝ, u ≤ v → (10 : ℝ) ^ u ≤ 10 ^ v := fun u v huv =>
    Real.rpow_le_rpow_of_exponent_le (by norm_num) huv
  have hTl : (10 : ℝ) ^ (Real.logb 10 T) = T := Real.rpow_logb (by norm_num) (by norm_num) hT0
  have hdec : ∀ x y : ℝ, x < y → y ≤ Real.logb 10 T → |f T - f (10 ^ y)| < |f T - f (10 ^ x)| := by
    intro x y hxy hyt
    have hyT : (10 : ℝ) ^ y ≤ T := by rw [← hTl]; exact hle _ _ hyt
    rcases hm with hm | hm
    · have h5 : f (10 ^ x) < f (10 ^ y) := hm (hpos x) (hpos y) (hlt _ _ hxy)
      have h6 : f (10 ^ y) ≤ f T := hm.monotoneOn (hpos y) hT0 hyT
      rw [abs_of_nonneg (by linarith), abs_of_nonneg (by linarith)]; linarith
    · have h5 : f (10 ^ y) < f (10 ^ x) := hm (hpos x) (hpos y) (hlt _ _ hxy)
      have h6 : f T ≤ f (10 ^ y) := hm.antitoneOn (hpos y) hT0 hyT
      rw [abs_of_nonpos (by linarith), abs_of_nonpos (by linarith)]; linarith
  have hinc : ∀ x y : ℝ, Real.logb 10 T ≤ x → x < y → |f T - f (10 ^ x)| < |f T - f (10 ^ y)| := by
    intro x y hxt hxy
    have hxT : T ≤ (10 : ℝ) ^ x := by rw [← hTl]; exact hle _ _ hxt
    rcases hm with hm | hm
    · have h5 : f (10 ^ x) < f (10 ^ y) := hm (hpos x) (hpos y) (hlt _ _ hxy)
      have h6 : f T ≤ f (10 ^ x) := hm.monotoneOn hT0 (hpos x) hxT
      rw [abs_of_nonpos (by linarith), abs_of_nonpos (by linarith)]; linarith
    · have h5 : f (10 ^ y) < f (10 ^ x) := hm (hpos x) (hpos y) (hlt _ _ hxy)
      have h6 : f (10 ^ x) ≤ f T := hm.antitoneOn hT0 (hpos x) hxT
      rw [abs_of_nonneg (by linarith), abs_of_nonneg (by linarith)]; linarith
  have hloT : (-3 : ℝ) ≤ Real.logb 10 T := by
    rw [Real.le_logb_iff_rpow_le (by norm_num) hT0]
    calc (10 : ℝ) ^ (-3 : ℝ) = 1 / 1000 := by rw [Real.rpow_neg (by norm_num)]; norm_num
      _ ≤ T := hlo
  have hhiT : Real.logb 10 T ≤ 10 := by
    rw [Real.logb_le_iff_le_rpow (by norm_num) hT0]
    calc T ≤ 10 ^ 10 := hhi
      _ = (10 : ℝ) ^ (10 : ℝ) := by norm_num
  obtain ⟨h5, h6⟩ := Trace.unimodal rfl cfgR_tol.1 cfgR_tol.2 hdec hinc e3 e2 rfl
    (by simp only [MinCfg.init, cfgR]; push_cast; exact hloT)
    (by simp only [MinCfg.init, cfgR]; push_cast; exact hhiT)
  rw [done_iff, tol_cfgR] at e4
  refine ⟨hpos _, ?_⟩
  rw [Real.logb_div (hpos _).ne' hT0.ne', Real.logb_rpow (by norm_num) (by norm_num)]
  obtain ⟨h7, h8⟩ := e4
  generalize Real.logb 10 T = T' at *
  generalize s₁.x = x at *
  have hx : |x| ≤ 10 + |x - T'| := by
    have : |x| ≤ |x - T'| + |T'| := by
      calc |x| = |(x - T') + T'| := by ring_nf
        _ ≤ _ := abs_add_le _ _
    have h9 : |T'| ≤ 10 := abs_le.2 ⟨by linarith, hhiT⟩
    linarith
  have hδ : |x - T'| < 2 * (6369051672525773 / 604462909807314587353088 * |x| + 1 / 100000 / 3) :=
    abs_lt.2 ⟨by linarith, by linarith⟩
  norm_num at hδ ⊢
  nlinarith

omit [Rng W (Ext ℝ)] in
/-- The search result within `10 ** 1e-5`. -/
theorem search_decade {m : MechMdl W (Ext ℝ)} {g : Dict (PyVal (Ext ℝ)) → Ext ℝ}
    {conds lat : Dict (Arr3 (Ext ℝ))} {L C D : Nat} (hs : SampleWise m g conds lat L C D)
    {cur : Arr3 (Ext ℝ)} (hcur : cur.HasDims L C D) (hconv : Converges m cur conds lat L C D)
    {l c d : Nat} (hl : l < L) (hc : c < C) (hd : d < D) {f : ℝ → ℝ} {T : ℝ}
    (hy : cur.at' l c d = .fin (f T))
    (hf : ∀ t : ℝ, 0 < t → curve m g conds lat L C D l c d (.fin t) = .fin (f t))
    (hm : StrictMonoOn f (Set.Ioi 0) ∨ StrictAntiOn f (Set.Ioi 0))
    (hlo : 1 / 1000 ≤ T) (hhi : T ≤ 10 ^ 10)
    {t0 : Arr3 (Ext ℝ)} {w w' : W}
    (h : m.calcEquivSearch cur conds lat L C D w = (.ok t0, w')) :
    ∃ t : ℝ, t0.at' l c d = .fin t ∧ 0 < t ∧ |Real.logb 10 (t / T)| < 1 / 100000 := by
  obtain ⟨us', s₁, e1, e2, e3, e4⟩ := search_sample hs hcur hl hc hd hy hf h
  exact ⟨_, e1, trace_decade hm hlo hhi e2 e3 (e4 hconv)⟩

/-- C33 for mechanisms with a search, up to the search tolerance: let `f` be the sample's curve over the
time in seconds, `f T` its present degradation. Whatever the time unit, if `T` lies between the search
bounds in that unit, the search stops by itself and the total time stays below 9e9 units, the sample gets
`f (τ + D)` where `D` is the duration in seconds and `τ` is within `1e-5` decades of `T`. Missing: the
result may still depend on the unit within this tolerance, and units with `T` or the total time out of
range (`C33_deg_violated`). -/
theorem C33_deg_partial {ord : SetOrder} {dev : DeviceMdl W (Ext ℝ)} {env : PhysTestEnv (Ext ℝ)}
    {st : StrsSpec (Ext ℝ)} {i : Nat} {s s' : SimState (Ext ℝ)} {r : SimReport (Ext ℝ)} {w : W}
    {prm mech : String} {k : MechMdl W (Ext ℝ)} {pre : Arr3 (Ext ℝ)} {cs lat : Dict (Arr3 (Ext ℝ))}
    {n : Nat} (h : StressedMech ord dev env st i s r w s' prm mech k pre cs lat n)
    (hkind : k.kind = .deg) {g : Dict (PyVal (Ext ℝ)) → Ext ℝ}
    (hs : SampleWise k g cs lat r.info.numLots r.info.numChps n)
    (hconv : Converges k pre cs lat r.info.numLots r.info.numChps n)
    {us : Int} (hdur : st.duration = .td us) (hus : 0 ≤ us) {u : TUnit}
    (hu : timeUnitMap k.timeUnit = some u)
    {l c d : Nat} (hl : l < r.info.numLots) (hc : c < r.info.numChps) (hd : d < n)
    {f : ℝ → ℝ} {T : ℝ} (hy : pre.at' l c d = .fin (f T))
    (hf : ∀ t : ℝ, 0 < t →
      curve k g cs lat r.info.numLots r.info.numChps n l c d (.fin t) =
        .fin (f (t * (timeSecondFactor u : ℝ))))
    (hm : StrictMonoOn f (Set.Ioi 0) ∨ StrictAntiOn f (Set.Ioi 0))
    (hlo : 1 / 1000 ≤ T / (timeSecondFactor u : ℝ)) (hhi : T / (timeSecondFactor u : ℝ) ≤ 10 ^ 10)
    (hlim : (T * (10001 / 10000) + us / 1000000) / (timeSecondFactor u : ℝ) ≤ 9000000000) :
    ∃ v, ∃ τ : ℝ, mechVal s' prm mech = some v ∧ v.at' l c d = .fin (f (τ + us / 1000000)) ∧
      0 < τ ∧ |Real.logb 10 (τ / T)| < 1 / 100000 := by
  obtain ⟨t0, x, v, w1, w2, h1, h2, h3, h4, h5, h6⟩ := stressed_deg h hkind hs
  have hF : (0 : ℝ) < (timeSecondFactor u : ℝ) := by
    have : 0 < timeSecondFactor u := by cases u <;> simp [timeSecondFactor]
    exact_mod_cast this
  have hx : (x : ℝ) = us / 1000000 / (timeSecondFactor u : ℝ) := by
    rw [hdur] at h3
    unfold convertTime at h3
    rw [hu] at h3
    cases h3
    unfold numOfTd
    push_cast
    rfl
  generalize hFe : (timeSecondFactor u : ℝ) = F at *
  have hT0 : 0 < T := by
    have : 0 < T / F := by linarith [show (0 : ℝ) < 1 / 1000 by norm_num]
    exact (div_pos_iff_of_pos_right hF).1 this
  obtain ⟨t, e1, e2, e3⟩ := search_decade hs h.dims hconv hl hc hd (f := fun t => f (t * F)) (T := T / F)
    (by rw [hy, div_mul_cancel₀ _ hF.ne']) hf
    (by
      rcases hm with hm | hm
      · exact .inl fun a ha b hb hab => hm (mul_pos ha hF) (mul_pos hb hF)
          (mul_lt_mul_of_pos_right hab hF)
      · exact .inr fun a ha b hb hab => hm (mul_pos ha hF) (mul_pos hb hF)
          (mul_lt_mul_of_pos_right hab hF)) hlo hhi h1
  have hτ : t / (T / F) = t * F / T := by field_simp
  rw [hτ] at e3
  refine ⟨v, t * F, h4, ?_, mul_pos e2 hF, e3⟩
  have hus' : (0 : ℝ) ≤ us := by exact_mod_cast hus
  have hratio : t * F ≤ T * (10001 / 10000) := by
    have hq : 0 < t * F / T := div_pos (mul_pos e2 hF) hT0
    have h7 : Real.logb 10 (t * F / T) < 1 / 100000 := (abs_lt.1 e3).2
    have h8 : t * F / T < 10 ^ (1 / 100000 : ℝ) := by
      rwa [← Real.logb_lt_iff_lt_rpow (by norm_num) hq]
    have h9 : (10 : ℝ) ^ (1 / 100000 : ℝ) ≤ 10001 / 10000 := by
      have h10 : ((10 : ℝ) ^ (1 / 100000 : ℝ)) ^ (100000 : ℕ) = 10 := by
        rw [← Real.rpow_natCast, ← Real.rpow_mul (by norm_num)]
        norm_num
      have h11 : (10 : ℝ) ≤ (10001 / 10000) ^ (100000 : ℕ) := by
        have := one_add_mul_le_pow (a := (1 / 10000 : ℝ)) (by norm_num) 100000
        calc (10 : ℝ) ≤ 1 + ((100000 : ℕ) : ℝ) * (1 / 10000) := by norm_num
          _ ≤ (1 + 1 / 10000) ^ 100000 := this
          _ = _ := by congr 1; norm_num
      rw [← h10] at h11
      exact le_of_pow_le_pow_left₀ (by norm_num) (by norm_num) h11
    have h12 : t * F / T ≤ 10001 / 10000 := h8.le.trans h9
    rw [div_le_iff₀ hT0] at h12
    linarith
  have hadd : PyArith.add (t0.at' l c d) (PyArith.ofRat x) = Ext.fin (t + (x : ℝ)) := by
    rw [e1]; rfl
  have hx0 : (0 : ℝ) ≤ x := by rw [hx]; positivity
  rw [h6 l hl c hc d hd, hadd, if_neg, hf _ (by linarith)]
  · congr 2
    rw [hx]; field_simp
  · rintro ⟨h7, -⟩
    have h7' : decide (((9000000000 : ℚ) : ℝ) < t + (x : ℝ)) = true := h7
    rw [decide_eq_true_eq] at h7'
    push_cast at h7'
    have h8 : t + (x : ℝ) = (t * F + us / 1000000) / F := by rw [hx]; field_simp
    have h9 : (t * F + us / 1000000) / F ≤ (T * (10001 / 10000) + us / 1000000) / F :=
      div_le_div_of_nonneg_right (by linarith) hF.le
    linarith

/-- C33 is violated: in a unit in which the duration exceeds 9e9, a finite sample keeps its value whatever
its equation, its present degradation and the other samples. -/
theorem C33_deg_violated {ord : SetOrder} {dev : DeviceMdl W (Ext ℝ)} {env : PhysTestEnv (Ext ℝ)}
    {st : StrsSpec (Ext ℝ)} {i : Nat} {s s' : SimState (Ext ℝ)} {r : SimReport (Ext ℝ)} {w : W}
    {prm mech : String} {k : MechMdl W (Ext ℝ)} {pre : Arr3 (Ext ℝ)} {cs lat : Dict (Arr3 (Ext ℝ))}
    {n : Nat} (h : StressedMech ord dev env st i s r w s' prm mech k pre cs lat n)
    (hkind : k.kind = .deg) {g : Dict (PyVal (Ext ℝ)) → Ext ℝ}
    (hs : SampleWise k g cs lat r.info.numLots r.info.numChps n)
    {x : ℚ} (hdur : convertTime st.duration k.timeUnit = .ok (.num x)) (hx : 9000000000 < x)
    {l c d : Nat} (hl : l < r.info.numLots) (hc : c < r.info.numChps) (hd : d < n)
    {y : ℝ} (hy : pre.at' l c d = .fin y) {f : ℝ → ℝ}
    (hf : ∀ t : ℝ, 0 < t →
      curve k g cs lat r.info.numLots r.info.numChps n l c d (.fin t) = .fin (f t)) :
    ∃ v, mechVal s' prm mech = some v ∧ v.at' l c d = .fin y := by
  obtain ⟨t0, x', v, w1, w2, h1, h2, h3, h4, h5, h6⟩ := stressed_deg h hkind hs
  rw [hdur] at h3
  cases h3
  obtain ⟨us', s₁, e1, -, -, -⟩ := search_sample hs h.dims hl hc hd hy hf h1
  refine ⟨v, h4, ?_⟩
  rw [h6 l hl c hc d hd, e1, hy, if_pos]
  refine ⟨?_, rfl⟩
  show decide (((9000000000 : ℚ) : ℝ) < 10 ^ s₁.x + (x : ℝ)) = true
  rw [decide_eq_true_eq]
  have h7 : (9000000000 : ℝ) < x := by
    have := (Rat.cast_lt (K := ℝ)).2 hx
    push_cast at this
    exact this
  have := Real.rpow_pos_of_pos (show (0 : ℝ) < 10 by norm_num) s₁.x
  push_cast
  linarith

end real

end Gerabaldi.Props
