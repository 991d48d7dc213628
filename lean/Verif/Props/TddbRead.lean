import Verif.Props.TddbState
import Verif.Props.Fail
import Verif.Spec.CountRng

/-!
# C66: the TDDB demonstration

`demos/vts_paper_tddb_model_sensitivity.py` runs for any number of weeks, and for any number of oxides other than
one. Its readings are 0 for oxides where a column of defects has formed and 1 for all others, and no oxide
recovers.
-/

namespace Gerabaldi.Props

open Gerabaldi Gerabaldi.Spec

section run
variable {W K : Type} [Field K] [LinearOrder K] [IsStrictOrderedRing K] [FloorRing K] [Pow10 K] [PyTrans (Ext K)]
  [Rng W (Ext K)]
open PyArith

/-- **C66**: the demonstration's test, device and environment can be constructed and the simulation returns a
report, with one row for each oxide in the initial measurement and in those after each of the weeks. -/
theorem C66_run [LawfulRng W (Ext K)] (h : TddbDraws W K) (c thermal : ℚ) (ord : SetOrder) {samples : Nat}
    (hs : samples ≠ 1) {weeks fuel : Nat} (hy : 0 < weeks) (hmax : weeks ≤ 1000000) (hf : weeks < fuel) (w : W) :
    ∃ test dev env, tddbTest fuel samples weeks = some (.ok test) ∧
      tddbDevice (W := W) c thermal = .ok dev ∧ tddbEnv (V := Ext K) = .ok env ∧
      ∃ r w', simulate ord test dev env none w = (.ok r, w') ∧
        ∀ y ≤ weeks, (rowsAt r.measurements (4 * y) "tddb").map place = places 1 1 samples := by
  have hdev := tddbDev_works (W := W) h c thermal
  obtain ⟨r, w', h1⟩ := C53_generated ord hdev (tddbWorld_draws h) (tddbTest_ok c thermal samples hmax) w
    (tddb_sizes hs weeks)
  refine ⟨_, _, _, tddbTest_eq samples hy hmax hf, tddbDevice_eq c thermal, tddbEnv_eq, r, w', h1, fun y hyy => ?_⟩
  obtain ⟨⟨sf, rf⟩, w3, x1, -⟩ := M.bind_eq_ok.1 h1
  obtain ⟨⟨s0, r0⟩, w0, x3, -⟩ := M.bind_eq_ok.1 x1
  obtain ⟨pre, post, h3, h4⟩ := tddb_split (K := K) samples hyy
  obtain ⟨s, r1, w1, -, -, g, -⟩ := tddb_reading h hs hmax h1 hyy x3 h3 h4
  rw [g, expectedRows_places]

/-- **C66**: the measurement after week `y` is that of the state after the first `4 * y` steps, at `168 * y` hours.
It reads 0 for the oxides with breakdown in that state and 1 for all others. -/
theorem C66_readings [LawfulRng W (Ext K)] (h : TddbDraws W K) {c thermal : ℚ} {ord : SetOrder} {samples : Nat}
    (hs : samples ≠ 1) {weeks fuel : Nat} (hy : 0 < weeks) (hmax : weeks ≤ 1000000) (hf : weeks < fuel)
    {test : TestSpec (Ext K)} {dev : DeviceMdl W (Ext K)} {env : PhysTestEnv (Ext K)}
    (ht : tddbTest fuel samples weeks = some (.ok test)) (hd : tddbDevice c thermal = .ok dev)
    (he : tddbEnv = .ok env) {w w' : W} {r : SimReport (Ext K)}
    (hr : simulate ord test dev env none w = (.ok r, w')) {y : Nat} (hyy : y ≤ weeks) :
    ∃ s r1 w1, (simStart dev test none >>= runSteps ord dev env 0 (test.steps.take (4 * y))) w =
        (.ok (s, r1), w1) ∧
      Spec.timeVal s.elapsed = y * 168 * hourUs ∧
      rowsAt r.measurements (4 * y) "tddb" =
        expectedRows 1 1 samples (fun _ _ d => intact (Formed s d)) "tddb" s.elapsed (4 * y) := by
  cases ht.symm.trans (tddbTest_eq samples hy hmax hf)
  cases hd.symm.trans (tddbDevice_eq c thermal)
  cases he.symm.trans tddbEnv_eq
  obtain ⟨⟨sf, rf⟩, w3, x1, -⟩ := M.bind_eq_ok.1 hr
  obtain ⟨⟨s0, r0⟩, w0, x3, -⟩ := M.bind_eq_ok.1 x1
  obtain ⟨pre, post, h3, h4⟩ := tddb_split (K := K) samples hyy
  obtain ⟨s, r1, w1, g1, g2, g3, -⟩ := tddb_reading h hs hmax hr hyy x3 h3 h4
  refine ⟨s, r1, w1, ?_, g2, g3⟩
  rw [h3, ← h4, List.take_left]
  exact (M.bind_ok x3).trans g1

omit [IsStrictOrderedRing K] in
/-- No defect that has formed vanishes. -/
theorem tddb_stays {c thermal : ℚ} {ord : SetOrder} {i : Nat} {steps : List (Step (Ext K))} {w w' : W}
    {s s' : SimState (Ext K)} {r r' : SimReport (Ext K)} {q : Quantities} {n : Nat}
    (h1 : TddbInv (W := W) c thermal q s) (h2 : TddbInv (W := W) c thermal q s')
    (hq : q.numLots = 1 ∧ q.numChps = 1) (hn : q.devCounts.get? "tddb" = some n)
    (h : runSteps ord (tddbDev c thermal : DeviceMdl W (Ext K)) tddbWorld i steps (s, r) w = (.ok (s', r'), w'))
    (hdev : (tddbDev c thermal : DeviceMdl W (Ext K)).prms.Nodup)
    (hne : eq (ofRat 1 : Ext K) (ofRat 0) = false)
    (hun : (tddbPrm c thermal : DegPrmMdl W (Ext K)).mechs.Nodup) {d row col : Nat} (hd : d < n)
    (hf : Formed s d row col) : Formed s' d row col := by
  obtain ⟨ms, a, e1, e2, e3⟩ := hf
  obtain ⟨mv, j1, j2, j3⟩ := (h1.shape.deg "tddb" _ n rfl hn).mech
  cases j1.symm.trans e1
  obtain ⟨k, hk⟩ := Dict.get?_isSome_of_mem_keys (d := (tddbPrm c thermal : DegPrmMdl W (Ext K)).mechs)
    (k := defectName row col) (by rw [← j2]; exact Dict.mem_keys_of_get? e2)
  obtain ⟨-, rfl⟩ := tddb_mech_mem (Dict.mem_of_get? hk)
  obtain ⟨b, hb, hkeep⟩ := C24_permanent h hdev (prm := "tddb") rfl hun hk rfl
    (by unfold mechVal; rw [e1]; exact e2)
  obtain ⟨mv', l1, l2, l3⟩ := (h2.shape.deg "tddb" _ n rfl hn).mech
  unfold mechVal at hb
  rw [l1] at hb
  have da := j3 _ _ (Dict.mem_of_get? e2)
  have db := l3 _ _ (Dict.mem_of_get? hb)
  refine ⟨mv', b, l1, hb, ?_⟩
  rw [← e3]
  refine hkeep.keeps 0 0 d ⟨?_, ?_, ?_⟩ ⟨?_, ?_, ?_⟩ (by rw [e3]; exact hne)
  · rw [da.1, hq.1]; exact Nat.one_pos
  · rw [da.2.1, hq.2]; exact Nat.one_pos
  · rw [da.2.2]; exact hd
  · rw [db.1, hq.1]; exact Nat.one_pos
  · rw [db.2.1, hq.2]; exact Nat.one_pos
  · rw [db.2.2]; exact hd

/-- **C66**: no oxide recovers. One read as broken down is read as broken down in every later measurement. -/
theorem C66_permanent [LawfulRng W (Ext K)] (h : TddbDraws W K) {c thermal : ℚ} {ord : SetOrder} {samples : Nat}
    (hs : samples ≠ 1) {weeks fuel : Nat} (hy : 0 < weeks) (hmax : weeks ≤ 1000000) (hf : weeks < fuel)
    {test : TestSpec (Ext K)} {dev : DeviceMdl W (Ext K)} {env : PhysTestEnv (Ext K)}
    (ht : tddbTest fuel samples weeks = some (.ok test)) (hd : tddbDevice c thermal = .ok dev)
    (he : tddbEnv = .ok env) {w w' : W} {r : SimReport (Ext K)}
    (hr : simulate ord test dev env none w = (.ok r, w')) {y z : Nat} (hyz : y ≤ z) (hz : z ≤ weeks)
    {x x' : MeasRow (Ext K)} (hx : x ∈ rowsAt r.measurements (4 * y) "tddb")
    (hx' : x' ∈ rowsAt r.measurements (4 * z) "tddb") (hp : place x = place x')
    (h0 : x.measured = ofRat 0) : x'.measured = ofRat 0 := by
  cases ht.symm.trans (tddbTest_eq samples hy hmax hf)
  cases hd.symm.trans (tddbDevice_eq c thermal)
  cases he.symm.trans tddbEnv_eq
  obtain ⟨⟨sf, rf⟩, w3, x1, -⟩ := M.bind_eq_ok.1 hr
  obtain ⟨⟨s0, r0⟩, w0, x3, -⟩ := M.bind_eq_ok.1 x1
  obtain ⟨-, -, q1, q2, -⟩ := tddb_start h hs hmax x3
  obtain ⟨pre, post, h3, h4⟩ := tddb_split (K := K) samples (hyz.trans hz)
  obtain ⟨pre', post', h3', h4'⟩ := tddb_split (K := K) samples hz
  obtain ⟨s, r1, w1, g1, -, g3, g4, n, g5, g6⟩ := tddb_reading h hs hmax hr (hyz.trans hz) x3 h3 h4
  obtain ⟨s', r1', w1', g1', -, g3', g4', -⟩ := tddb_reading h hs hmax hr hz x3 h3' h4'
  have hpre : pre' = pre ++ pre'.drop (4 * y) := by
    have e1 : pre = (tddbSteps samples weeks : TestSpec (Ext K)).steps.take (4 * y) := by
      rw [h3, ← h4, List.take_left]
    have e2 : pre' = (tddbSteps samples weeks : TestSpec (Ext K)).steps.take (4 * z) := by
      rw [h3', ← h4', List.take_left]
    have e3 : pre = pre'.take (4 * y) := by
      rw [e2, List.take_take, e1]
      congr 1
      omega
    rw [e3, List.take_append_drop]
  have hdev := tddbDev_works (W := W) h c thermal
  rw [hpre, C46_append, M.bind_ok g1] at g1'
  rw [g3] at hx
  rw [g3'] at hx'
  unfold expectedRows at hx hx'
  simp only [List.mem_flatMap, List.mem_map, List.mem_range] at hx hx'
  obtain ⟨l, hl, c1, hc1, d, hdd, rfl⟩ := hx
  obtain ⟨l', hl', c1', hc1', d', hdd', rfl⟩ := hx'
  unfold place at hp
  simp only [Prod.mk.injEq, Option.some.injEq] at hp
  obtain ⟨-, -, rfl⟩ := hp
  have hb : Breakdown (Formed s d) := by
    by_contra hb
    simp only [intact, if_neg hb] at h0
    exact bit_ne h0
  obtain ⟨col, hcol, hall⟩ := hb
  have hne : eq (ofRat 1 : Ext K) (ofRat 0) = false := by
    rw [Bool.eq_false_iff]
    intro he
    exact absurd ((lit_eq 1 0).1 he) (by norm_num)
  have hb' : Breakdown (Formed s' d) := ⟨col, hcol, fun row hrow =>
    tddb_stays g4 g4' ⟨q1, q2⟩ g5 g1' hdev.unique hne (hdev.deg "tddb" _ rfl).unique (lt_of_lt_of_le hdd g6)
      (hall row hrow)⟩
  simp only [intact, if_pos hb']

/-- **C66**: the initial readings show no breakdown. -/
theorem C66_initial [LawfulRng W (Ext K)] (h : TddbDraws W K) {c thermal : ℚ} {ord : SetOrder} {samples : Nat}
    (hs : samples ≠ 1) {weeks fuel : Nat} (hy : 0 < weeks) (hmax : weeks ≤ 1000000) (hf : weeks < fuel)
    {test : TestSpec (Ext K)} {dev : DeviceMdl W (Ext K)} {env : PhysTestEnv (Ext K)}
    (ht : tddbTest fuel samples weeks = some (.ok test)) (hd : tddbDevice c thermal = .ok dev)
    (he : tddbEnv = .ok env) {w w' : W} {r : SimReport (Ext K)}
    (hr : simulate ord test dev env none w = (.ok r, w')) {x : MeasRow (Ext K)}
    (hx : x ∈ rowsAt r.measurements 0 "tddb") : x.measured = ofRat 1 := by
  cases ht.symm.trans (tddbTest_eq samples hy hmax hf)
  cases hd.symm.trans (tddbDevice_eq c thermal)
  cases he.symm.trans tddbEnv_eq
  obtain ⟨⟨sf, rf⟩, w3, x1, -⟩ := M.bind_eq_ok.1 hr
  obtain ⟨⟨s0, r0⟩, w0, x3, -⟩ := M.bind_eq_ok.1 x1
  obtain ⟨i1, -, q1, q2, -⟩ := tddb_start h hs hmax x3
  obtain ⟨s, r1, w1, g1, -, g3, g4, n, g5, g6⟩ := tddb_reading h hs hmax hr (Nat.zero_le _) x3 (pre := [])
    (post := copies weeks (tddbWeek samples)) rfl rfl
  cases g1
  rw [Nat.mul_zero] at g3
  rw [g3] at hx
  unfold expectedRows at hx
  simp only [List.mem_flatMap, List.mem_map, List.mem_range] at hx
  obtain ⟨l, hl, c1, hc1, d, hdd, rfl⟩ := hx
  have hb : ¬ Breakdown (Formed s0 d) := by
    rintro ⟨col, -, hall⟩
    obtain ⟨ms, a, e1, e2, e3⟩ := hall 0 (by omega)
    have hz : ArrIn (· = ofRat 0) a := ((tddb_fresh x3).2.get e1).get e2
    obtain ⟨mv, j1, -, j3⟩ := (i1.shape.deg "tddb" _ n rfl g5).mech
    cases j1.symm.trans e1
    have da := j3 _ _ (Dict.mem_of_get? e2)
    refine bit_ne (K := K) (e3.symm.trans (hz.at ?_ ?_ ?_))
    · rw [da.1]; show 0 < r0.numLots; rw [q1]; exact Nat.one_pos
    · rw [da.2.1]; show 0 < r0.numChps; rw [q2]; exact Nat.one_pos
    · rw [da.2.2]; exact lt_of_lt_of_le hdd g6
  simp only [intact, if_neg hb]

end run

/-! ## A single oxide -/

/-- The outcome is no `ValueError`. -/
def NoValueErr {α : Type} (x : Except Err α) : Prop := x ≠ .error .valueError

theorem NoValueErr.bind {α β : Type} {x : Except Err α} {f : α → Except Err β} (h : NoValueErr x)
    (h2 : ∀ a, x = .ok a → NoValueErr (f a)) : NoValueErr (x >>= f) := by
  cases x with
  | ok a => exact h2 a rfl
  | error e => exact fun he => h (by cases he; rfl)

theorem NoValueErr.mapM {α β : Type} {f : α → Except Err β} {xs : List α} (h : ∀ x ∈ xs, NoValueErr (f x)) :
    NoValueErr (xs.mapM f) := by
  induction xs with
  | nil => exact (nomatch ·)
  | cons x xs ih =>
    rw [List.mapM_cons]
    refine (h x List.mem_cons_self).bind fun a _ => ?_
    exact (ih fun x hx => h x (List.mem_cons_of_mem _ hx)).bind fun b _ => (nomatch ·)

section single
variable {W K : Type} [Field K] [LinearOrder K] [FloorRing K] [Pow10 K] [PyTrans (Ext K)] [Rng W (Ext K)]
open PyArith

theorem getE_noValueErr {α : Type} (d : Dict α) (k : String) : NoValueErr (d.getE k) := by
  unfold Dict.getE
  cases d.get? k <;> exact (nomatch ·)

omit [Field K] [LinearOrder K] [FloorRing K] [Pow10 K] [PyTrans (Ext K)] in
theorem onlyElem_single {args : Dict (PyVal (Ext K))} (hu : uniformShape args 1 1 1) {k : String} {x : PyVal (Ext K)}
    (hx : args.getE k = .ok x) : NoValueErr (onlyElem x) := by
  cases x with
  | scal x => exact (nomatch ·)
  | npscal x => exact (nomatch ·)
  | arr a =>
    have hg : args.get? k = some (.arr a) := by
      unfold Dict.getE at hx
      cases hg : args.get? k with
      | none => rw [hg] at hx; cases hx
      | some v => rw [hg] at hx; cases hx; rfl
    obtain ⟨d1, d2, d3⟩ := hu _ _ (Dict.mem_of_get? hg)
    have hlen := a.wf
    rw [d1, d2, d3] at hlen
    obtain ⟨y, hy⟩ := List.length_eq_one_iff.1 hlen
    unfold onlyElem
    simp only [hy]
    exact (nomatch ·)

omit [PyTrans (Ext K)] in
/-- With arrays of one element the equation of the parameter does not raise `ValueError`, and its values are no
arrays. -/
theorem oxideVal_single {args : Dict (PyVal (Ext K))} (hu : uniformShape args 1 1 1) :
    NoValueErr (oxideVal args) ∧ ∀ v, oxideVal args = .ok v → ∃ x, v = .scal x := by
  constructor
  · unfold oxideVal
    refine (getE_noValueErr _ _).bind fun init hi => (getE_noValueErr _ _).bind fun th ht => ?_
    refine NoValueErr.bind (.mapM fun k _ => (getE_noValueErr _ _).bind fun x hx => onlyElem_single hu hx)
      fun ds _ => (onlyElem_single hu ht).bind fun t _ => ?_
    split
    · exact (nomatch ·)
    · exact (onlyElem_single hu hi).bind fun i _ => (nomatch ·)
  · intro v h
    unfold oxideVal at h
    obtain ⟨init, -, h⟩ := except_bind h
    obtain ⟨th, -, h⟩ := except_bind h
    obtain ⟨ds, -, h⟩ := except_bind h
    obtain ⟨t, -, h⟩ := except_bind h
    split at h
    · cases h; exact ⟨_, rfl⟩
    · obtain ⟨i, -, h⟩ := except_bind h
      cases h; exact ⟨_, rfl⟩

omit [PyTrans (Ext K)] in
theorem oxide_single {args : Dict (PyVal (Ext K))} (hu : uniformShape args 1 1 1) {w w' : W} {v : PyVal (Ext K)}
    (h : computeOrLoop oxideFn args 1 1 1 w = (.ok v, w')) : ∃ x, v = .scal x := by
  obtain ⟨h1, h2⟩ := oxideVal_single hu
  have hne : ∀ e w2, (oxideFn : PyFun W (Ext K)).invoke args w = (.error e, w2) → e ≠ .valueError := by
    rintro e w2 he rfl
    unfold PyFun.invoke at he
    split at he
    · exact h1 (by simpa [oxideFn, M.ofExcept] using congrArg Prod.fst he)
    · cases he
  unfold computeOrLoop M.catchValueError at h
  cases hv : (oxideFn : PyFun W (Ext K)).invoke args w with
  | mk o w2 =>
    rw [hv] at h
    cases o with
    | ok x =>
      cases h
      obtain ⟨-, h3⟩ := invoke_ok hv
      exact h2 v (by simpa [oxideFn, M.ofExcept] using congrArg Prod.fst h3)
    | error e =>
      exfalso
      cases e <;> first | exact hne _ _ hv rfl | cases h

/-- **C66** does not hold for a single oxide: the parameter's function then returns a number, not an array, and
the first measurement fails. No simulation returns a report. -/
theorem C66_single_violated [LawfulRng W (Ext K)] [IsStrictOrderedRing K] {c thermal : ℚ} {ord : SetOrder}
    {weeks fuel : Nat} (hy : 0 < weeks) (hmax : weeks ≤ 1000000) (hf : weeks < fuel)
    {test : TestSpec (Ext K)} {dev : DeviceMdl W (Ext K)} {env : PhysTestEnv (Ext K)}
    (ht : tddbTest fuel 1 weeks = some (.ok test)) (hd : tddbDevice c thermal = .ok dev)
    (he : tddbEnv = .ok env) (w w' : W) (r : SimReport (Ext K)) :
    simulate ord test dev env none w ≠ (.ok r, w') := by
  intro hr
  cases ht.symm.trans (tddbTest_eq 1 hy hmax hf)
  cases hd.symm.trans (tddbDevice_eq c thermal)
  cases he.symm.trans tddbEnv_eq
  obtain ⟨s0, r0, s, r1, conds, t, ys, w0, w1, w2, u1, u2, u3, h1, h2, h3, h4, h5, h6, h7⟩ :=
    C57_instrument hr (pre := []) (post := copies weeks (tddbWeek 1)) (step := tddbMeas 1) rfl
      (List.nodup_singleton _) (List.mem_singleton.2 rfl)
  cases h2
  obtain ⟨g1, g2, g3, -, g5⟩ := simStart_shape_of (N := fun _ => True)
      (dev := tddbDev c thermal) (List.nodup_singleton _) (by
    intro p d hp
    obtain ⟨rfl, hd⟩ := tddbDev_get hp
    cases hd
    exact ⟨argEqn_shapes _, by simp [tddbPrm, initValMk, nameLatents]⟩) h1
  obtain ⟨k, lat, b1, b2, b3⟩ := g1.count "tddb" _ rfl
  obtain ⟨cur, k3, k4⟩ := (g1.deg "tddb" _ k rfl b1).prm
  have e1 : r0.info.numLots = 1 := g2
  have e2 : r0.info.numChps = 1 := g3
  have hreq : requests (tddbSteps 1 weeks : TestSpec (Ext K)).steps "tddb" 1 :=
    ⟨tddbMeas 1, List.mem_cons_self, List.mem_singleton.2 rfl⟩
  have hle : 1 ≤ k := by
    cases hb : (calcSamplesNeeded (tddbSteps 1 weeks : TestSpec (Ext K)).steps).get? "tddb" with
    | none => exact absurd hreq (((C08_max _ _).2.1 hb) 1)
    | some j =>
      obtain ⟨k', hk', hkk⟩ := g5.keeps hb
      cases b1.symm.trans hk'
      exact Nat.le_trans (((C08_max _ _).1 j |>.1 hb).2 1 hreq) hkk
  unfold measureTrue at h5
  rw [k3, show (tddbDev c thermal : DeviceMdl W (Ext K)).prms.get? "tddb" = some (.deg (tddbPrm c thermal)) from rfl]
    at h5
  simp only at h5
  obtain ⟨cs, c1, h8⟩ := M.getE_bind_ok.1 h5
  obtain ⟨lat', c2, h9⟩ := M.getE_bind_ok.1 h8
  cases b2.symm.trans c2
  obtain ⟨v, w3, h10, h11⟩ := M.bind_eq_ok.1 h9
  rw [h3, e1, e2] at h10
  rw [e1, e2] at b3 k4
  unfold DegPrmMdl.calcCondShifted at h10
  simp only at h10
  obtain ⟨clat, l1, l2⟩ := M.ofExcept_bind_ok.1 h10
  obtain ⟨shift, w4, l3, l4⟩ := M.bind_eq_ok.1 l2
  have hnd : cur.nd = k := k4.2.2
  have hlat : LatDims (if 1 < cur.nd then reduceLatents lat 1 else lat) 1 1 1 := by
    split
    · exact reduceLatents_dims b3 hle
    · have : 1 = k := by omega
      subst this
      exact b3
  have hcur : (if 1 < cur.nd then cur.takeDev 1 else cur).HasDims 1 1 1 := by
    split
    · obtain ⟨x1, x2, x3⟩ := k4
      have := Arr3.takeDev_hasDims cur (n := 1) (by omega)
      rwa [x1, x2] at this
    · have : 1 = k := by omega
      subst this
      exact k4
  have hsh : shift = .scal (ofRat 0) := by
    unfold calcCondVals at l3
    cases l3
    rfl
  subst hsh
  obtain ⟨x, rfl⟩ := oxide_single (shiftArgs_uniform (tddbPrm c thermal) hcur (by intro a h; cases h) hlat) l4
  obtain ⟨f1, -⟩ := M.ofExcept_eq_ok.1 h11
  cases f1

end single

/-! ## The counting generators -/

theorem counts_tddb : TddbDraws Counts ℝ where
  normal := fun i mu _ _ n w => ⟨_, _, rfl⟩
  gamma := fun n w => by
    have h : ∃ ps, (Dist.gamma (PyArith.ofRat 2) (PyArith.ofRat 1) : Dist (Ext ℝ)).getDistParams "numpy" =
        .ok ps := by
      have : PyArith.eq (PyArith.ofRat 1 : Ext ℝ) (PyArith.ofRat 0) ≠ true :=
        fun he => absurd ((lit_eq 1 0).1 he) (by norm_num)
      exact ⟨_, (if_neg (by decide)).trans ((if_pos rfl).trans (if_neg this))⟩
    obtain ⟨ps, hps⟩ := h
    unfold RVar.sample
    simp only [hps]
    exact ⟨_, _, rfl⟩
  uniform := fun n w => ⟨_, _, rfl⟩

/-- Ten years of the demonstration with 1000 oxides: it runs, all oxides are intact initially, and none
recovers. -/
example (ord : SetOrder) : ∃ r w',
    simulate ord (tddbSteps 1000 520) (tddbDev (1 / 10) 5 : DeviceMdl Counts (Ext ℝ)) tddbWorld none Counts.start =
      (.ok r, w') ∧
    (∃ x ∈ rowsAt r.measurements 0 "tddb", x.measured = PyArith.ofRat 1) ∧
    ∀ x ∈ rowsAt r.measurements (4 * 52) "tddb", ∀ x' ∈ rowsAt r.measurements (4 * 520) "tddb",
      place x = place x' → x.measured = PyArith.ofRat 0 → x'.measured = PyArith.ofRat 0 := by
  obtain ⟨test, dev, env, h1, h2, h3, r, w', h4, h5⟩ :=
    C66_run counts_tddb (1 / 10) 5 ord (samples := 1000) (by norm_num) (weeks := 520) (fuel := 521) (by norm_num)
      (by norm_num) (by norm_num) Counts.start
  have h6 : ∃ x, x ∈ rowsAt r.measurements 0 "tddb" := by
    have := congrArg List.length (h5 0 (by norm_num))
    refine List.exists_mem_of_length_pos ?_
    simp only [List.length_map, Nat.mul_zero] at this
    rw [this]
    simp [places]
  obtain ⟨x, hx⟩ := h6
  have hx1 := C66_initial counts_tddb (by norm_num) (by norm_num) (by norm_num) (by norm_num) h1 h2 h3 h4 hx
  have hp := fun x hx x' hx' hp h0 => C66_permanent counts_tddb (by norm_num) (by norm_num) (by norm_num)
    (by norm_num) h1 h2 h3 h4 (y := 52) (z := 520) (x := x) (x' := x') (by norm_num) (by norm_num) hx hx' hp h0
  cases h1.symm.trans (tddbTest_eq 1000 (by norm_num) (by norm_num) (by norm_num))
  cases h2.symm.trans (tddbDevice_eq _ _)
  cases h3.symm.trans tddbEnv_eq
  exact ⟨r, w', h4, ⟨x, hx, hx1⟩, hp⟩

/-- The demonstration with one oxide, which cannot be simulated. -/
example (ord : SetOrder) (w' : Counts) (r : SimReport (Ext ℝ)) :
    simulate ord (tddbSteps 1 520) (tddbDev (1 / 10) 5 : DeviceMdl Counts (Ext ℝ)) tddbWorld none Counts.start ≠
      (.ok r, w') :=
  C66_single_violated (fuel := 521) (by norm_num) (by norm_num) (by norm_num)
    (tddbTest_eq 1 (by norm_num) (by norm_num) (by norm_num)) (tddbDevice_eq _ _) tddbEnv_eq _ _ _

end Gerabaldi.Props
