import Verif.Props.TddbRun
import Verif.Props.Timeline

/-!
# C66: the states and readings of the TDDB demonstration
-/

namespace Gerabaldi.Spec

variable {K : Type} [Field K] [LinearOrder K]

/-- In state `s` the defect at this place of oxide `d` has formed. -/
def Formed (s : SimState (Ext K)) (d row col : Nat) : Prop :=
  ∃ ms a, s.currMech.get? "tddb" = some ms ∧ ms.get? (defectName row col) = some a ∧
    a.at' 0 0 d = PyArith.ofRat 1

open Classical in
/-- 0 after breakdown of the oxide and 1 before. -/
noncomputable def intact (formed : Nat → Nat → Prop) : Ext K :=
  if Breakdown formed then PyArith.ofRat 0 else PyArith.ofRat 1

end Gerabaldi.Spec

namespace Gerabaldi.Props

open Gerabaldi Gerabaldi.Spec

section state
variable {K : Type} [Field K] [LinearOrder K] [IsStrictOrderedRing K]
open PyArith

theorem lit_lt (p q : ℚ) : (lt (ofRat p : Ext K) (ofRat q) = true) ↔ p < q := by
  show decide ((p : K) < (q : K)) = true ↔ _
  rw [decide_eq_true_iff]
  exact Rat.cast_lt

theorem lit_eq (p q : ℚ) : (eq (ofRat p : Ext K) (ofRat q) = true) ↔ p = q := by
  show decide ((p : K) = (q : K)) = true ↔ _
  rw [decide_eq_true_iff]
  exact Rat.cast_inj

theorem bit_ne : (ofRat 1 : Ext K) ≠ ofRat 0 := by
  intro h
  have := (lit_eq (K := K) 1 0).1 (by rw [h]; exact (lit_eq 0 0).2 rfl)
  norm_num at this

theorem bit_above {x : Ext K} (hx : Bit x) : lt (ofRat (1 / 2)) x = true ↔ x = ofRat 1 := by
  rcases hx with rfl | rfl
  · rw [lit_lt]
    exact ⟨fun h => by norm_num at h, fun h => absurd h.symm bit_ne⟩
  · rw [lit_lt]
    exact ⟨fun _ => rfl, fun _ => by norm_num⟩

/-- The equation of the oxide for defects and a state of 0 or 1. -/
theorem oxideState_bits {env : String → Ext K} (ht : env "threshold" = ofRat (1 / 2))
    (hd : ∀ row < 3, ∀ col < 4, Bit (env (defectName row col))) (hi : env "init" = ofRat 1) :
    oxideState env = intact fun row col => env (defectName row col) = ofRat 1 := by
  have e1 : ¬ eq (env "init") (ofRat 0) = true := by
    rw [hi, lit_eq]
    norm_num
  have e2 : (Breakdown fun row col => lt (env "threshold") (env (defectName row col)) = true) ↔
      Breakdown fun row col => env (defectName row col) = ofRat 1 := by
    constructor
    · rintro ⟨c, hc, h⟩
      refine ⟨c, hc, fun r hr => ?_⟩
      have := h r hr
      simp only [ht] at this
      exact (bit_above (hd r hr c hc)).1 this
    · rintro ⟨c, hc, h⟩
      refine ⟨c, hc, fun r hr => ?_⟩
      simp only [ht]
      exact (bit_above (hd r hr c hc)).2 (h r hr)
  unfold oxideState intact
  by_cases hb : Breakdown fun row col => env (defectName row col) = ofRat 1
  · rw [if_pos (.inl (e2.2 hb)), if_pos hb]
  · rw [if_neg (not_or.2 ⟨fun h => hb (e2.1 h), e1⟩), if_neg hb]

theorem oxide_kept {W : Type} [FloorRing K] [Pow10 K] [PyTrans (Ext K)] [Rng W (Ext K)] (c thermal : ℚ)
    {lat : String → Option (Ext K)} (hl : lat "threshold" = some (ofRat (1 / 2))) {x : Ext K} (hx : Bit x) :
    Kept (tddbPrm c thermal : DegPrmMdl W (Ext K)) oxideState lat x := by
  have hm : ∀ k, ((tddbPrm c thermal : DegPrmMdl W (Ext K)).mechs.get? k) =
      if k ∈ defectNames then some (tddbMech c thermal k) else none := by
    intro k
    by_cases hk : k ∈ defectNames
    · rw [if_pos hk]
      obtain ⟨m, hm⟩ := Dict.get?_isSome_of_mem_keys (d := (tddbPrm c thermal : DegPrmMdl W (Ext K)).mechs)
        (by rw [tddb_keys]; exact hk)
      rw [hm, (tddb_mech_mem (Dict.mem_of_get? hm)).2]
    · rw [if_neg hk]
      exact (Dict.get?_eq_none_iff _ _).2 (by rw [tddb_keys]; exact hk)
  have hdn : ∀ row < 3, ∀ col < 4, defectName row col ∈ defectNames := by decide
  unfold Kept oxideState
  have hb : ¬ Breakdown fun row col =>
      lt (prmNames x (tddbPrm c thermal : DegPrmMdl W (Ext K)).condUnitary
        (fun k => ((tddbPrm c thermal : DegPrmMdl W (Ext K)).mechs.get? k).map (·.unitary)) lat "threshold")
        (prmNames x (tddbPrm c thermal : DegPrmMdl W (Ext K)).condUnitary
        (fun k => ((tddbPrm c thermal : DegPrmMdl W (Ext K)).mechs.get? k).map (·.unitary)) lat
          (defectName row col)) = true := by
    rintro ⟨col, hc, h⟩
    have h := h 0 (by norm_num)
    have e1 : "threshold" ∉ defectNames := by decide
    simp only [prmNames, hm, if_neg e1, if_pos (hdn 0 (by norm_num) col hc), hl, Option.map_none,
      Option.map_some, String.reduceEq, if_false, Option.getD_some] at h
    have h := (lit_lt (K := K) (1 / 2) 0).1 h
    norm_num at h
  have hi : prmNames x (tddbPrm c thermal : DegPrmMdl W (Ext K)).condUnitary
        (fun k => ((tddbPrm c thermal : DegPrmMdl W (Ext K)).mechs.get? k).map (·.unitary)) lat "init" = x := by
    have e1 : "init" ∉ defectNames := by decide
    simp only [prmNames, hm, if_neg e1, Option.map_none, if_true]
  rw [hi]
  rcases hx with rfl | rfl
  · rw [if_pos (.inr ((lit_eq 0 0).2 rfl))]
  · rw [if_neg (not_or.2 ⟨hb, fun h => by have := (lit_eq (K := K) 1 0).1 h; norm_num at this⟩)]

end state

section run
variable {K : Type} [Field K] [LinearOrder K] [IsStrictOrderedRing K] [FloorRing K] [Pow10 K]
variable [PyTrans (Ext K)] {W : Type} [Rng W (Ext K)]
open PyArith

/-- What holds in the states of the demonstration. -/
structure TddbInv (c thermal : ℚ) (q : Quantities) (s : SimState (Ext K)) : Prop where
  shape : StateShape (tddbDev c thermal : DeviceMdl W (Ext K)) q s
  bits : StateIn tddbRanges s
  there : LatentsThere (tddbDev c thermal : DeviceMdl W (Ext K)) s

theorem tddb_start [LawfulRng W (Ext K)] (h : TddbDraws W K) {c thermal : ℚ} {samples weeks : Nat}
    (hs : samples ≠ 1) (hw : weeks ≤ 1000000) {w w0 : W} {s0 : SimState (Ext K)} {r0 : SimReport (Ext K)}
    (h0 : simStart (tddbDev c thermal : DeviceMdl W (Ext K)) (tddbSteps samples weeks) none w =
      (.ok (s0, r0), w0)) :
    TddbInv (W := W) c thermal r0.info s0 ∧ SizesIn (· ≠ 1) r0.info ∧ r0.numLots = 1 ∧ r0.numChps = 1 ∧
      r0.measurements = [] ∧ s0.elapsed = .td 0 := by
  have hdev := tddbDev_works h c thermal
  obtain ⟨s, r, w1, h1, h2, h3, h4, h5⟩ := simStart_works hdev (tddbTest_ok c thermal samples hw) w
  cases h0.symm.trans h1
  obtain ⟨n1, -⟩ := genSizes (q := r0.info) (tddb_sizes hs weeks) h4 h5 h2
  obtain ⟨a1, -, -, a4, -⟩ := simStart_shape hdev.unique (fun p d hp => (hdev.deg p d hp).shapes) h0 n1
  exact ⟨⟨a1, (simStart_in (tddbDev_in c thermal) h0).1, simStart_latents hdev h0⟩, n1, h4, h5, a4, h3⟩

theorem tddb_inv [LawfulRng W (Ext K)] (h : TddbDraws W K) {c thermal : ℚ} {ord : SetOrder} {i : Nat}
    {steps : List (Step (Ext K))}
    (hst : StepsIn tddbRanges ord (tddbDev c thermal : DeviceMdl W (Ext K)) tddbWorld steps) {w0 w1 : W}
    {s0 s1 : SimState (Ext K)} {r0 r1 : SimReport (Ext K)} (hi : TddbInv (W := W) c thermal r0.info s0)
    (hq : SizesIn (· ≠ 1) r0.info) (hm : ∀ x ∈ r0.measurements, Bit x.measured)
    (h1 : runSteps ord (tddbDev c thermal : DeviceMdl W (Ext K)) tddbWorld i steps (s0, r0) w0 =
      (.ok (s1, r1), w1)) :
    TddbInv (W := W) c thermal r1.info s1 ∧ r1.info = r0.info ∧ s1.latents = s0.latents := by
  have hdev := tddbDev_works h c thermal
  obtain ⟨a1, a2⟩ := runSteps_shape hdev.unique (fun p d hp => (hdev.deg p d hp).unique)
    (fun p d hp => (hdev.deg p d hp).shapes) (sr := (s0, r0)) (sr' := (s1, r1)) hi.shape h1 hq
  have hl : s1.latents = s0.latents := by
    obtain ⟨rows, lines, b1, -⟩ := runSteps_ok.1 h1
    refine runDelta_inv (P := fun s => s.latents = s0.latents) b1 rfl ?_
    rintro st - i s1 s2 rows lines v1 v2 hP hst
    obtain ⟨_, _, _, _, _, _, b2, _, _, rfl, _⟩ := strsDelta_ok hst
    exact (stress_frame b2).2.2.2.trans hP
  refine ⟨⟨a1, (runSteps_in fin_closed (tddbDev_in c thermal) hst hi.bits hm h1).1, ?_⟩, a2, hl⟩
  exact ⟨fun p d hp => by rw [hl]; exact hi.there.deg p d hp, fun p d hp => by rw [hl]; exact hi.there.circ p d hp⟩

omit [IsStrictOrderedRing K] in
/-- The threshold is a half. -/
theorem TddbInv.half {c thermal : ℚ} {q : Quantities} {s : SimState (Ext K)}
    (h : TddbInv (W := W) c thermal q s) {n : Nat} (hn : q.devCounts.get? "tddb" = some n)
    {lat : Dict (LatNode (Ext K))} (hl : s.latents.get? "tddb" = some lat) {l c' d : Nat} (h1 : l < q.numLots)
    (h2 : c' < q.numChps) (h3 : d < n) : ownAt lat l c' d "threshold" = some (ofRat (1 / 2)) := by
  obtain ⟨lat', b1, b2⟩ := h.there.deg "tddb" _ rfl
  cases hl.symm.trans b1
  obtain ⟨a, ha⟩ := b2.own "threshold" (List.mem_singleton.2 rfl)
  unfold ownAt
  rw [ha]
  have hin : ArrIn (tddbRanges.arg "tddb" "threshold") a := ((h.bits.latents.get hl).get ha)
  obtain ⟨n', lat', c1, c2, c3⟩ := h.shape.count "tddb" _ rfl
  cases hl.symm.trans c2
  cases hn.symm.trans c1
  have hd : a.HasDims q.numLots q.numChps n := c3 _ _ (Dict.mem_of_get? ha)
  have := hin.at (l := l) (c := c') (d := d) (by rw [hd.1]; exact h1) (by rw [hd.2.1]; exact h2)
    (by rw [hd.2.2]; exact h3)
  exact congrArg some this

/-- The initial values are in the ranges of the initial value models, and no mechanism has degraded. -/
theorem start_values {V : Type} [PyNum V] [Rng W V] {dev : DeviceMdl W V} {B : String → V → Prop}
    (hdev : ∀ p d, (p, .deg d) ∈ dev.prms → ∃ A, DrawsIn A d.initMdl ∧ Maps d.initMdl.compute A (B p))
    {test : TestSpec V} {w w' : W} {s : SimState V} {r : SimReport V}
    (h : simStart dev test none w = (.ok (s, r), w')) :
    EveryEntry (fun p v => ValIn (B p) v) s.initPrm ∧
    EveryEntry (fun p ms => ∃ d, (p, .deg d) ∈ dev.prms ∧ EveryEntry (fun k a => ∃ m, (k, m) ∈ d.mechs ∧
      ArrIn (· = m.unitary) a) ms) s.currMech := by
  obtain ⟨x, w1, h1, h2⟩ := M.bind_eq_ok.1 h
  obtain ⟨s1, w2, h3, h4⟩ := M.bind_eq_ok.1 h1
  cases h4
  cases h2
  obtain ⟨s0, w3, h5, h6⟩ := M.bind_eq_ok.1 h3
  cases h6
  have : EveryEntry (fun p v => ValIn (B p) v) s0.initPrm ∧
    EveryEntry (fun p ms => ∃ d, (p, .deg d) ∈ dev.prms ∧ EveryEntry (fun k a => ∃ m, (k, m) ∈ d.mechs ∧
      ArrIn (· = m.unitary) a) ms) s0.currMech := by
    unfold DeviceMdl.genInitState at h5
    obtain ⟨acc, q1, q2⟩ := M.bind_pure_ok.1 h5
    subst q2
    refine M.forIn'_ok_inv (P := fun _ (acc : InitAcc V) _ =>
      EveryEntry (fun p v => ValIn (B p) v) acc.prm ∧
      EveryEntry (fun p ms => ∃ d, (p, .deg d) ∈ dev.prms ∧ EveryEntry (fun k a => ∃ m, (k, m) ∈ d.mechs ∧
        ArrIn (· = m.unitary) a) ms) acc.mech) q1 ⟨EveryEntry.nil, EveryEntry.nil⟩ ?_
    intro pre kv post b1 w1 b2 w2 hx hb hf
    have hmem : kv ∈ dev.prms := by rw [hx]; simp
    obtain ⟨p, m⟩ := kv
    unfold initStep at hf
    obtain ⟨n, -, hf⟩ := M.getE_bind_ok.1 hf
    obtain ⟨lat, w3, h3, hf⟩ := M.bind_eq_ok.1 hf
    cases m with
    | circ c => cases hf; exact hb
    | deg d =>
      obtain ⟨A, g1, g2⟩ := hdev p d hmem
      unfold PrmMdl.addInit at hf
      simp only at hf
      obtain ⟨k, -, hf⟩ := M.getE_bind_ok.1 hf
      obtain ⟨v, h5, hf⟩ := M.bind_pure_ok.1 hf
      subst hf
      refine ⟨hb.1.set ?_, hb.2.set ⟨d, hmem, ?_⟩⟩
      · unfold genInitVals at h5
        obtain ⟨l, w5, h6, h7⟩ := M.bind_eq_ok.1 h5
        exact g2.invoke ((drawn_in g1 h6).map (f := PyVal.arr) fun k a ha => ha) h7
      · intro k a hka
        obtain ⟨⟨k', m⟩, h7, h8⟩ := List.mem_map.1 hka
        cases h8
        exact ⟨m, h7, ArrIn.full rfl⟩
  exact this

/-- At the start the oxides are intact and have no defects. -/
theorem tddb_fresh {c thermal : ℚ} {test : TestSpec (Ext K)} {w w' : W} {s : SimState (Ext K)}
    {r : SimReport (Ext K)}
    (h : simStart (tddbDev c thermal : DeviceMdl W (Ext K)) test none w = (.ok (s, r), w')) :
    EveryEntry (fun _ v => ValIn (· = ofRat 1) v) s.initPrm ∧
      EveryEntry (fun _ ms => EveryEntry (fun _ a => ArrIn (· = ofRat 0) a) ms) s.currMech := by
  obtain ⟨h1, h2⟩ := start_values (B := fun _ x => x = ofRat 1) (fun p d hp => by
    cases List.mem_singleton.1 hp
    refine ⟨fun _ x => x = ofRat 1, ?_, ?_⟩
    · intro k lv hk n C L w a w' ha
      cases List.mem_singleton.1 hk
      exact constLatent_value ha
    · intro args w r w' ha hr
      exact ha.get (Dict.getE_eq_ok.1 (M.ofExcept_eq_ok.1 hr).1)) h
  refine ⟨h1, fun p ms hp k a hk => ?_⟩
  obtain ⟨d, g1, g2⟩ := h2 p ms hp
  cases List.mem_singleton.1 g1
  obtain ⟨m, g3, g4⟩ := g2 k a hk
  rw [(tddb_mech_mem g3).2] at g4
  exact g4

/-- What the equation of the parameter says in a state of the demonstration. -/
theorem TddbInv.intact {c thermal : ℚ} {q : Quantities} {s : SimState (Ext K)}
    (h : TddbInv (W := W) c thermal q s) {n L C : Nat} (hn : q.devCounts.get? "tddb" = some n)
    (hL : q.numLots = L) (hC : q.numChps = C)
    (hi : EveryEntry (fun _ v => ValIn (· = ofRat 1) v) s.initPrm)
    (hc : Computed (tddbPrm c thermal : DegPrmMdl W (Ext K)) oxideState s L C n "tddb") {a : Arr3 (Ext K)}
    (ha : s.currPrm.get? "tddb" = some (.arr a)) (hL1 : 0 < L) (hC1 : 0 < C) {d : Nat} (hd : d < n) :
    a.at' 0 0 d = Spec.intact (Formed s d) := by
  obtain ⟨ia, a', mv, lat, k1, k2, k3, k4, k5, k6, k7, k8⟩ := hc
  cases ha.symm.trans k3
  have hhold := h.shape.deg "tddb" _ n rfl hn
  obtain ⟨mv', j1, -, j3⟩ := hhold.mech
  cases k5.symm.trans j1
  have hmi : mv.get? "init" = none := (Dict.get?_eq_none_iff _ _).2 (by rw [k6, tddb_keys]; decide)
  have hmt : mv.get? "threshold" = none := (Dict.get?_eq_none_iff _ _).2 (by rw [k6, tddb_keys]; decide)
  have hdn : ∀ row < 3, ∀ col < 4, defectName row col ∈ defectNames := by decide
  have hmd : ∀ row < 3, ∀ col < 4, ∃ b, mv.get? (defectName row col) = some b ∧ Bit (b.at' 0 0 d) := by
    intro row hr col hc
    obtain ⟨b, hb⟩ := Dict.get?_isSome_of_mem_keys (d := mv) (k := defectName row col)
      (by rw [k6, tddb_keys]; exact hdn row hr col hc)
    refine ⟨b, hb, ?_⟩
    have hin : ArrIn (tddbRanges.arg "tddb" (defectName row col)) b := (h.bits.mech.get k5).get hb
    have hdim := j3 _ _ (Dict.mem_of_get? hb)
    exact (tddb_bit (.inl (hdn row hr col hc))).1 (hin.at (by rw [hdim.1, hL]; exact hL1)
      (by rw [hdim.2.1, hC]; exact hC1) (by rw [hdim.2.2]; exact hd))
  rw [k8 0 hL1 0 hC1 d hd, oxideState_bits]
  · unfold Spec.intact
    congr 1
    refine propext ?_
    unfold Breakdown
    refine exists_congr fun col => and_congr_right fun hc => forall_congr' fun row => imp_congr_right fun hr => ?_
    obtain ⟨b, hb, -⟩ := hmd row hr col hc
    show prmNames _ _ _ _ _ = _ ↔ _
    simp only [prmNames, hb, Option.map_some]
    constructor
    · exact fun h => ⟨mv, b, k5, hb, h⟩
    · rintro ⟨ms, b', e1, e2, e3⟩
      cases e1.symm.trans k5
      cases e2.symm.trans hb
      exact e3
  · simp only [prmNames, hmt, Option.map_none, String.reduceEq, if_false]
    rw [h.half hn k7 (by rw [hL]; exact hL1) (by rw [hC]; exact hC1) hd]
    rfl
  · intro row hr col hc
    obtain ⟨b, hb, hbit⟩ := hmd row hr col hc
    simp only [prmNames, hb, Option.map_some]
    exact hbit
  · simp only [prmNames, hmi, Option.map_none, if_true]
    have : ArrIn (· = ofRat 1) ia := hi.get k1
    exact this.at (by rw [k2.1]; exact hL1) (by rw [k2.2.1]; exact hC1) (by rw [k2.2.2]; exact hd)

theorem TddbInv.kept {c thermal : ℚ} {q : Quantities} {s : SimState (Ext K)}
    (h : TddbInv (W := W) c thermal q s) {L C k : Nat} (hL : q.numLots = L) (hC : q.numChps = C)
    (hk : ∀ n, q.devCounts.get? "tddb" = some n → n = k) :
    AllKept (tddbPrm c thermal : DegPrmMdl W (Ext K)) oxideState s L C k "tddb" := by
  intro a lat ha hlat l hl c' hc d hd
  obtain ⟨n, -, hn, -⟩ := h.shape.count "tddb" _ rfl
  cases hk n hn
  obtain ⟨b, hb, hdim⟩ := (h.shape.deg "tddb" _ _ rfl hn).prm
  cases ha.symm.trans hb
  have hin : ArrIn Bit a := h.bits.prm.get ha
  exact oxide_kept c thermal (h.half hn hlat (by rw [hL]; exact hl) (by rw [hC]; exact hc) hd)
    (hin.at (by rw [hdim.1, hL]; exact hl) (by rw [hdim.2.1, hC]; exact hc) (by rw [hdim.2.2]; exact hd))

omit [IsStrictOrderedRing K] [PyTrans (Ext K)] in
theorem tddb_weekTime (samples y : Nat) : ((copies y (tddbWeek samples : List (Step (Ext K)))).map stressLen).sum =
    (y * 168 * hourUs : ℚ) := by
  induction y with
  | zero => simp [copies]
  | succ y ih =>
    have : copies (y + 1) (tddbWeek samples : List (Step (Ext K))) =
        tddbWeek samples ++ copies y (tddbWeek samples) := by
      simp [copies, List.replicate_succ]
    rw [this, List.map_append, List.sum_append, ih]
    simp only [tddbWeek, List.map_cons, List.map_nil, List.sum_cons, List.sum_nil, stressLen, tddbLoad,
      Spec.timeVal]
    push_cast
    ring

omit [IsStrictOrderedRing K] [PyTrans (Ext K)] in
theorem tddb_stressTime (samples : Nat) {y weeks : Nat} (hyy : y ≤ weeks) {pre post : List (Step (Ext K))}
    (h : (tddbSteps samples weeks : TestSpec (Ext K)).steps = pre ++ post) (hl : pre.length = 4 * y) :
    (pre.map stressLen).sum = (y * 168 * hourUs : ℚ) := by
  have hp : pre = (tddbSteps samples weeks : TestSpec (Ext K)).steps.take (4 * y) := by
    rw [h, ← hl, List.take_left]
  subst hp
  obtain ⟨z, rfl⟩ := Nat.exists_eq_add_of_le hyy
  cases y with
  | zero => simp
  | succ y =>
    have e : (tddbSteps samples (y + 1 + z) : TestSpec (Ext K)).steps =
        (.meas (tddbMeas samples) :: (copies y (tddbWeek samples) ++ (tddbWeek samples).take 3)) ++
          (.meas (tddbMeas samples) :: copies z (tddbWeek samples)) := by
      have e : copies (y + 1 + z) (tddbWeek samples : List (Step (Ext K))) =
          copies y (tddbWeek samples) ++ (tddbWeek samples ++ copies z (tddbWeek samples)) := by
        simp [copies, List.replicate_add, List.replicate_succ']
      show _ :: copies (y + 1 + z) (tddbWeek samples) = _
      rw [e]
      simp [tddbWeek]
    have e2 : (.meas (tddbMeas samples) :: (copies y (tddbWeek samples) ++ (tddbWeek samples).take 3) :
        List (Step (Ext K))).length = 4 * (y + 1) := by
      simp [copies, tddbWeek]
      omega
    rw [e, ← e2, List.take_left]
    rw [List.map_cons, List.map_append, List.sum_cons, List.sum_append, tddb_weekTime]
    simp only [tddbWeek, List.take, List.map_cons, List.map_nil, List.sum_cons, List.sum_nil, stressLen, tddbLoad,
      Spec.timeVal]
    push_cast
    ring

/-- The demonstration up to the measurement after week `y`. -/
theorem tddb_reading [LawfulRng W (Ext K)] (h : TddbDraws W K) {c thermal : ℚ} {ord : SetOrder}
    {samples weeks : Nat} (hs : samples ≠ 1) (hw : weeks ≤ 1000000) {w w' : W} {r : SimReport (Ext K)}
    (hr : simulate ord (tddbSteps samples weeks) (tddbDev c thermal : DeviceMdl W (Ext K)) tddbWorld none w =
      (.ok r, w')) {y : Nat} (hy : y ≤ weeks) {s0 : SimState (Ext K)} {r0 : SimReport (Ext K)} {w0 : W}
    (h0 : simStart (tddbDev c thermal : DeviceMdl W (Ext K)) (tddbSteps samples weeks) none w =
      (.ok (s0, r0), w0)) {pre post : List (Step (Ext K))}
    (h3 : (tddbSteps samples weeks : TestSpec (Ext K)).steps = pre ++ .meas (tddbMeas samples) :: post)
    (h4 : pre.length = 4 * y) :
    ∃ s r1 w1, runSteps ord (tddbDev c thermal : DeviceMdl W (Ext K)) tddbWorld 0 pre (s0, r0) w0 =
        (.ok (s, r1), w1) ∧
      Spec.timeVal s.elapsed = y * 168 * hourUs ∧
      rowsAt r.measurements (4 * y) "tddb" = expectedRows 1 1 samples (fun _ _ d => intact (Formed s d)) "tddb"
        s.elapsed (4 * y) ∧
      TddbInv (W := W) c thermal r0.info s ∧ ∃ n, r0.info.devCounts.get? "tddb" = some n ∧ samples ≤ n := by
  have hdev := tddbDev_works h c thermal
  obtain ⟨i1, i2, i3, i4, i5, i6⟩ := tddb_start h hs hw h0
  have hst := tddbSteps_in (W := W) (K := K) c thermal ord samples weeks
  have hpre : StepsIn tddbRanges ord (tddbDev c thermal : DeviceMdl W (Ext K)) tddbWorld pre :=
    ⟨fun st hm => hst.stress st (by rw [h3]; simp [hm]), fun m hm => hst.measure m (by rw [h3]; simp [hm])⟩
  have hinfo : r.info = r0.info := by
    obtain ⟨⟨sf, rf⟩, w3, x1, x2⟩ := M.bind_eq_ok.1 hr
    cases x2
    obtain ⟨⟨s0', r0'⟩, w4, x3, x4⟩ := M.bind_eq_ok.1 x1
    cases h0.symm.trans x3
    obtain ⟨rows, lines, _, e⟩ := runSteps_ok.1 x4
    subst e
    rfl
  have hbit0 : ∀ x ∈ r0.measurements, Bit x.measured := by rw [i5]; exact fun _ h => (nomatch h)
  obtain ⟨s0', r0', s, r1, cur, k, ys, w0', w1, u2, u3, g1, g2, g3, g4, g5, g6, g7⟩ :=
    kept_reading hdev.unique (fun p d hp => (hdev.deg p d hp).unique) (fun p d hp => (hdev.deg p d hp).shapes) hr
      h3 (List.nodup_singleton _) (List.mem_singleton.2 rfl) (m := tddbPrm c thermal) rfl
      (oxide_equation rfl (by rw [tddb_keys]; decide)) rfl (by rw [hinfo]; exact i2)
      (by show 1 * 1 * samples ≠ 1; omega)
      (by
        intro s0' r0' w0' k e1 e2
        cases h0.symm.trans e1
        exact i1.kept i3 i4 fun n hn => Option.some.inj (hn.symm.trans e2))
      (by
        intro s0' r0' w0' s r1 w1 k e1 e2 e3
        cases h0.symm.trans e1
        obtain ⟨j1, j2, j3⟩ := tddb_inv h hpre i1 i2 hbit0 e2
        refine j1.kept (by rw [j2]; exact i3) (by rw [j2]; exact i4) fun n hn => ?_
        obtain ⟨b, hb, hdim⟩ := (j1.shape.deg "tddb" _ _ rfl hn).prm
        obtain ⟨ia, a, mv, lat, k1, k2, k3, k4, -⟩ := e3
        cases hb.symm.trans k3
        exact hdim.2.2.symm.trans k4.2.2)
  cases h0.symm.trans g1
  obtain ⟨j1, j2, j3⟩ := tddb_inv h hpre i1 i2 hbit0 g2
  have hinit : s.initPrm = s0.initPrm := by
    obtain ⟨rows, lines, a1, -⟩ := runSteps_ok.1 g2
    refine runDelta_inv (P := fun s => s.initPrm = s0.initPrm) a1 rfl ?_
    rintro st - i s1 s2 rows lines v1 v2 hP hst
    obtain ⟨_, _, _, _, _, _, a2, _, _, rfl, _⟩ := strsDelta_ok hst
    exact (stress_frame a2).2.1.trans hP
  obtain ⟨n, -, hn, -⟩ := j1.shape.count "tddb" _ rfl
  have hnk : n = k := by
    obtain ⟨b, hb, hdim⟩ := (j1.shape.deg "tddb" _ _ rfl hn).prm
    obtain ⟨ia, a, mv, lat, k1, k2, k3, k4, -⟩ := id g5
    cases hb.symm.trans k3
    exact hdim.2.2.symm.trans k4.2.2
  subst hnk
  refine ⟨s, r1, w1, g2, ?_, ?_, by rw [← j2]; exact j1, n, by rw [← j2]; exact hn, g4⟩
  · rw [C37_elapsed g2, i6, tddb_stressTime samples hy h3 h4]
    simp [Spec.timeVal]
  · have e : instrumentOf (tddbWorld : PhysTestEnv (Ext K)) "tddb" =
        { precision := none, range := none, error := none } := rfl
    rw [e] at g6
    rw [exact_reading g6, h4] at g7
    rw [g7]
    refine expectedRows_congr fun l hl c' hc d hd => ?_
    cases Nat.lt_one_iff.1 hl
    cases Nat.lt_one_iff.1 hc
    exact j1.intact hn (by rw [j2]; exact i3) (by rw [j2]; exact i4) (by rw [hinit]; exact (tddb_fresh h0).1) g5 g3
      Nat.one_pos Nat.one_pos (lt_of_lt_of_le hd g4)

end run

end Gerabaldi.Props
