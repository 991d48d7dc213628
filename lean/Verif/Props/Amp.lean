import Verif.Props.AmpTest
import Verif.Props.Table
import Verif.Props.Timeline

/-!
# C68: the simulations of `demos/vts_paper_presilicon_variability.py`
-/

namespace Gerabaldi.Props

open Gerabaldi Gerabaldi.Spec

/-- The number of measurement steps. -/
def measCount {V : Type} : List (Step V) → Nat
  | [] => 0
  | .meas _ :: rest => measCount rest + 1
  | _ :: rest => measCount rest

section
variable {K : Type} [Field K] [LinearOrder K] [IsStrictOrderedRing K] [FloorRing K] [Pow10 K]
variable [PyTrans (Ext K)]
variable {W : Type} [Rng W (Ext K)]
open PyArith

omit [IsStrictOrderedRing K] in
/-- Both parameters have `n` devices. -/
theorem amp_counts [LawfulRng W (Ext K)] {init ba ha : LatentVar (Ext K)}
    (hw : DeviceWorks (ampDev init ba ha : DeviceMdl W (Ext K)))
    {n : Nat} {test : TestSpec (Ext K)} (ht : AmpTest n test) {ord : SetOrder} {r : SimReport (Ext K)} {w w' : W}
    (h : simulate ord test (ampDev init ba ha) ampWorld none w = (.ok r, w')) :
    r.devCounts.get? "amp_gain" = some n ∧ r.devCounts.get? "v_th" = some n := by
  have hok := ampTest_ok (W := W) ht init ba ha
  obtain ⟨s0, r0, w0, h1, h2, -⟩ := simStart_works hw hok w
  obtain ⟨⟨sf, rf⟩, wf, hf1, hf3⟩ := M.bind_eq_ok.1 h
  obtain ⟨⟨si, ri⟩, wi, hf2, hf4⟩ := M.bind_eq_ok.1 hf1
  cases h1.symm.trans hf2
  cases hf3
  obtain ⟨rows, lines, -, rfl⟩ := runSteps_ok.1 hf4
  obtain ⟨a1, a2⟩ := ((genCounts_ok hok h2).measure _ ht.some).circCount "amp_gain" n (List.mem_singleton.2 rfl) _ rfl
  exact ⟨a1, a2 _ (gain_needs init ba ha)⟩

omit [IsStrictOrderedRing K] in
/-- The rows of one measurement. -/
theorem amp_places [LawfulRng W (Ext K)] {init ba ha : LatentVar (Ext K)}
    (hw : DeviceWorks (ampDev init ba ha : DeviceMdl W (Ext K)))
    {n : Nat} {test : TestSpec (Ext K)} (ht : AmpTest n test) {ord : SetOrder} {r : SimReport (Ext K)} {w w' : W}
    (h : simulate ord test (ampDev init ba ha) ampWorld none w = (.ok r, w'))
    {pre post : List (Step (Ext K))} (hs : test.steps = pre ++ .meas (ampMeas n) :: post) :
    (rowsAt r.measurements pre.length "amp_gain").map place = places (min n test.numLots) test.numChps n := by
  obtain ⟨c1, c2⟩ := amp_counts hw ht h
  refine circuit_places hw.unique (fun p d hp => (hw.deg p d hp).unique) (fun p d hp => (hw.deg p d hp).shapes) h hs
    (List.nodup_singleton _) (List.mem_singleton.2 rfl) (m := gainMdl) rfl (NumExpr.shapes amp_uses) c1 ?_
  intro p d _ hp
  rcases ampDev_get hp with ⟨rfl, -⟩ | ⟨-, hd⟩
  · exact c2
  · cases hd

/-- The length of the table of a test in which every measurement has `k` rows. -/
theorem stepTables_length {V : Type} {rows : List (MeasRow V)} {m : MeasSpec V} {p : String} {k : Nat}
    (hm : m.measurements.keys = [p]) {steps : List (Step V)} {i : Nat}
    (hst : ∀ x ∈ steps, x = .meas m ∨ ∃ st, x = .strs st)
    (h : ∀ pre post, steps = pre ++ .meas m :: post → (rowsAt rows (i + pre.length) p).length = k) :
    (stepTables rows i steps).length = measCount steps * k := by
  induction steps generalizing i with
  | nil => simp [stepTables, measCount]
  | cons st rest ih =>
    have hrest := ih (i := i + 1) (fun x hx => hst x (List.mem_cons_of_mem _ hx)) (fun pre post e => by
      have := h (st :: pre) post (by rw [e]; rfl)
      rwa [List.length_cons, Nat.add_comm pre.length 1, ← Nat.add_assoc] at this)
    show (stepTable rows i st ++ stepTables rows (i + 1) rest).length = _
    rw [List.length_append, hrest]
    rcases hst st List.mem_cons_self with rfl | ⟨st, rfl⟩
    · have h0 := h [] rest rfl
      show (m.measurements.keys.flatMap (rowsAt rows i)).length + _ = (measCount rest + 1) * k
      rw [hm, List.flatMap_singleton]
      simp only [List.length_nil, Nat.add_zero] at h0
      rw [h0]
      ring
    · show 0 + _ = measCount rest * k
      rw [Nat.zero_add]

omit [IsStrictOrderedRing K] in
/-- The size of the whole table. -/
theorem amp_length [LawfulRng W (Ext K)] {init ba ha : LatentVar (Ext K)}
    (hw : DeviceWorks (ampDev init ba ha : DeviceMdl W (Ext K)))
    {n : Nat} {test : TestSpec (Ext K)} (ht : AmpTest n test) {ord : SetOrder} {r : SimReport (Ext K)} {w w' : W}
    (h : simulate ord test (ampDev init ba ha) ampWorld none w = (.ok r, w')) :
    r.measurements.length = measCount test.steps * (min n test.numLots * test.numChps * n) := by
  have hm : ∀ m, .meas m ∈ test.steps → m = ampMeas n := by
    intro m hm
    rcases ht.steps _ hm with hm | ⟨_, _, _, _, hm⟩ <;> cases hm
    rfl
  rw [C69_table (fun m h => by rw [hm m h]; exact List.nodup_singleton _) h]
  refine stepTables_length (m := ampMeas n) rfl (fun x hx => ?_) (fun pre post e => ?_)
  · rcases ht.steps x hx with h | ⟨_, _, _, _, h⟩
    · exact .inl h
    · exact .inr ⟨_, h⟩
  · have := congrArg List.length (amp_places hw ht h e)
    rw [List.length_map, places_length] at this
    rw [Nat.zero_add, Nat.mul_assoc]
    exact this

theorem measCount_append {V : Type} (a b : List (Step V)) : measCount (a ++ b) = measCount a + measCount b := by
  induction a with
  | nil => simp [measCount]
  | cons x a ih => cases x <;> (simp [measCount, ih]; try omega)

omit [IsStrictOrderedRing K] [PyTrans (Ext K)] in
theorem loop_measCount (n chps lots cycles : Nat) (celsius : ℚ) (stress test : String) :
    measCount (loopSteps n chps lots cycles celsius stress test : TestSpec (Ext K)).steps = cycles + 1 := by
  have : ∀ m, measCount (copies m (loopCycle n celsius stress : List (Step (Ext K)))) = m := by
    intro m
    induction m with
    | zero => rfl
    | succ m ih =>
      have e : copies (m + 1) (loopCycle n celsius stress : List (Step (Ext K))) =
        loopCycle n celsius stress ++ copies m (loopCycle n celsius stress) := by
        simp [copies, List.replicate_succ]
      rw [e, measCount_append, ih]
      simp [loopCycle, measCount]
      omega
  show measCount (copies cycles _) + 1 = _
  rw [this]

omit [IsStrictOrderedRing K] [PyTrans (Ext K)] in
theorem ramp_measCount (n chps lots cycles : Nat) :
    measCount (rampSteps n chps lots cycles : TestSpec (Ext K)).steps = 2 * cycles + 1 := by
  have : ∀ m, measCount ((List.range m).flatMap (rampCycle n : Nat → List (Step (Ext K)))) = 2 * m := by
    intro m
    induction m with
    | zero => rfl
    | succ m ih =>
      rw [List.range_succ, List.flatMap_append, measCount_append, ih]
      simp [rampCycle, measCount]
      omega
  show measCount ((List.range cycles).flatMap _) + 1 = _
  rw [this]

/-- The simulation succeeds with `n` transistors and amplifiers on every chip, and its table has the rows of `k`
measurements of the amplifiers, each with one row for every amplifier. -/
def AmpRun (ord : SetOrder) (n : Nat) (test : TestSpec (Ext K)) (dev : DeviceMdl W (Ext K)) (env : PhysTestEnv (Ext K))
    (w : W) (k : Nat) : Prop :=
  ∃ r w', simulate ord test dev env none w = (.ok r, w') ∧
    r.devCounts.get? "v_th" = some n ∧ r.devCounts.get? "amp_gain" = some n ∧
    r.measurements.length = k * (min n test.numLots * test.numChps * n) ∧
    ∀ pre post m, test.steps = pre ++ .meas m :: post →
      (rowsAt r.measurements pre.length "amp_gain").map place = places (min n test.numLots) test.numChps n

omit [IsStrictOrderedRing K] in
theorem amp_run [LawfulRng W (Ext K)] (h : FiniteNormals W K) {init ba ha : LatentVar (Ext K)}
    (hi : CanDraw W init) (hb : CanDraw W ba) (hh : CanDraw W ha) (ord : SetOrder) {n : Nat} {test : TestSpec (Ext K)}
    (ht : AmpTest n test) (w : W) :
    AmpRun ord n test (ampDev init ba ha) ampWorld w (measCount test.steps) := by
  have hw := ampDev_works h hi hb hh
  obtain ⟨r, w', hr⟩ := C53_generated ord hw (ampWorld_draws h) (ampTest_ok ht init ba ha) w
  obtain ⟨c1, c2⟩ := amp_counts hw ht hr
  refine ⟨r, w', hr, c2, c1, amp_length hw ht hr, fun pre post m e => ?_⟩
  rcases ht.steps (.meas m) (by rw [e]; simp) with hm | ⟨_, _, _, _, hm⟩
  · cases hm
    exact amp_places hw ht hr e
  · cases hm

omit [IsStrictOrderedRing K] in
/-- **C68**, the runs: for every number of amplifiers, chips and lots, up to a million cycles, every generator whose
normal distributions give finite numbers and every set order, building the two devices, the environment and the
three tests succeeds, and so do all six simulations. Every chip has `n` transistors and amplifiers; the tables have
one row for each measured amplifier at the beginning and after each stress step and no others. With fewer amplifiers
than lots only the first `n` lots are measured. -/
theorem C68_run [LawfulRng W (Ext K)] (h : FiniteNormals W K) (ord : SetOrder) (n chps lots : Nat)
    {cycles fuel : Nat} (hc : 0 < cycles) (hmax : cycles ≤ 1000000) (hf : cycles < fuel) :
    ∃ dev dev' : DeviceMdl W (Ext K), ∃ env htol ltol ramp, ampDevice = .ok dev ∧ ampNewProcess dev = .ok dev' ∧
      ampEnv = .ok env ∧
      ampLoopTest fuel n chps lots cycles 125 "HTOL Stress" "HTOL Similar Test" = some (.ok htol) ∧
      ampLoopTest fuel n chps lots cycles (-10) "Low Temperature Stress" "LTOL Similar Test" = some (.ok ltol) ∧
      ampRampTest n chps lots cycles = .ok ramp ∧
      ∀ d ∈ [dev, dev'], ∀ w, AmpRun ord n htol d env w (cycles + 1) ∧ AmpRun ord n ltol d env w (cycles + 1) ∧
        AmpRun ord n ramp d env w (2 * cycles + 1) := by
  refine ⟨curDev, newDev, ampWorld, _, _, _, ampDevice_eq, ampNewProcess_eq, ampEnv_eq,
    ampLoopTest_eq n chps lots hc hmax hf _ _ _, ampLoopTest_eq n chps lots hc hmax hf _ _ _,
    ampRampTest_eq n chps lots cycles, fun d hd w => ?_⟩
  have key : ∀ {test : TestSpec (Ext K)}, AmpTest n test → AmpRun ord n test d ampWorld w (measCount test.steps) := by
    intro test ht
    simp only [List.mem_cons, List.not_mem_nil, or_false] at hd
    rcases hd with rfl | rfl
    · exact amp_run h (curInit_draws h) (curBti_draws h) (curHci_draws h) ord ht w
    · exact amp_run h (newInit_draws h) (newBti_draws h) (newHci_draws h) ord ht w
  have k1 := key (loop_amp n chps lots hmax 125 "HTOL Stress" "HTOL Similar Test")
  have k2 := key (loop_amp n chps lots hmax (-10) "Low Temperature Stress" "LTOL Similar Test")
  have k3 := key (ramp_amp n chps lots hmax)
  rw [loop_measCount] at k1 k2
  rw [ramp_measCount] at k3
  exact ⟨k1, k2, k3⟩

/-! ### The gains -/

/-- The constants of the amplifier. -/
def gainConst : String → Option (Ext K)
  | "u_n" => some (ofRat 1)
  | "c_ox" => some (ofRat 1)
  | "w" => some (ofRat 8)
  | "l" => some (ofRat 2)
  | "v_e" => some (ofRat 5)
  | _ => none

/-- The latent values of the amplifiers are its constants. -/
theorem gain_latents {init ba ha : LatentVar (Ext K)} (hw : DeviceWorks (ampDev init ba ha : DeviceMdl W (Ext K)))
    {test : TestSpec (Ext K)} {s : SimState (Ext K)} {r : SimReport (Ext K)} {w w' : W}
    (h : simStart (ampDev init ba ha) test none w = (.ok (s, r), w')) {lat : Dict (LatNode (Ext K))}
    (hlat : s.latents.get? "amp_gain" = some lat) {n : Nat} (hn : r.devCounts.get? "amp_gain" = some n) {l c d : Nat}
    (hl : l < test.numLots) (hc : c < test.numChps) (hd : d < n) :
    (∀ k v, gainConst k = some v → ownAt lat l c d k = some v) ∧ ∀ k, gainConst (K := K) k = none →
      ownAt lat l c d k = none := by
  obtain ⟨x, w1, h1, h2⟩ := M.bind_eq_ok.1 h
  obtain ⟨s1, w2, h3, h4⟩ := M.bind_eq_ok.1 h1
  cases h4
  cases h2
  obtain ⟨s0, w3, h5, h6⟩ := M.bind_eq_ok.1 h3
  cases h6
  obtain ⟨_, _, _, a4, _⟩ := devInit_ok hw.unique h5
  obtain ⟨n', lat', b1, b2, ⟨u, u', b3⟩, -⟩ := a4 "amp_gain" _ rfl
  have : n' = n := Option.some.inj (Eq.trans (Eq.symm b1) hn)
  subst this
  have : lat' = lat := Option.some.inj (Eq.trans (Eq.symm b2) hlat)
  subst this
  obtain ⟨own, b4, rfl⟩ := M.bind_pure_ok.1 b3
  have hk : own.keys = ["u_n", "c_ox", "w", "l", "v_e"] := latents_keys b4
  have hdims := genLatent_dims b4
  have hval := drawn_in (A := fun k x => ∀ v, gainConst k = some v → x = v) (fun k lv hk n C L w a w' ha x hx v hv => by
    have hk : (k, lv) ∈ [("u_n", (constLatent (ofRat 1) : LatentVar (Ext K)).setName (some "u_n")),
      ("c_ox", (constLatent (ofRat 1)).setName (some "c_ox")), ("w", (constLatent (ofRat 8)).setName (some "w")),
      ("l", (constLatent (ofRat 2)).setName (some "l")), ("v_e", (constLatent (ofRat 5)).setName (some "v_e"))] := hk
    simp only [List.mem_cons, List.not_mem_nil, or_false, Prod.mk.injEq] at hk
    rcases hk with ⟨rfl, rfl⟩ | ⟨rfl, rfl⟩ | ⟨rfl, rfl⟩ | ⟨rfl, rfl⟩ | ⟨rfl, rfl⟩ <;> cases hv <;>
      exact constLatent_value ha x hx) b4
  have hmem : ∀ k, k ∈ own.keys ↔ ∃ v, gainConst (K := K) k = some v := by
    intro k
    rw [hk]
    constructor
    · intro h
      simp only [List.mem_cons, List.not_mem_nil, or_false] at h
      rcases h with rfl | rfl | rfl | rfl | rfl <;> exact ⟨_, rfl⟩
    · rintro ⟨v, hv⟩
      unfold gainConst at hv
      split at hv <;> first | (cases hv; done) | simp
  have hget := Dict.get?_map (fun _ (a : Arr3 (Ext K)) => LatNode.arr a) own
  refine ⟨fun k v hv => ?_, fun k hv => ?_⟩
  · obtain ⟨a, ha⟩ := Dict.get?_isSome_of_mem_keys ((hmem k).2 ⟨v, hv⟩)
    unfold ownAt
    rw [hget, ha]
    obtain ⟨i1, i2, i3⟩ := hdims k a (Dict.mem_of_get? ha)
    exact congrArg some (hval k a (Dict.mem_of_get? ha) _
      (Arr3.at_mem a (by rw [i1]; exact hl) (by rw [i2]; exact hc) (by rw [i3]; exact hd)) v hv)
  · unfold ownAt
    rw [hget, (Dict.get?_eq_none_iff _ _).2 (fun h => by
      obtain ⟨v, h⟩ := (hmem k).1 h
      rw [hv] at h
      cases h)]
    rfl

omit [PyTrans (Ext K)] [IsStrictOrderedRing K] in
/-- The conditions of a measurement are the temperature and the supply voltage, and finite. -/
theorem amp_conds (h : FiniteNormals W K) {n : Nat} {ord : SetOrder} {q : Quantities} {dev : DeviceMdl W (Ext K)}
    {w w' : W} {conds : Dict (Dict (Arr3 (Ext K)))}
    (hc : ampWorld.genEnvCondVals ord (ampMeas n : MeasSpec (Ext K)).conditions
      (.counts (ampMeas n : MeasSpec (Ext K)).measurements) (some q) (some dev) .measure 1 1 w = (.ok conds, w')) :
    EveryEntry (fun _ cs => EveryEntry (fun k a => ArrIn (fun x => (k = "temp" ∨ k = "vdd") ∧ IsFin x) a) cs) conds := by
  refine conds_in_of (F := fun k x => (k = "temp" ∨ k = "vdd") ∧ IsFin x) ?_ ?_ hc
  · intro k hk
    have hk : k ∈ ["temp", "vdd"] := hk
    have key : ∀ {o : RVar (Ext K)}, SamplesIn W IsFin o → SamplesIn W (fun x => (k = "temp" ∨ k = "vdd") ∧ IsFin x) o :=
      fun ho n w xs w' hxs x hx => ⟨by simpa using hk, ho n w xs w' hxs x hx⟩
    have hk' : k = "temp" ∨ k = "vdd" := by simpa using hk
    rcases hk' with rfl | rfl
    · exact ⟨fun x y hx hy => ⟨hx.1, fin_add hx.2 hy.2⟩, key (samplesIn_fixed rfl ⟨_, rfl⟩),
        key (normal_fin h 501 0 (by norm_num)), key (normal_fin h 500 0 (by norm_num))⟩
    · exact ⟨fun x y hx hy => ⟨hx.1, fin_add hx.2 hy.2⟩, key (samplesIn_fixed rfl ⟨_, rfl⟩),
        key (normal_fin h 511 0 (by norm_num)), key (normal_fin h 510 0 (by norm_num))⟩
  · intro k v hv
    simp only [ampMeas, List.mem_cons, List.not_mem_nil, or_false, Prod.mk.injEq] at hv
    rcases hv with ⟨rfl, rfl⟩ | ⟨rfl, rfl⟩
    · exact ⟨.inl rfl, _, rfl⟩
    · exact ⟨.inr rfl, _, rfl⟩

/-- The gain of an amplifier with supply voltage `vdd` and threshold voltage `vth`. -/
def gainOf (vdd vth : K) : K := 20 * (54 / 100 * vdd - vth) / (69 / 100 * vdd - vth) ^ 2

omit [PyTrans (Ext K)] in
theorem ampExpr_value {env : String → Ext K} (h1 : env "u_n" = ofRat 1) (h2 : env "c_ox" = ofRat 1)
    (h3 : env "w" = ofRat 8) (h4 : env "l" = ofRat 2) (h5 : env "v_e" = ofRat 5) {u v : K}
    (h6 : env "vdd" = .fin u) (h7 : env "v_th" = .fin v) (h8 : 54 / 100 * u ≠ v) (h9 : 69 / 100 * u ≠ v) :
    exprOn env ampExpr = .fin (gainOf u v) := by
  have lit : ∀ q : ℚ, (ofRat q : Ext K) = .fin (q : K) := fun q => rfl
  have fdiv : ∀ {x y : K}, y ≠ 0 → div (.fin x : Ext K) (.fin y) = .fin (x / y) := fun {x y} h => if_neg h
  have fmul : ∀ x y : K, mul (.fin x : Ext K) (.fin y) = .fin (x * y) := fun _ _ => rfl
  have fsub : ∀ x y : K, sub (.fin x : Ext K) (.fin y) = .fin (x - y) :=
    fun x y => congrArg Ext.fin (sub_eq_add_neg x y).symm
  have hu := sub_ne_zero.2 h8
  have hv := sub_ne_zero.2 h9
  simp only [ampExpr, overdrive, drainCurrent, exprOn, h1, h2, h3, h4, h5, h6, h7, lit, fmul, fsub]
  push_cast
  rw [fdiv (by norm_num), fmul, fmul, fmul, fmul, fdiv hu, fmul, fdiv]
  · rw [fmul]
    congr 1
    unfold gainOf
    field_simp
    ring
  · have : (2 : K) ≠ 0 := two_ne_zero
    simp only [ne_eq, mul_eq_zero, not_or]
    exact ⟨by norm_num, hv, hv⟩

omit [Rng W (Ext K)] in
theorem vth_neutral (init ba ha : LatentVar (Ext K)) :
    Neutral (vthPrm init ba ha : DegPrmMdl W (Ext K)) fun env => exprOn env vthExpr := by
  intro x lat
  show add (add (add x (ofRat 0)) (ofRat 0)) (ofRat 0) = x
  rw [UnitLaws.add_zero, UnitLaws.add_zero, UnitLaws.add_zero]

/-- **C68**, the gains: the reading of each amplifier is `20 (0.54 vdd - v) / (0.69 vdd - v)²` for the true threshold
voltage `v` and the supply voltage of that very amplifier, unless one of these differences is zero; the supply voltage
is always finite. The true threshold voltage is its own initial value plus the BTI and HCI shifts of that very
transistor, in the state that the preceding steps leave; the reading is taken at the sum of the durations of the
preceding stress steps. -/
theorem C68_gain [LawfulRng W (Ext K)] (h : FiniteNormals W K) {init ba ha : LatentVar (Ext K)}
    (hi : CanDraw W init) (hb : CanDraw W ba) (hh : CanDraw W ha) {ord : SetOrder} {n : Nat}
    {test : TestSpec (Ext K)} (ht : AmpTest n test) {r : SimReport (Ext K)} {w w' : W}
    (hr : simulate ord test (ampDev init ba ha) ampWorld none w = (.ok r, w'))
    {pre post : List (Step (Ext K))} (hs : test.steps = pre ++ .meas (ampMeas n) :: post) :
    ∃ s0 r0 s r1 conds cs, ∃ ia cur bti hci vdd : Arr3 (Ext K), ∃ gain mv, ∃ w0 w1 w2 : W,
      simStart (ampDev init ba ha) test none w = (.ok (s0, r0), w0) ∧
      runSteps ord (ampDev init ba ha) ampWorld 0 pre (s0, r0) w0 = (.ok (s, r1), w1) ∧
      ampWorld.genEnvCondVals ord (ampMeas n : MeasSpec (Ext K)).conditions (.counts (ampMeas n : MeasSpec (Ext K)).measurements)
        (some r.info) (some (ampDev init ba ha : DeviceMdl W (Ext K))) .measure 1 1 w1 = (.ok conds, w2) ∧
      conds.get? "amp_gain" = some cs ∧ cs.get? "vdd" = some vdd ∧
      s.initPrm = s0.initPrm ∧ s.initPrm.get? "v_th" = some (.arr ia) ∧ s.currPrm.get? "v_th" = some (.arr cur) ∧
      s.currMech.get? "v_th" = some mv ∧ mv.get? "bti" = some bti ∧ mv.get? "hci" = some hci ∧
      Spec.timeVal s.elapsed = (pre.map stressLen).sum ∧
      rowsAt r.measurements pre.length "amp_gain" =
        expectedRows (min n test.numLots) test.numChps n gain "amp_gain" s.elapsed pre.length ∧
      ∀ l < min n test.numLots, ∀ c < test.numChps, ∀ d < n,
        cur.at' l c d = add (add (ia.at' l c d) (bti.at' l c d)) (hci.at' l c d) ∧
        ∃ u, vdd.at' l c d = .fin u ∧ ∀ v, cur.at' l c d = .fin v → 54 / 100 * u ≠ v → 69 / 100 * u ≠ v →
          gain l c d = .fin (gainOf u v) := by
  have hw := ampDev_works h hi hb hh
  obtain ⟨c1, c2⟩ := amp_counts hw ht hr
  obtain ⟨s0, r0, s, r1, conds, cs, lat, ys, w0, w1, w2, u2, u3, g1, g2, g3, g4, g5, g6, g7⟩ :=
    C67_reading hw.unique (fun p d hp => (hw.deg p d hp).unique) (fun p d hp => (hw.deg p d hp).shapes) hr hs
      (List.nodup_singleton _) (List.mem_singleton.2 rfl) (m := gainMdl) rfl (expr_circuit amp_uses) c1 (by
        intro p d _ hp
        rcases ampDev_get hp with ⟨rfl, -⟩ | ⟨-, hd⟩
        · exact c2
        · cases hd)
  have hinv : s.initPrm = s0.initPrm ∧ s.latents = s0.latents := by
    obtain ⟨rows, lines, a1, -⟩ := runSteps_ok.1 g2
    refine runDelta_inv (P := fun s => s.initPrm = s0.initPrm ∧ s.latents = s0.latents) a1 ⟨rfl, rfl⟩ ?_
    rintro st - i s1 s2 rows lines v1 v2 ⟨p1, p2⟩ hst
    obtain ⟨_, _, _, _, _, _, a2, _, _, rfl, _⟩ := strsDelta_ok hst
    exact ⟨(stress_frame a2).2.1.trans p1, (stress_frame a2).2.2.2.trans p2⟩
  obtain ⟨f1, f2, f3, -⟩ := simStart_shape hw.unique (fun p d hp => (hw.deg p d hp).shapes) g1
  obtain ⟨⟨sf, rf⟩, wf, hf1, hf3⟩ := M.bind_eq_ok.1 hr
  obtain ⟨⟨si, ri⟩, wi, hf2, hf4⟩ := M.bind_eq_ok.1 hf1
  cases g1.symm.trans hf2
  have hinfo : r0.info = r.info := by
    cases hf3
    obtain ⟨rows, lines, -, rfl⟩ := runSteps_ok.1 hf4
    rfl
  have hcomp : Computed (vthPrm init ba ha : DegPrmMdl W (Ext K)) (fun env => exprOn env vthExpr) s r0.info.numLots
      r0.info.numChps n "v_th" := by
    have hq : r0.info.devCounts.get? "v_th" = some n := by rw [hinfo]; exact c2
    refine C65_run hw.unique (fun p d hp => (hw.deg p d hp).unique) (fun p d hp => (hw.deg p d hp).shapes) f1 g2 rfl
      (expr_equation rfl vth_uses) hq ?_
    exact C65_start hw.unique (fun p d hp => (hw.deg p d hp).shapes) g1 rfl hq
      fun a lat _ _ l _ c _ d _ => vth_neutral init ba ha _ _
  obtain ⟨ia, cur, mv, lv, k1, k2, k3, k4, k5, k6, k7, k8⟩ := hcomp
  obtain ⟨bti, hbti⟩ : ∃ a, mv.get? "bti" = some a :=
    Dict.get?_isSome_of_mem_keys (by rw [k6]; simp [vthPrm, Dict.keys])
  obtain ⟨hci, hhci⟩ : ∃ a, mv.get? "hci" = some a :=
    Dict.get?_isSome_of_mem_keys (by rw [k6]; simp [vthPrm, Dict.keys])
  have hmi : mv.get? "init" = none := (Dict.get?_eq_none_iff _ _).2 (by rw [k6]; simp [vthPrm, Dict.keys])
  have hmc : mv.get? "cond" = none := (Dict.get?_eq_none_iff _ _).2 (by rw [k6]; simp [vthPrm, Dict.keys])
  obtain ⟨vdd, hvdd⟩ : ∃ a, cs.get? "vdd" = some a := by
    obtain ⟨_, _, _, _, _, -, -, -, q⟩ := C18_shared (cond := "vdd") (v := ofRat (86 / 100))
      (by simp [ampMeas, Dict.Nodup, Dict.keys]) g3 rfl rfl rfl
    obtain ⟨a, _, _, _, _, _, ha, -⟩ := q "amp_gain" (List.mem_singleton.2 rfl) (.circ gainMdl) rfl
      (by simp [NeedsCond, gainMdl, NumExpr.fn, PyFun.argNames, ampParams])
    unfold condOf at ha
    rw [g4] at ha
    exact ⟨a, ha⟩
  have hin := amp_conds h g3 _ _ (Dict.mem_of_get? g4)
  have hcd : GetDims cs test.numLots test.numChps n := by
    have := conds_dims g3 rfl (show "amp_gain" ∈ Dict.keys _ from List.mem_singleton.2 rfl)
      (by simp [ampDev, Dict.keys]) (n := n) rfl g4
    rw [← hinfo] at this
    exact f2 ▸ f3 ▸ this
  have hdim := hcd _ _ hvdd
  have e : instrumentOf (ampWorld : PhysTestEnv (Ext K)) "amp_gain" =
        { precision := none, range := none, error := none } := rfl
  rw [e] at g6
  rw [exact_reading g6] at g7
  obtain ⟨s0', r0', w0', q1, -, q3, -⟩ := simStart_works hw (ampTest_ok (W := W) ht init ba ha) w
  cases g1.symm.trans q1
  refine ⟨s0, r0, s, r1, conds, cs, ia, cur, bti, hci, vdd, _, mv, w0, w1, w2, g1, g2, g3, g4, hvdd, hinv.1, k1, k3, k5,
    hbti, hhci, ?_, g7, ?_⟩
  · rw [C37_elapsed g2, q3]
    simp [Spec.timeVal]
  intro l hl c hc d hd
  have hl' : l < r0.info.numLots := by
    have : r0.info.numLots = test.numLots := f2
    rw [this]
    exact lt_of_lt_of_le hl (Nat.min_le_right _ _)
  have hc' : c < r0.info.numChps := by
    have : r0.info.numChps = test.numChps := f3
    rw [this]
    exact hc
  refine ⟨?_, ?_⟩
  · rw [k8 l hl' c hc' d hd]
    show add (add (add (prmNames _ _ _ _ "init") (prmNames _ _ _ _ "bti")) (prmNames _ _ _ _ "hci"))
      (prmNames _ _ _ _ "cond") = _
    simp only [prmNames, hmi, hmc, hbti, hhci, Option.map_some, Option.map_none, if_true, String.reduceEq, if_false]
    exact UnitLaws.add_zero _
  · obtain ⟨u, hu⟩ : IsFin (vdd.at' l c d) := by
      obtain ⟨i1, i2, i3⟩ := hdim
      exact And.right <| hin _ _ (Dict.mem_of_get? hvdd) _ (Arr3.at_mem vdd (by rw [i1]; exact lt_of_lt_of_le hl (Nat.min_le_right _ _)) (by rw [i2]; exact hc)
        (by rw [i3]; exact hd))
    refine ⟨u, hu, fun v hv h8 h9 => ?_⟩
    rw [hinv.2] at g5
    obtain ⟨hlat, hno⟩ := gain_latents hw g1 g5 (by rw [show r0.devCounts = r.devCounts from congrArg (·.devCounts) hinfo]; exact c1)
      (lt_of_lt_of_le hl (Nat.min_le_right _ _)) hc hd
    have hcond : cs.get? "v_th" = none := by
      cases hg : cs.get? "v_th" with
      | none => rfl
      | some a =>
        obtain ⟨i1, i2, i3⟩ := hcd _ _ hg
        have := (hin _ _ (Dict.mem_of_get? hg) _ (Arr3.at_mem a
          (by rw [i1]; exact lt_of_lt_of_le hl (Nat.min_le_right _ _)) (by rw [i2]; exact hc) (by rw [i3]; exact hd))).1
        simp at this
    have n1 := hno "vdd" rfl
    have n2 := hno "v_th" rfl
    have m1 := hlat "u_n" _ rfl
    have m2 := hlat "c_ox" _ rfl
    have m3 := hlat "w" _ rfl
    have m4 := hlat "l" _ rfl
    have m5 := hlat "v_e" _ rfl
    refine ampExpr_value (by simp only [circNames, m1]) (by simp only [circNames, m2])
      (by simp only [circNames, m3]) (by simp only [circNames, m4])
      (by simp only [circNames, m5]) (u := u) (v := v) ?_ ?_ h8 h9
    · simp only [circNames, n1, condAt, hvdd, Option.map_some, hu]
    · simp only [circNames, n2, condAt, hcond, Option.map_none, trueAt, k3, hv, Option.getD_some]

/-! ### The times of the readings -/

theorem copies_succ {V : Type} (m : Nat) (x : List (Step V)) : copies (m + 1) x = x ++ copies m x := by
  simp [copies, List.replicate_succ]

theorem copies_turn {V : Type} (a b : Step V) (m : Nat) : a :: copies m [b, a] = copies m [a, b] ++ [a] := by
  induction m with
  | zero => rfl
  | succ m ih => rw [copies_succ, copies_succ, List.append_assoc, ← ih]; rfl

theorem copies_add {V : Type} (x : List (Step V)) (a b : Nat) : copies (a + b) x = copies a x ++ copies b x := by
  rw [copies, List.replicate_add, List.flatten_append]
  rfl

omit [IsStrictOrderedRing K] [PyTrans (Ext K)] in
/-- The measurement after `j` intervals of the high and low temperature tests. -/
theorem loop_split (n chps lots : Nat) {j cycles : Nat} (hj : j ≤ cycles) (celsius : ℚ) (stress test : String) :
    ∃ pre post, (loopSteps n chps lots cycles celsius stress test : TestSpec (Ext K)).steps =
      pre ++ .meas (ampMeas n) :: post ∧ pre.length = 2 * j ∧ (pre.map stressLen).sum = j * 50 * (hourUs : ℚ) := by
  obtain ⟨z, rfl⟩ := Nat.exists_eq_add_of_le hj
  refine ⟨copies j [.meas (ampMeas n), .strs (ampLoad (celsius + 27315 / 100) (92 / 100) 50 stress)],
    copies z (loopCycle n celsius stress), ?_, ?_, ?_⟩
  · show .meas (ampMeas n) :: copies (j + z) [_, _] = _
    rw [copies_turn, copies_add, List.append_assoc, ← copies_turn]
    rfl
  · simp [copies]
    omega
  · clear hj
    induction j with
    | zero => simp [copies]
    | succ j ih =>
      rw [copies_succ, List.map_append, List.sum_append, ih]
      simp [stressLen, ampLoad, Spec.timeVal]
      ring

/-- One cycle of the ramp test, beginning with a measurement. -/
def rampTurn (n i : Nat) : List (Step (Ext K)) :=
  [.meas (ampMeas n), .strs (ampLoad (100 + 10 * i + 27315 / 100) (88 / 100 + 2 / 100 * i) 90 (s!"Ramp Cycle Stress {i + 1}")),
    .meas (ampMeas n), .strs (ampLoad (30315 / 100) (86 / 100) 10 "Ramp Cycle Relax")]

omit [IsStrictOrderedRing K] [PyTrans (Ext K)] in
theorem ramp_turn (n i m : Nat) : Step.meas (ampMeas n) :: (List.range m).flatMap (fun j => rampCycle n (i + j)) =
    (List.range m).flatMap (fun j => (rampTurn n (i + j) : List (Step (Ext K)))) ++ [.meas (ampMeas n)] := by
  induction m with
  | zero => rfl
  | succ m ih =>
    rw [List.range_succ, List.flatMap_append, List.flatMap_append, ← List.cons_append, ih]
    simp [rampCycle, rampTurn]

omit [IsStrictOrderedRing K] [PyTrans (Ext K)] in
theorem ramp_sum (n m : Nat) :
    ((List.range m).flatMap (rampTurn n : Nat → List (Step (Ext K)))).length = 4 * m ∧
    (((List.range m).flatMap (rampTurn n : Nat → List (Step (Ext K)))).map stressLen).sum = m * 100 * (hourUs : ℚ) := by
  induction m with
  | zero => simp
  | succ m ih =>
    rw [List.range_succ, List.flatMap_append, List.map_append, List.sum_append, List.length_append, ih.1, ih.2]
    constructor
    · simp [rampTurn]
      omega
    · simp [rampTurn, stressLen, ampLoad, Spec.timeVal]
      ring

omit [IsStrictOrderedRing K] [PyTrans (Ext K)] in
/-- The measurements after `i` cycles, and after the stress of the next cycle, of the ramp test. -/
theorem ramp_split (n chps lots : Nat) {i cycles : Nat} (hi : i ≤ cycles) :
    (∃ pre post, (rampSteps n chps lots cycles : TestSpec (Ext K)).steps = pre ++ .meas (ampMeas n) :: post ∧
      pre.length = 4 * i ∧ (pre.map stressLen).sum = i * 100 * (hourUs : ℚ)) ∧
    (i < cycles → ∃ pre post, (rampSteps n chps lots cycles : TestSpec (Ext K)).steps = pre ++ .meas (ampMeas n) :: post ∧
      pre.length = 4 * i + 2 ∧ (pre.map stressLen).sum = (i * 100 + 90) * (hourUs : ℚ)) := by
  obtain ⟨z, rfl⟩ := Nat.exists_eq_add_of_le hi
  obtain ⟨s1, s2⟩ := ramp_sum (K := K) n i
  have e : (rampSteps n chps lots (i + z) : TestSpec (Ext K)).steps = (List.range i).flatMap (rampTurn n) ++
      .meas (ampMeas n) :: (List.range z).flatMap (fun j => rampCycle n (i + j)) := by
    have h0 := ramp_turn (K := K) n 0 (i + z)
    simp only [Nat.zero_add] at h0
    rw [ramp_turn]
    show .meas (ampMeas n) :: (List.range (i + z)).flatMap (rampCycle n) = _
    rw [h0, List.range_add, List.flatMap_append, List.flatMap_map, List.append_assoc]
  refine ⟨⟨_, _, e, s1, s2⟩, fun hz => ?_⟩
  obtain ⟨y, rfl⟩ : ∃ y, z = y + 1 := ⟨z - 1, by omega⟩
  rw [List.range_succ_eq_map] at e
  refine ⟨(List.range i).flatMap (rampTurn n) ++ [.meas (ampMeas n),
    .strs (ampLoad (100 + 10 * i + 27315 / 100) (88 / 100 + 2 / 100 * i) 90 (s!"Ramp Cycle Stress {i + 1}"))],
    .strs (ampLoad (30315 / 100) (86 / 100) 10 "Ramp Cycle Relax") :: .meas (ampMeas n) ::
      ((List.range y).map Nat.succ).flatMap (fun j => rampCycle n (i + j)), e.trans (by simp [rampCycle]),
    by simp [s1], ?_⟩
  rw [List.map_append, List.sum_append, s2]
  simp [stressLen, ampLoad, Spec.timeVal]
  ring

theorem amp_time [LawfulRng W (Ext K)] (h : FiniteNormals W K) {init ba ha : LatentVar (Ext K)}
    (hi : CanDraw W init) (hb : CanDraw W ba) (hh : CanDraw W ha) {ord : SetOrder} {n : Nat}
    {test : TestSpec (Ext K)} (ht : AmpTest n test) {r : SimReport (Ext K)} {w w' : W}
    (hr : simulate ord test (ampDev init ba ha) ampWorld none w = (.ok r, w'))
    {pre post : List (Step (Ext K))} (hs : test.steps = pre ++ .meas (ampMeas n) :: post) :
    ∀ x ∈ rowsAt r.measurements pre.length "amp_gain", Spec.timeVal x.time = (pre.map stressLen).sum := by
  obtain ⟨s0, r0, s, r1, conds, cs, ia, cur, bti, hci, vdd, gain, mv, w0, w1, w2, -, -, -, -, -, -, -, -, -, -, -, e1,
    e2, -⟩ := C68_gain h hi hb hh ht hr hs
  intro x hx
  rw [e2] at hx
  rw [← e1]
  simp only [expectedRows, List.mem_flatMap, List.mem_map] at hx
  obtain ⟨l, -, c, -, d, -, rfl⟩ := hx
  rfl

/-- **C68**, the times: the high and low temperature tests read every 50 hours of stress, the ramp test after the
90 hours of stress and after the 10 hours of relaxation of each cycle. -/
theorem C68_times [LawfulRng W (Ext K)] (h : FiniteNormals W K) {init ba ha : LatentVar (Ext K)}
    (hi : CanDraw W init) (hb : CanDraw W ba) (hh : CanDraw W ha) {ord : SetOrder} {n chps lots cycles : Nat}
    (hmax : cycles ≤ 1000000) {celsius : ℚ} {stress test : String} {r r' : SimReport (Ext K)} {w u w' u' : W}
    (hr : simulate ord (loopSteps n chps lots cycles celsius stress test) (ampDev init ba ha) ampWorld none w =
      (.ok r, w'))
    (hr' : simulate ord (rampSteps n chps lots cycles) (ampDev init ba ha) ampWorld none u = (.ok r', u')) :
    (∀ j ≤ cycles, ∀ x ∈ rowsAt r.measurements (2 * j) "amp_gain", Spec.timeVal x.time = j * 50 * (hourUs : ℚ)) ∧
    (∀ i ≤ cycles, ∀ x ∈ rowsAt r'.measurements (4 * i) "amp_gain", Spec.timeVal x.time = i * 100 * (hourUs : ℚ)) ∧
    ∀ i < cycles, ∀ x ∈ rowsAt r'.measurements (4 * i + 2) "amp_gain",
      Spec.timeVal x.time = (i * 100 + 90) * (hourUs : ℚ) := by
  refine ⟨fun j hj => ?_, fun i hc => ?_, fun i hc => ?_⟩
  · obtain ⟨pre, post, e1, e2, e3⟩ := loop_split (K := K) n chps lots hj celsius stress test
    rw [← e2, ← e3]
    exact amp_time h hi hb hh (loop_amp n chps lots hmax celsius stress test) hr e1
  · obtain ⟨pre, post, e1, e2, e3⟩ := (ramp_split (K := K) n chps lots hc).1
    rw [← e2, ← e3]
    exact amp_time h hi hb hh (ramp_amp n chps lots hmax) hr' e1
  · obtain ⟨pre, post, e1, e2, e3⟩ := (ramp_split (K := K) n chps lots hc.le).2 hc
    rw [← e2, ← e3]
    exact amp_time h hi hb hh (ramp_amp n chps lots hmax) hr' e1

omit [Pow10 K] [PyTrans (Ext K)] [FloorRing K] in
/-- As long as the threshold voltage is between 0.39 and 0.54 times the supply voltage its increase lowers the gain. -/
theorem gainOf_falls {u v v' : K} (h1 : 39 / 100 * u ≤ v) (h2 : v < v') (h3 : v' < 54 / 100 * u) :
    0 < gainOf u v' ∧ gainOf u v' < gainOf u v := by
  have hu : 0 < u := by linarith
  have d1 : 0 < 69 / 100 * u - v := by linarith
  have d2 : 0 < 69 / 100 * u - v' := by linarith
  unfold gainOf
  refine ⟨div_pos (by linarith) (by positivity), ?_⟩
  rw [div_lt_div_iff₀ (by positivity) (by positivity)]
  obtain ⟨a, ha, rfl⟩ : ∃ a, 0 ≤ a ∧ v = 39 / 100 * u + a := ⟨v - 39 / 100 * u, by linarith, by ring⟩
  obtain ⟨b, hb, rfl⟩ : ∃ b, 0 < b ∧ v' = 39 / 100 * u + a + b := ⟨v' - (39 / 100 * u + a), by linarith, by ring⟩
  have h4 : 0 < 15 / 100 * u - a := by linarith
  have h5 : 0 < 30 / 100 * u - a := by linarith
  have key : 0 < 20 * b * ((30 / 100 * u - a) * a + (15 / 100 * u - a) * b) := by positivity
  linear_combination key

end

/-- The runs of the demonstration, with the counting generators: the table of each high or low temperature test has
2625 rows. -/
example (ord : SetOrder) (w : Counts) : ∃ dev : DeviceMdl Counts (Ext ℝ), ∃ test r w',
    ampDevice = .ok dev ∧ ampLoopTest 21 5 5 5 20 125 "HTOL Stress" "HTOL Similar Test" = some (.ok test) ∧
    simulate ord test dev ampWorld none w = (.ok r, w') ∧ r.measurements.length = 2625 ∧
    (rowsAt r.measurements 12 "amp_gain").map place = places 5 5 5 ∧
    ∀ x ∈ rowsAt r.measurements 12 "amp_gain", Spec.timeVal x.time = 300 * (hourUs : ℚ) := by
  obtain ⟨dev, dev', env, htol, ltol, ramp, h1, -, h2, h3, -, -, h4⟩ :=
    C68_run counts_normals ord 5 5 5 (cycles := 20) (fuel := 21) (by norm_num) (by norm_num) (by norm_num)
  obtain ⟨⟨r, w', h5, -, -, h6, h7⟩, -, -⟩ := h4 dev List.mem_cons_self w
  have e1 := ampLoopTest_eq (K := ℝ) 5 5 5 (cycles := 20) (fuel := 21) (by norm_num) (by norm_num) (by norm_num) 125
    "HTOL Stress" "HTOL Similar Test"
  rw [h3] at e1
  cases e1
  cases h1.symm.trans ampDevice_eq
  cases h2.symm.trans ampEnv_eq
  obtain ⟨pre, post, s1, s2, s3⟩ := loop_split (K := ℝ) 5 5 5 (j := 6) (cycles := 20) (by norm_num) 125 "HTOL Stress"
    "HTOL Similar Test"
  have h8 := h7 pre post _ s1
  have h9 := amp_time counts_normals (curInit_draws counts_normals) (curBti_draws counts_normals)
    (curHci_draws counts_normals) (loop_amp 5 5 5 (by norm_num) 125 _ _) h5 s1
  rw [s2] at h8 h9
  refine ⟨curDev, _, r, w', h1, h3, h5, h6, h8, fun x hx => ?_⟩
  rw [h9 x hx, s3]
  norm_num

/-- A threshold voltage of the demonstration and the supply voltage of the measurements. -/
example : gainOf (86 / 100 : ℚ) (42 / 100) = 7400000 / 250563 ∧ gainOf (86 / 100 : ℚ) (44 / 100) < gainOf (86 / 100 : ℚ) (42 / 100) :=
  ⟨by norm_num [gainOf], (gainOf_falls (by norm_num) (by norm_num) (by norm_num)).2⟩

end Gerabaldi.Props
