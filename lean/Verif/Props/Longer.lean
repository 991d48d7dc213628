import Verif.Spec.Longer
import Verif.Props.History

/-!
# Stress steps of different lengths (C78)
-/

namespace Gerabaldi.Props

open Gerabaldi Gerabaldi.Spec

section
variable {K : Type} [Field K] [LinearOrder K] [IsStrictOrderedRing K] [FloorRing K] [Pow10 K]

theorem phaseValue_eq {kind : MechKind} {u : Ext K} {g : (String → Ext K) → Ext K}
    {lat cond : String → Option (Ext K)} {length : Ext K} {rounds : Nat} {v : Ext K} :
    phaseValue kind u g lat cond length rounds v =
      if (kind = .fail ∧ PyArith.eq v u = false) ∨ (tooLong kind g lat cond length rounds v = true ∧
        PyArith.eq v PyNum.inf = false) then v
      else g (mechNames (PyArith.add (startTime kind g lat cond rounds v) length) lat cond) := by
  unfold tooLong startTime
  cases kind <;> simp [phaseValue, UnitLaws.zero_add]

/-- Related values for ordered times give related values after phases of ordered lengths. -/
theorem phaseValue_longer (hpow : ∀ x : K, 0 ≤ Pow10.pow10 x) {R : Ext K → Ext K → Prop} (hR : ∀ x, R x x)
    {kind : MechKind} {u : Ext K} {g : (String → Ext K) → Ext K} {lat cond : String → Option (Ext K)}
    (hg : Follows R g lat cond) {a b : ℚ} (ha : 0 ≤ a) (hab : a ≤ b) {rounds : Nat} {v : Ext K}
    (hlim : tooLong kind g lat cond (PyArith.ofRat b) rounds v = false) :
    R (phaseValue kind u g lat cond (PyArith.ofRat a) rounds v)
      (phaseValue kind u g lat cond (PyArith.ofRat b) rounds v) := by
  have hstart : ∀ e : K, startTime kind g lat cond rounds v = .fin e → 0 ≤ e := by
    intro e he
    unfold startTime at he
    have hs : ∀ x : Ext K, PyNum.pow10 x = .fin e → 0 ≤ e := by
      intro x hx
      cases x with
      | fin y => cases hx; exact hpow y
      | pinf => cases hx
      | ninf => cases hx; exact le_rfl
      | nan => cases hx
    cases kind with
    | fail =>
      cases he
      exact le_of_eq (Rat.cast_zero (α := K)).symm
    | base => exact hs _ he
    | deg => exact hs _ he
  have hlt : tooLong kind g lat cond (PyArith.ofRat a) rounds v = false ∧
      R (g (mechNames (PyArith.add (startTime kind g lat cond rounds v) (PyArith.ofRat a)) lat cond))
        (g (mechNames (PyArith.add (startTime kind g lat cond rounds v) (PyArith.ofRat b)) lat cond)) := by
    have hab' : (a : K) ≤ (b : K) := by exact_mod_cast hab
    have ha' : (0 : K) ≤ (a : K) := by exact_mod_cast ha
    unfold tooLong at hlim ⊢
    cases he : startTime kind g lat cond rounds v with
    | fin e =>
      rw [he] at hlim
      constructor
      · have h1 : ¬ ((9000000000 : ℚ) : K) < e + (b : K) := of_decide_eq_false hlim
        refine decide_eq_false (p := ((9000000000 : ℚ) : K) < e + (a : K)) fun h => h1 ?_
        exact h.trans_le (by gcongr)
      · exact hg (e + a) (e + b) (add_nonneg (hstart e he) ha') (by gcongr)
    | pinf => rw [he] at hlim; exact ⟨hlim, hR _⟩
    | ninf => rw [he] at hlim; exact ⟨hlim, hR _⟩
    | nan => rw [he] at hlim; exact ⟨hlim, hR _⟩
  rw [phaseValue_eq, phaseValue_eq, hlim, hlt.1]
  simp only [Bool.false_eq_true, false_and, or_false]
  split
  · exact hR _
  · exact hlt.2

/-- A phase that is too long leaves finite values as they are. -/
theorem phaseValue_tooLong {kind : MechKind} {u : Ext K} {g : (String → Ext K) → Ext K}
    {lat cond : String → Option (Ext K)} {length : Ext K} {rounds : Nat} {v : Ext K}
    (hlim : tooLong kind g lat cond length rounds v = true) (hv : PyArith.eq v PyNum.inf = false) :
    phaseValue kind u g lat cond length rounds v = v := by
  rw [phaseValue_eq, if_pos (.inr ⟨hlim, hv⟩)]

variable {W : Type} [Rng W (Ext K)]

/-- **C78**: of two stress steps with the same conditions, from the same devices and the same random state, the
longer one leaves mechanism values that are further along, as long as it does not end after 9e9 time units. -/
theorem C78_longer_partial (hpow : ∀ x : K, 0 ≤ Pow10.pow10 x) {R : Ext K → Ext K → Prop} (hR : ∀ x, R x x)
    {ord : SetOrder} {dev : DeviceMdl W (Ext K)} {env : PhysTestEnv (Ext K)} (hnd : dev.prms.Nodup)
    {st st' : StrsSpec (Ext K)} (hconds : st'.conditions = st.conditions) {i i' : Nat} {s s1 s2 : SimState (Ext K)}
    {r r1 r2 : SimReport (Ext K)} {w w1 w2 : W} (h : simStress ord dev env st i (s, r) w = (.ok (s1, r1), w1))
    (h' : simStress ord dev env st' i' (s, r) w = (.ok (s2, r2), w2)) (hsh : StateShape dev r.info s)
    {prm : String} {m : DegPrmMdl W (Ext K)} (hm : dev.prms.get? prm = some (.deg m)) (hmn : m.mechs.Nodup)
    {N : Nat → Prop} (hdeg : DegShapes m N) {gm : String → (String → Ext K) → Ext K} {um : String → TUnit}
    (he : MechEquations m gm um N) {n : Nat} (hn : r.info.devCounts.get? prm = some n)
    (hN : N (r.info.numLots * r.info.numChps * n)) {lats : Dict (LatNode (Ext K))}
    (hlats : s.latents.get? prm = some lats)
    (hsub : ∀ mech k, m.mechs.get? mech = some k → lats.get? mech = some (.sub (partLatents lats mech))) :
    ∃ conds cs, ∃ u : W, env.genEnvCondVals ord st.conditions (.names (dev.degPrms.map (·.1))) (some r.info) (some dev)
        .stress 1 1 w = (.ok conds, u) ∧ conds.get? prm = some cs ∧
      ∀ mech k, m.mechs.get? mech = some k → 0 ≤ phaseTime (um mech) st.duration →
      phaseTime (um mech) st.duration ≤ phaseTime (um mech) st'.duration →
      ∀ pre, mechVal s prm mech = some pre → ∃ v v', mechVal s1 prm mech = some v ∧ mechVal s2 prm mech = some v' ∧
        ∀ l < r.info.numLots, ∀ c < r.info.numChps, ∀ d < n,
          Follows R (gm mech) (condAt (partLatents lats mech) l c d) (condAt cs l c d) →
          let rounds := commonRounds (equivTimeCfg (Ext K)) r.info.numLots r.info.numChps n fun l c d =>
            residueOne (gm mech) (condAt (partLatents lats mech) l c d) (condAt cs l c d) (pre.at' l c d)
          let late := tooLong k.kind (gm mech) (condAt (partLatents lats mech) l c d) (condAt cs l c d)
            (PyArith.ofRat (phaseTime (um mech) st'.duration)) rounds (pre.at' l c d)
          (late = false → R (v.at' l c d) (v'.at' l c d)) ∧
          (late = true → PyArith.eq (pre.at' l c d) PyNum.inf = false → v'.at' l c d = pre.at' l c d) := by
  obtain ⟨conds, -, -, -, wc, hgen, -⟩ := simStress_ok h
  have hprm : prm ∈ dev.degPrms.map (·.1) :=
    List.mem_map_of_mem (f := (·.1)) (a := (prm, m)) (Gerabaldi.mem_degPrms.2 (Dict.mem_of_get? hm))
  obtain ⟨cs, hcs⟩ : ∃ cs, conds.get? prm = some cs := by
    obtain ⟨shared, counts', w1, -, -, h3⟩ := genEnvCondVals_inv hgen
    obtain ⟨d', w2, w3, h4, -⟩ := result_get h3 hprm
    exact ⟨d', h4⟩
  have hcd : GetDims cs r.info.numLots r.info.numChps n :=
    conds_dims hgen rfl hprm (Dict.mem_keys_of_get? hm) hn hcs
  refine ⟨conds, cs, _, hgen, hcs, fun mech k hk h0 hle pre hpre => ?_⟩
  have hlat := hsub mech k hk
  have hsl : subLatents lats mech = .ok (partLatents lats mech) := by
    unfold subLatents
    rw [hlat]
  have hld : GetDims (partLatents lats mech) r.info.numLots r.info.numChps n := by
    obtain ⟨n', lats', e1, e2, e3⟩ := hsh.count prm _ hm
    rw [hn] at e1
    cases e1
    rw [hlats] at e2
    cases e2
    exact (e3 _ _ (Dict.mem_of_get? hlat)).get
  have hpd : pre.HasDims r.info.numLots r.info.numChps n := by
    obtain ⟨cur, e1, -, e2⟩ := (hsh.deg prm m n hm hn).mech
    unfold mechVal at hpre
    rw [e1] at hpre
    exact e2.get _ _ hpre
  have hin : MechInputs r.info conds s prm mech pre cs (partLatents lats mech) n :=
    ⟨hpre, hn, hcs, lats, hlats, hsl⟩
  have a : StressedMech ord dev env st i s r w s1 prm mech k pre cs (partLatents lats mech) n :=
    ⟨⟨_, _, h⟩, hnd, ⟨m, hm, hmn, hk⟩, ⟨conds, _, hgen, hin⟩, hpd⟩
  have b : StressedMech ord dev env st' i' s r w s2 prm mech k pre cs (partLatents lats mech) n :=
    ⟨⟨_, _, h'⟩, hnd, ⟨m, hm, hmn, hk⟩, ⟨conds, _, by rw [hconds]; exact hgen, hin⟩, hpd⟩
  obtain ⟨v, v1, v2⟩ := mechStep_names a (he.eqn mech k hk) (hdeg.mechs _ _ (Dict.mem_of_get? hk))
    (he.time mech k hk) hN (he.unit mech k hk) hcd hld
  obtain ⟨v', v1', v2'⟩ := mechStep_names b (he.eqn mech k hk) (hdeg.mechs _ _ (Dict.mem_of_get? hk))
    (he.time mech k hk) hN (he.unit mech k hk) hcd hld
  refine ⟨v, v', v1, v1', fun l hl c hc d hd hf => ?_⟩
  rw [v2 l hl c hc d hd, v2' l hl c hc d hd]
  exact ⟨phaseValue_longer hpow hR hf h0 hle, phaseValue_tooLong⟩

/-- **C78** in a test: the same after any steps from new devices. -/
theorem C78_run_partial (hpow : ∀ x : K, 0 ≤ Pow10.pow10 x) {R : Ext K → Ext K → Prop} (hR : ∀ x, R x x)
    {ord : SetOrder} {dev : DeviceMdl W (Ext K)} {env : PhysTestEnv (Ext K)} (hnd : dev.prms.Nodup)
    (hmn : ∀ p d, dev.prms.get? p = some (.deg d) → d.mechs.Nodup) {N : Nat → Prop}
    (hs : ∀ p d, dev.prms.get? p = some (.deg d) → DegShapes d N) {test : TestSpec (Ext K)}
    {s0 s s1 s2 : SimState (Ext K)} {r0 r r1 r2 : SimReport (Ext K)} {w w0 wp w1 w2 : W}
    (h0 : simStart dev test none w = (.ok (s0, r0), w0)) {pre : List (Step (Ext K))}
    (h1 : runSteps ord dev env 0 pre (s0, r0) w0 = (.ok (s, r), wp)) {st st' : StrsSpec (Ext K)}
    (hconds : st'.conditions = st.conditions)
    (h : simStress ord dev env st pre.length (s, r) wp = (.ok (s1, r1), w1))
    (h' : simStress ord dev env st' pre.length (s, r) wp = (.ok (s2, r2), w2))
    {prm : String} {m : DegPrmMdl W (Ext K)} (hm : dev.prms.get? prm = some (.deg m)) (ho : OwnNames m)
    {gm : String → (String → Ext K) → Ext K} {um : String → TUnit} (he : MechEquations m gm um N) {n : Nat}
    (hq : r0.devCounts.get? prm = some n) (hN : SizesIn N r0.info := by intro _ _ _; trivial) :
    ∃ conds cs lats, ∃ u : W, env.genEnvCondVals ord st.conditions (.names (dev.degPrms.map (·.1))) (some r.info)
        (some dev) .stress 1 1 wp = (.ok conds, u) ∧ conds.get? prm = some cs ∧ s.latents.get? prm = some lats ∧
      ∀ mech k, m.mechs.get? mech = some k → 0 ≤ phaseTime (um mech) st.duration →
      phaseTime (um mech) st.duration ≤ phaseTime (um mech) st'.duration →
      ∃ b v v', mechVal s prm mech = some b ∧ mechVal s1 prm mech = some v ∧ mechVal s2 prm mech = some v' ∧
        ∀ l < test.numLots, ∀ c < test.numChps, ∀ d < n,
          Follows R (gm mech) (condAt (partLatents lats mech) l c d) (condAt cs l c d) →
          let rounds := commonRounds (equivTimeCfg (Ext K)) test.numLots test.numChps n fun l c d =>
            residueOne (gm mech) (condAt (partLatents lats mech) l c d) (condAt cs l c d) (b.at' l c d)
          let late := tooLong k.kind (gm mech) (condAt (partLatents lats mech) l c d) (condAt cs l c d)
            (PyArith.ofRat (phaseTime (um mech) st'.duration)) rounds (b.at' l c d)
          (late = false → R (v.at' l c d) (v'.at' l c d)) ∧
          (late = true → PyArith.eq (b.at' l c d) PyNum.inf = false → v'.at' l c d = b.at' l c d) := by
  obtain ⟨g1, g2, g3, -, -⟩ := simStart_shape hnd hs h0 hN
  have e1 : r0.info.numLots = test.numLots := g2
  have e2 : r0.info.numChps = test.numChps := g3
  obtain ⟨g6, g7⟩ := runSteps_shape hnd hmn hs (sr := (s0, r0)) (sr' := (s, r)) g1 h1 hN
  simp only at g6 g7
  obtain ⟨-, ⟨lats, c3, -, c4, -⟩⟩ := start_mechs hnd h0 hm ho hq
  obtain ⟨phases, lat, -, f2, f3, -, f5⟩ := C74_mechanisms hnd hmn hs h0 h1 hm ho he hq hN
  rw [c3] at f2
  cases f2
  have hsub : ∀ mech k, m.mechs.get? mech = some k → lats.get? mech = some (.sub (partLatents lats mech)) := by
    intro mech k hk
    obtain ⟨d, hd, -⟩ := c4 mech k hk
    unfold partLatents
    rw [hd]
  have hq' : r.info.devCounts.get? prm = some n := by rw [g7]; exact hq
  obtain ⟨conds, cs, u, k1, k2, k3⟩ := C78_longer_partial hpow hR hnd hconds h h' g6 hm (hmn _ _ hm) (hs _ _ hm) he
    hq' (by rw [g7]; exact hN prm n hq) f3 hsub
  refine ⟨conds, cs, lats, u, k1, k2, f3, fun mech k hk t0 tle => ?_⟩
  obtain ⟨b, b1, -⟩ := f5 mech k hk
  obtain ⟨v, v', v1, v2, v3⟩ := k3 mech k hk t0 tle b b1
  rw [g7, e1, e2] at v3
  exact ⟨b, v, v', b1, v1, v2, v3⟩

end

/-! ## A drift with its time in microseconds -/

namespace Micro
open Ex

/-- The drift `rate * temp * time` per microsecond. -/
def mech : MechMdl Counts Q := { slowDrift with timeUnit := some "us" }

/-- A device with it. -/
def dev : DeviceMdl Counts Q where
  prms := [("vth", .deg (degPrm [("drift", mech)] (.fin 3)))]

/-- A stress step of the given number of hours at 90 degrees. -/
def stress (hours : Int) : StrsSpec Q := ⟨[("temp", .fin 90)], .td (hours * 3600000000), "heat"⟩

/-- It is followed by a measurement. -/
def test (hours : Int) : TestSpec Q :=
  { steps := [.strs (stress hours), .meas ⟨[("vth", 1)], [], "read"⟩], numChps := 1, numLots := 1, name := "drift",
    description := "" }

theorem run_two : ∃ r w', simulate orderA (test 2) dev ⟨[], []⟩ none Counts.start = (.ok r, w') ∧
    (rowsAt r.measurements 1 "vth").length = 1 ∧ ∀ y ∈ (rowsAt r.measurements 1 "vth").map (·.measured),
      PyArith.lt (.fin 1296000000000) y = true := by
  obtain ⟨r, hr, hq⟩ := exists_ok (x := (simulate orderA (test 2) dev ⟨[], []⟩ none Counts.start).1)
    (f := fun r : SimReport Q => decide ((rowsAt r.measurements 1 "vth").length = 1 ∧
      ∀ y ∈ (rowsAt r.measurements 1 "vth").map (fun x : MeasRow Q => x.measured),
      PyArith.lt (Ext.fin 1296000000000) y = true)) (by decide +kernel)
  exact ⟨r, _, Prod.ext hr rfl, of_decide_eq_true hq⟩

theorem run_three : ∃ r w', simulate orderA (test 3) dev ⟨[], []⟩ none Counts.start = (.ok r, w') ∧
    (rowsAt r.measurements 1 "vth").map (·.measured) = [.fin 3] := by
  obtain ⟨r, hr, hq⟩ := exists_ok (x := (simulate orderA (test 3) dev ⟨[], []⟩ none Counts.start).1)
    (f := fun r : SimReport Q => decide ((rowsAt r.measurements 1 "vth").map (fun x : MeasRow Q => x.measured) =
      [.fin 3])) (by decide +kernel)
  exact ⟨r, _, Prod.ext hr rfl, of_decide_eq_true hq⟩

theorem pow_nonneg (x : ℚ) : 0 ≤ Pow10.pow10 x := by
  show 0 ≤ (10 : ℚ) ^ ⌊x⌋ * (1 + 9 * (x - ⌊x⌋))
  have := Int.floor_le x
  refine mul_nonneg (zpow_nonneg (by norm_num) _) (by linarith)

/-- Not less, for numbers; any other value is related to itself. -/
def Le (x y : Q) : Prop := x = y ∨ ∃ a b : ℚ, x = .fin a ∧ y = .fin b ∧ a ≤ b

/-- The drift grows with time. -/
theorem drift_follows : Follows Le (fun env => exprOn env driftExpr) (fun k => if k = "rate" then some (.fin 2) else none)
    (fun k => if k = "temp" then some (.fin 90) else none) := by
  intro t t' _ h
  refine .inr ⟨2 * 90 * t, 2 * 90 * t', rfl, rfl, by linarith⟩

theorem micro_shapes : DegShapes (degPrm [("drift", mech)] (.fin 3)) := by
  refine ⟨argEqn_shapes _, by decide, by simp [degPrm, initValMk, nameLatents], constEqn_shapes _, ?_, basicSum_shapes⟩
  intro k m hk
  cases List.mem_singleton.1 hk
  exact NumExpr.shapes (by intro k; simp [driftExpr, NumExpr.uses])

theorem micro_mechs : MechEquations (degPrm [("drift", mech)] (.fin 3)) (fun _ env => exprOn env driftExpr)
    fun _ => .microseconds := by
  have hk : ∀ x k, (degPrm [("drift", mech)] (.fin 3)).mechs.get? x = some k → k = mech := by
    intro x k h
    cases List.mem_singleton.1 (Dict.mem_of_get? h)
    rfl
  refine ⟨fun x k h => ?_, fun x k h => ?_, fun x k h => ?_⟩ <;> rw [hk x k h]
  · exact expr_sample (by intro k; simp [driftExpr, NumExpr.uses])
  · decide +kernel
  · rfl

theorem micro_device {p : String} {d : DegPrmMdl Counts Q} (h : dev.prms.get? p = some (.deg d)) :
    d = degPrm [("drift", mech)] (.fin 3) := by
  cases List.mem_singleton.1 (Dict.mem_of_get? h)
  rfl

/-- `C78_run_partial` applies to the first steps of any two of the tests. -/
example {s0 s1 s2 : SimState Q} {r0 r1 r2 : SimReport Q} {w w0 w1 w2 : Counts} {a b : Int}
    (h0 : simStart dev (test a) none w = (.ok (s0, r0), w0))
    (h : simStress orderA dev ⟨[], []⟩ (stress a) 0 (s0, r0) w0 = (.ok (s1, r1), w1))
    (h' : simStress orderA dev ⟨[], []⟩ (stress b) 0 (s0, r0) w0 = (.ok (s2, r2), w2)) {n : Nat}
    (hq : r0.devCounts.get? "vth" = some n) :=
  C78_run_partial (N := fun _ => True) pow_nonneg (R := Le) (fun _ => .inl rfl) (by decide)
    (fun p d hd => by rw [micro_device hd]; decide +kernel) (fun p d hd => by rw [micro_device hd]; exact micro_shapes)
    h0 (pre := []) rfl (st := stress a) (st' := stress b) rfl h h' (prm := "vth") rfl
    ⟨by decide +kernel, by decide +kernel, by decide +kernel, by decide +kernel⟩ micro_mechs hq

/-- For one and two hours the hypotheses hold: the second is not too long. -/
example : tooLong .deg (fun env => exprOn env driftExpr) (fun k => if k = "rate" then some (.fin 2) else none)
    (fun k => if k = "temp" then some (.fin 90) else none) (PyArith.ofRat (phaseTime .microseconds (stress 2).duration))
    50 (.fin 0 : Q) = false := by decide +kernel

end Micro

/-- **C78** is violated beyond 9e9 units of time. A drift with its time in microseconds adds more than 1.29e12 in
two hours and nothing in three hours. -/
theorem C78_violated : ∃ r r' w w', simulate Ex.orderA (Micro.test 2) Micro.dev ⟨[], []⟩ none Counts.start = (.ok r, w) ∧
    simulate Ex.orderA (Micro.test 3) Micro.dev ⟨[], []⟩ none Counts.start = (.ok r', w') ∧
    (rowsAt r.measurements 1 "vth").length = 1 ∧
    (∀ y ∈ (rowsAt r.measurements 1 "vth").map (·.measured), PyArith.lt (.fin 1296000000000) y = true) ∧
    (rowsAt r'.measurements 1 "vth").map (·.measured) = [.fin 3] := by
  obtain ⟨r, w, h, h1⟩ := Micro.run_two
  obtain ⟨r', w', h', h2⟩ := Micro.run_three
  exact ⟨r, r', w, w', h, h', h1.1, h1.2, h2⟩

end Gerabaldi.Props
