import Verif.Props.Circuit
import Verif.Props.History

/-!
# Circuit parameters and the devices they read (C79)
-/

namespace Gerabaldi.Props

open Gerabaldi Gerabaldi.Spec

variable {W V : Type} [PyNum V] [Rng W V]

/-- The latent values of a circuit parameter at the start of a simulation. -/
theorem start_circ {dev : DeviceMdl W V} (hnd : dev.prms.Nodup) {test : TestSpec V} {s : SimState V}
    {r : SimReport V} {w w' : W} (h : simStart dev test none w = (.ok (s, r), w')) {prm : String}
    {m : LatentMdl W V} (hp : dev.prms.get? prm = some (.circ m)) {n : Nat}
    (hq : r.devCounts.get? prm = some n) :
    ∃ d, s.latents.get? prm = some (d.map fun kv => (kv.1, .arr kv.2)) ∧ Drawn m test.numLots test.numChps n d := by
  obtain ⟨x, w1, h1, h2⟩ := M.bind_eq_ok.1 h
  obtain ⟨s1, w2, h3, h4⟩ := M.bind_eq_ok.1 h1
  cases h4
  cases h2
  obtain ⟨s0, w3, h5, h6⟩ := M.bind_eq_ok.1 h3
  cases h6
  obtain ⟨_, a2, a3, a4, a5⟩ := devInit_ok hnd h5
  obtain ⟨n', lat, b1, b2, ⟨u1, u2, b3⟩, -⟩ := a4 prm _ hp
  have : n' = n := Option.some.inj (Eq.trans (Eq.symm b1) hq)
  subst this
  obtain ⟨own, v1, h1, g1⟩ := M.bind_eq_ok.1 b3
  cases g1
  exact ⟨own, b2, genLatent_drawn h1⟩

omit [PyNum V] [Rng W V] in
theorem ownAt_arr [Inhabited V] [PyArith V] (d : Dict (Arr3 V)) (l c i : Nat) (k : String) :
    ownAt (d.map fun kv => (kv.1, .arr kv.2)) l c i k = condAt d l c i k := by
  unfold ownAt condAt
  rw [show Dict.get? (d.map fun kv => (kv.1, LatNode.arr kv.2)) k = (d.get? k).map LatNode.arr from
    Dict.get?_map (fun _ (x : Arr3 V) => LatNode.arr x) d k]
  cases d.get? k <;> rfl

/-- **C79**: the rows of a measurement of a circuit parameter show what its instrument reads from the values of its
equation for its own drawn latent values, the conditions at the sample and the true values that the histories of
the devices it reads give. -/
theorem C79_reading [InfLaw V] [UnitLaws V] [LawfulRng W V] {ord : SetOrder} {dev : DeviceMdl W V}
    {env : PhysTestEnv V} (hnd : dev.prms.Nodup) (hmn : ∀ p d, dev.prms.get? p = some (.deg d) → d.mechs.Nodup)
    {N : Nat → Prop} (hs : ∀ p d, dev.prms.get? p = some (.deg d) → DegShapes d N) {test : TestSpec V}
    {r : SimReport V} {w w' : W} (h : simulate ord test dev env none w = (.ok r, w'))
    {pre post : List (Step V)} {step : MeasSpec V} (ht : test.steps = pre ++ .meas step :: post)
    (hnm : step.measurements.Nodup) {prm : String} {n : Nat} (hp : (prm, n) ∈ step.measurements)
    {m : LatentMdl W V} (hd : dev.prms.get? prm = some (.circ m)) {g : (String → V) → V}
    (hf : CircEquation m.compute g) (hown : r.devCounts.get? prm = some n)
    (hread : ∀ p d, p ∈ m.compute.argNames → dev.prms.get? p = some (.deg d) → r.devCounts.get? p = some n)
    (hN : SizesIn N r.info := by intro _ _ _; trivial) :
    ∃ conds cs lat ys, ∃ tv : Nat → Nat → Nat → String → Option V, ∃ u u1 u2 u3 : W, ∃ t : TimeVal,
      env.genEnvCondVals ord step.conditions (.counts step.measurements) (some r.info) (some dev)
        .measure 1 1 u = (.ok conds, u1) ∧ conds.get? prm = some cs ∧
      Drawn m test.numLots test.numChps n lat ∧ Spec.timeVal t = (pre.map stressLen).sum ∧
      (∀ p dp, dev.prms.get? p = some (.deg dp) → p ∈ m.compute.argNames → OwnNames dp →
        dp.initMdl.latentVars.Nodup → ∀ gp gi gm um S, HasEquation dp gp N S → CircEquation dp.initMdl.compute gi →
        MechEquations dp gm um N → ∃ phases il dl, DeviceHistory (W := W) ord dev env r.info p dp n pre phases il dl ∧
          ∀ l < test.numLots, ∀ c < test.numChps, ∀ d < n, tv l c d p =
            some (trueAfter dp gp gm um (initialAt gi il l c d) dl test.numLots test.numChps n phases l c d)) ∧
      (∀ l c d p, (∀ dp, dev.prms.get? p ≠ some (.deg dp)) → tv l c d p = none) ∧
      (instrumentOf env prm).measureVals ((expectedRows (min n test.numLots) test.numChps n (fun l c d =>
        g (circNames (condAt lat l c d) (condAt cs l c d) (tv l c d))) prm t pre.length).map (·.measured)) u2 =
          (.ok ys, u3) ∧
      rowsAt r.measurements pre.length prm = List.zipWith (fun x y => { x with measured := y })
        (expectedRows (min n test.numLots) test.numChps n (fun l c d =>
          g (circNames (condAt lat l c d) (condAt cs l c d) (tv l c d))) prm t pre.length) ys := by
  obtain ⟨s0, r0, s, r1, conds, cs, lat', ys, w0, w1, w2, u2, u3, h1, h2, h4, k1, k2, h6, h7⟩ :=
    C67_reading hnd hmn hs h ht hnm hp hd hf hown hread hN
  obtain ⟨s0', r0', -, -, -, -, -, w0', -, -, -, -, -, h1', -, h3, -⟩ := C57_instrument h ht hnm hp
  rw [h1] at h1'
  cases h1'
  have hN0 : SizesIn N r0.info := by rw [← h3]; exact hN
  obtain ⟨g1, g2, g3, -, -⟩ := simStart_shape hnd hs h1 hN0
  obtain ⟨g6, g7⟩ := runSteps_shape hnd hmn hs (sr := (s0, r0)) (sr' := (s, r1)) g1 h2 hN0
  simp only at g6 g7
  have hcount : ∀ p, r0.devCounts.get? p = r.devCounts.get? p := fun p => by
    have : r.info.devCounts = r0.info.devCounts := by rw [h3]
    exact congrArg (fun x => Dict.get? x p) this.symm
  obtain ⟨d, d1, d2⟩ := start_circ hnd h1 hd ((hcount prm).trans hown)
  rw [(C40_constant h2).2.2, d1] at k2
  cases k2
  simp only [funext (ownAt_arr d _ _ _)] at h6 h7
  refine ⟨conds, cs, d, ys, trueAt s, w1, w2, u2, u3, s.elapsed, h4, k1, d2, ?_, ?_, ?_, h6, h7⟩
  · have := C37_elapsed h2
    rw [(simStart_elapsed h1).1] at this
    simpa using this
  · intro p dp hpd harg ho hil gp gi gm um S hg hi he
    obtain ⟨phases, il, dl, cur, f1, -, f3, f4⟩ := C74_true hnd hmn hs h1 h2 hpd ho hil hg hi he
      ((hcount p).trans (hread p dp harg hpd)) hN0
    refine ⟨phases, il, dl, by rw [h3]; exact f1, fun l hl c hc i hi => ?_⟩
    unfold trueAt
    rw [f3]
    exact congrArg some (f4 l hl c hc i hi)
  · intro l c i p hno
    unfold trueAt
    rw [g6.only p hno]

omit [PyNum V] [Rng W V] in
theorem expectedRows_rename {L C n : Nat} {f : Nat → Nat → Nat → V} {p q : String} {t : TimeVal} {i : Nat} :
    expectedRows L C n f q t i = (expectedRows L C n f p t i).map fun x => { x with prm := q } := by
  unfold expectedRows
  simp only [List.map_flatMap, List.map_map]
  rfl

/-- **C79**, the same reading: a circuit parameter that just is a device parameter without a conditional shift
shows, measured in the same step, what the device parameter itself shows. -/
theorem C79_direct_partial [UnitLaws V] [LawfulRng W V] {ord : SetOrder} {dev : DeviceMdl W V}
    {env : PhysTestEnv V} (hnd : dev.prms.Nodup) (hmn : ∀ p d, dev.prms.get? p = some (.deg d) → d.mechs.Nodup)
    {N : Nat → Prop} (hs : ∀ p d, dev.prms.get? p = some (.deg d) → DegShapes d N) {test : TestSpec V}
    {r : SimReport V} {w w' : W} (h : simulate ord test dev env none w = (.ok r, w'))
    {pre post : List (Step V)} {step : MeasSpec V} (ht : test.steps = pre ++ .meas step :: post)
    (hnm : step.measurements.Nodup) {prm circ : String} {n : Nat} (hp : (prm, n) ∈ step.measurements)
    (hpc : (circ, n) ∈ step.measurements) {m : DegPrmMdl W V} (hm : dev.prms.get? prm = some (.deg m))
    {mc : LatentMdl W V} (hc : dev.prms.get? circ = some (.circ mc))
    (hcopy : CircEquation mc.compute fun env => env prm) (hlat : prm ∉ mc.latentVars.keys)
    (hcond : prm ∉ step.conditions.keys) (hlots : test.numLots ≤ n) {g : (String → V) → V} {S : PyVal V → Prop}
    (hg : HasEquation m g N S) (hneu : Neutral m g)
    (hshift : SampleEquation m.condMdl.compute (fun _ => m.condUnitary) N)
    (hown : r.devCounts.get? circ = some n)
    (hread : ∀ p d, p ∈ mc.compute.argNames → dev.prms.get? p = some (.deg d) → r.devCounts.get? p = some n)
    (hi : env.instms.get? prm = none) (hic : env.instms.get? circ = none)
    (hN : SizesIn N r.info := by intro _ _ _; trivial)
    (hNn : N (test.numLots * test.numChps * n) := by trivial) :
    rowsAt r.measurements pre.length circ =
      (rowsAt r.measurements pre.length prm).map fun x => { x with prm := circ } := by
  obtain ⟨s0, r0, s, r1, conds, cs, lat', ys, w0, w1, w2, u2, u3, h1, h2, h4, k1, k2, h6, h7⟩ :=
    C67_reading hnd hmn hs h ht hnm hpc hc hcopy hown hread hN
  obtain ⟨s0', r0', s', r1', conds', cs', cur, lat, cl, k, ys', w0', w1', w2', u2', u3', h1', h2', h4', c1, k3, k4,
    hle, b2, x1, h6', h7'⟩ := C71_reading hnd hmn hs h ht hnm hp hm hg hshift hN hNn
  obtain ⟨_, _, -, -, -, -, -, _, -, -, -, -, -, h1'', -, h3, -⟩ := C57_instrument h ht hnm hp
  rw [h1] at h1' h1''
  cases h1'
  cases h1''
  rw [h2] at h2'
  cases h2'
  have hinst : ∀ p, env.instms.get? p = none →
      instrumentOf env p = ({ precision := none, range := none, error := none } : Instrument V) := by
    intro p hp
    unfold instrumentOf
    rw [hp]
  rw [hinst _ hic] at h6
  rw [hinst _ hi] at h6'
  rw [h7, h7', exact_reading h6, exact_reading h6', Nat.min_eq_right hlots]
  refine (expectedRows_congr fun l hl c hcc d hd => ?_).trans expectedRows_rename
  rw [hneu]
  have hown' : ownAt lat' l c d prm = none := by
    obtain ⟨dd, d1, d2⟩ := start_circ hnd h1 hc (by
      have : r.info.devCounts = r0.info.devCounts := by rw [h3]
      exact (congrArg (fun x => Dict.get? x circ) this.symm).trans hown)
    rw [(C40_constant h2).2.2, d1] at k2
    cases k2
    rw [ownAt_arr]
    unfold condAt
    rw [d2.2 prm ((Dict.get?_eq_none_iff _ _).2 hlat)]
    rfl
  have hcs : condAt cs l c d prm = none := by
    obtain ⟨shared, counts', _, -, -, e3⟩ := genEnvCondVals_inv h4
    obtain ⟨d', _, _, e4, e5⟩ := result_get e3 (Dict.mem_keys_of_get? (Dict.get?_of_mem hnm hpc))
    rw [k1] at e4
    cases e4
    obtain ⟨-, e6⟩ := depend_get hc e5
    unfold condAt
    cases hgc : cs.get? prm with
    | none => rfl
    | some a => exact absurd (e6 prm a hgc).1 hcond
  unfold circNames
  rw [hown', hcs]
  unfold trueAt
  rw [k3]
  rfl

/-! ## A circuit parameter that is just the threshold voltage -/

namespace Copy
open Ex

/-- The parameter of the device: the initial value 3, and 5 more after burning, without a conditional shift. -/
def plain : DegPrmMdl Counts Q :=
  { shiftPrm with condMdl := { compute := (NumExpr.lit (.fin 0) : NumExpr Q).fn [] } }

/-- The threshold voltage and a circuit parameter that is equal to it. -/
def device (m : DegPrmMdl Counts Q) : DeviceMdl Counts Q where
  prms := [("vth", .deg m), ("out", .circ { compute := argEqn "vth" })]

/-- Both are measured at 30 degrees after burning. -/
def test : TestSpec Q :=
  { steps := [.strs ⟨[("temp", .fin 120)], .td 3600000000, "heat"⟩,
      .meas ⟨[("vth", 2), ("out", 2)], [("temp", .fin 30)], "read"⟩],
    numChps := 1, numLots := 1, name := "copy", description := "" }

theorem plain_run : ∃ r w', simulate orderA test (device plain) ⟨[], []⟩ none Counts.start = (.ok r, w') ∧
    r.devCounts.get? "out" = some 2 ∧ r.devCounts.get? "vth" = some 2 ∧
    (rowsAt r.measurements 1 "vth").map (·.measured) = [.fin 8, .fin 8] := by
  obtain ⟨r, hr, hq⟩ := exists_ok (x := (simulate orderA test (device plain) ⟨[], []⟩ none Counts.start).1)
    (f := fun r : SimReport Q => decide (r.devCounts.get? "out" = some 2 ∧ r.devCounts.get? "vth" = some 2 ∧
      (rowsAt r.measurements 1 "vth").map (fun x : MeasRow Q => x.measured) = [.fin 8, .fin 8]))
    (by decide +kernel)
  exact ⟨r, _, Prod.ext hr rfl, of_decide_eq_true hq⟩

theorem plain_device {p : String} {d : DegPrmMdl Counts Q} (h : (device plain).prms.get? p = some (.deg d)) :
    p = "vth" ∧ d = plain := by
  have := Dict.mem_of_get? h
  simp only [device, List.mem_cons, List.not_mem_nil, or_false, Prod.mk.injEq, PrmMdl.deg.injEq, reduceCtorEq,
    and_false] at this
  exact this

theorem plain_shapes : DegShapes plain := by
  refine ⟨argEqn_shapes _, by decide, by simp [plain, shiftPrm, degPrm, initValMk, nameLatents],
    NumExpr.shapes (by intro k; simp [NumExpr.uses]), ?_,
    NumExpr.shapes (by intro k; simp [shiftExpr, NumExpr.uses])⟩
  intro k m hk
  cases List.mem_singleton.1 hk
  exact eqn2_shapes _ _ _

theorem plain_neutral : Neutral plain fun env => exprOn env shiftExpr := by
  intro x lat
  have z : (Ext.fin 0 : Q) = PyArith.ofRat 0 := by decide +kernel
  show PyArith.add (PyArith.add x (.fin 0)) (.fin 0) = x
  rw [z, UnitLaws.add_zero, UnitLaws.add_zero]

theorem plain_unshifted : SampleEquation (W := Counts) plain.condMdl.compute fun _ => plain.condUnitary :=
  expr_sample (e := .lit (Ext.fin 0 : Q)) (params := []) (by intro k; simp [NumExpr.uses])

/-- `C79_direct_partial` applies to the run, and so the circuit parameter shows 8 too. -/
example : ∃ r w', simulate orderA test (device plain) ⟨[], []⟩ none Counts.start = (.ok r, w') ∧
    (rowsAt r.measurements 1 "out").map (·.measured) = [.fin 8, .fin 8] := by
  obtain ⟨r, w', h, h1, h2, h3⟩ := plain_run
  refine ⟨r, w', h, ?_⟩
  have := C79_direct_partial (N := fun _ => True) (by decide)
    (fun p d hd => by rw [(plain_device hd).2]; decide +kernel)
    (fun p d hd => by rw [(plain_device hd).2]; exact plain_shapes) h (pre := [_]) rfl (by decide) (prm := "vth")
    (circ := "out") (n := 2) (by decide) (by decide) (m := plain) rfl rfl (argEqn_value _) (by decide) (by decide)
    (by decide) (g := fun env => exprOn env shiftExpr)
    (expr_equation (params := ["init", "cond", "burn"]) rfl (by intro k; simp [shiftExpr, NumExpr.uses]))
    plain_neutral plain_unshifted h1
    (fun p d _ hd => by rw [(plain_device hd).1]; exact h2) rfl rfl
  show (rowsAt r.measurements 1 "out").map (·.measured) = _
  rw [show rowsAt r.measurements 1 "out" = _ from this, List.map_map]
  exact h3

/-- `C79_reading` applies to the run. -/
example {r w'} (h : simulate orderA test (device plain) ⟨[], []⟩ none Counts.start = (.ok r, w'))
    (h1 : r.devCounts.get? "out" = some 2) (h2 : r.devCounts.get? "vth" = some 2) :=
  C79_reading (N := fun _ => True) (by decide) (fun p d hd => by rw [(plain_device hd).2]; decide +kernel)
    (fun p d hd => by rw [(plain_device hd).2]; exact plain_shapes) h (pre := [_]) rfl (by decide) (prm := "out")
    (n := 2) (by decide) rfl (argEqn_value _) h1 (fun p d _ hd => by rw [(plain_device hd).1]; exact h2)

end Copy

/-- **C79** is violated for parameters with a conditional shift: circuit parameters are computed from the
unshifted values. In one measurement at 30 degrees the threshold voltage reads 68 and the circuit parameter that is
equal to it reads 8. -/
theorem C79_direct_violated : ∃ r w',
    simulate Ex.orderA Copy.test (Copy.device shiftPrm) ⟨[], []⟩ none Counts.start = (.ok r, w') ∧
    (rowsAt r.measurements 1 "vth").map (·.measured) = [.fin 68, .fin 68] ∧
    (rowsAt r.measurements 1 "out").map (·.measured) = [.fin 8, .fin 8] := by
  obtain ⟨r, hr, hq⟩ := exists_ok
    (x := (simulate Ex.orderA Copy.test (Copy.device shiftPrm) ⟨[], []⟩ none Counts.start).1)
    (f := fun r : SimReport Ex.Q => decide (
      (rowsAt r.measurements 1 "vth").map (fun x : MeasRow Ex.Q => x.measured) = [.fin 68, .fin 68] ∧
      (rowsAt r.measurements 1 "out").map (fun x : MeasRow Ex.Q => x.measured) = [.fin 8, .fin 8]))
    (by decide +kernel)
  exact ⟨r, _, Prod.ext hr rfl, of_decide_eq_true hq⟩

end Gerabaldi.Props
