import Verif.Spec.Sample
import Verif.Props.Circuit

/-!
# C71: conditional shifts
-/

set_option linter.unusedSectionVars false

namespace Gerabaldi.Props

open Gerabaldi Gerabaldi.Spec

section
variable {W V : Type} [PyNum V]

/-- Arithmetic expressions compute their own value. -/
theorem expr_sample [Rng W V] {e : NumExpr V} {params : List String} (he : e.Uses params) {N : Nat → Prop} :
    SampleEquation (e.fn params : PyFun W V) (fun env => exprOn env e) N := by
  intro args L C n w w' v _ hnd hu hpl h
  have hinv : (e.fn params : PyFun W V).invoke args w = (.ok v, w') := by
    unfold computeOrLoop M.catchValueError at h
    by_cases hacc : (e.fn params : PyFun W V).accepts args = true
    · obtain ⟨v', w1, h1⟩ := NumExpr.direct (W := W) he args L C n w hu hacc
      have h2 : (e.fn params : PyFun W V).invoke args w = (.ok v', w1) := by
        unfold PyFun.invoke; rw [if_pos hacc]; exact h1
      rw [h2] at h ⊢
      exact h
    · have h2 : (e.fn params : PyFun W V).invoke args w = (.error .typeError, w) := by
        unfold PyFun.invoke; rw [if_neg hacc]; rfl
      rw [h2] at h
      cases h
  obtain ⟨hacc, hcall⟩ := invoke_ok hinv
  obtain ⟨v', h1, h2, -, h4⟩ := e.eval_is hu (fn_present he hacc)
  have := (M.ofExcept_eq_ok.1 hcall).1
  rw [h1] at this
  cases this
  refine ⟨fun x hx => ?_, fun l hl c hc d hd env henv => ?_⟩
  · obtain ⟨k, hk⟩ := h4 x hx
    exact hpl _ _ (Dict.mem_of_get? hk)
  · have key : sampleVal v l c d = e.val (sampleArgs args l c d) := by
      cases v with
      | arr a => exact h2.2 l hl c hc d hd
      | scal x => exact (h2 l c d).symm
      | npscal x => exact (h2 l c d).symm
    rw [key]
    refine val_on fun k hk => ?_
    obtain ⟨v, hv⟩ := fn_present he hacc k hk
    exact ⟨v, hv, henv k v hv⟩

/-- Equations for single numbers are applied to each sample. -/
theorem number_sample [Rng W V] {f : PyFun W V} {g : (String → V) → V} (hf : NumberEquation f g) {N : Nat → Prop} :
    SampleEquation f g N := by
  intro args L C n w w' v _ hnd hu hpl h
  by_cases harr : ∃ k a, args.get? k = some (PyVal.arr a)
  · unfold computeOrLoop M.catchValueError at h
    by_cases hacc : f.accepts args = true
    · have h1 : f.invoke args w = f.call args w := by unfold PyFun.invoke; rw [if_pos hacc]
      have h2 := hf.arrays args w harr hacc
      rw [h1] at h
      rcases hcall : f.call args w with ⟨x, w1⟩
      rw [hcall] at h h2
      simp only at h2
      subst h2
      simp only at h
      obtain ⟨a, w2, h3, h4⟩ := M.bind_eq_ok.1 h
      cases h4
      refine ⟨fun x hx => (nomatch hx), fun l hl c hc d hd env henv => ?_⟩
      obtain ⟨v, u1, u2, h5, h6⟩ := loopCompute_sample hu hpl h3 hl hc hd
      obtain ⟨ha, hb⟩ := invoke_ok h5
      obtain ⟨x, rfl, hx⟩ := hf.numbers _ _ _ _ (sampleArgs_numbers args l c d) ha hb
      have hx' := hx env (fun k v hv => by
        replace hv := (Gerabaldi.sampleArgs_get? args l c d k).symm.trans hv
        cases hk : args.get? k with
        | none => rw [hk] at hv; cases hv
        | some y => rw [hk] at hv; cases hv; exact congrArg PyVal.scal (henv k y hk))
      rcases h6 with h6 | h6
      · cases h6; exact hx'
      · cases h6
    · have h2 : f.invoke args w = (.error .typeError, w) := by
        unfold PyFun.invoke; rw [if_neg hacc]; rfl
      rw [h2] at h
      cases h
  · have hnum : Numbers args := by
      intro k v hv
      cases v with
      | arr a => exact absurd ⟨k, a, Dict.get?_of_mem hnd hv⟩ harr
      | scal x => exact ⟨x, rfl⟩
      | npscal x => exact absurd hv (hpl k x)
    have hinv : f.invoke args w = (.ok v, w') ∨ ∃ a, v = .arr a ∧ ∃ w1, loopCompute f args L C n w1 = (.ok a, w') := by
      unfold computeOrLoop M.catchValueError at h
      split at h
      · rename_i w1 _
        obtain ⟨a, w2, h3, h4⟩ := M.bind_eq_ok.1 h
        cases h4
        exact .inr ⟨a, rfl, w1, h3⟩
      · exact .inl h
    rcases hinv with h1 | ⟨a, rfl, w1, h3⟩
    · obtain ⟨ha, hb⟩ := invoke_ok h1
      obtain ⟨x, rfl, hx⟩ := hf.numbers _ _ _ _ hnum ha hb
      refine ⟨fun x hx => (nomatch hx), fun l hl c hc d hd env henv => ?_⟩
      refine hx env fun k v hv => ?_
      obtain ⟨y, rfl⟩ := hnum k v (Dict.mem_of_get? hv)
      exact congrArg _ (henv k _ hv)
    · refine ⟨fun x hx => (nomatch hx), fun l hl c hc d hd env henv => ?_⟩
      obtain ⟨v, u1, u2, h5, h6⟩ := loopCompute_sample hu hpl h3 hl hc hd
      obtain ⟨ha, hb⟩ := invoke_ok h5
      obtain ⟨x, rfl, hx⟩ := hf.numbers _ _ _ _ (sampleArgs_numbers args l c d) ha hb
      have hx' := hx env (fun k v hv => by
        replace hv := (Gerabaldi.sampleArgs_get? args l c d k).symm.trans hv
        cases hk : args.get? k with
        | none => rw [hk] at hv; cases hv
        | some y => rw [hk] at hv; cases hv; exact congrArg PyVal.scal (henv k y hk))
      rcases h6 with h6 | h6
      · cases h6; exact hx'
      · cases h6

/-- The conditional model's latent values of the measured devices are those of the state. -/
theorem condLatents_cut {lat : Dict (LatNode V)} {L C D n : Nat} (hl : LatDims lat L C D) (hn : n ≤ D)
    {clat : Dict (Arr3 V)} (h : subLatents (if n < D then reduceLatents lat n else lat) "cond" = .ok clat) :
    ∃ cl, lat.get? "cond" = some (.sub cl) ∧ ∀ l < L, ∀ c < C, ∀ d < n, ∀ k,
      condAt clat l c d k = condAt cl l c d k := by
  by_cases hnD : n < D
  · rw [if_pos hnD] at h
    unfold subLatents at h
    rw [reduceLatents_get?] at h
    cases hx : lat.get? "cond" with
    | none => rw [hx] at h; cases h
    | some x =>
      rw [hx] at h
      cases x with
      | arr a => cases h
      | sub cl =>
        cases h
        refine ⟨cl, rfl, fun l h1 c h2 d h3 k => ?_⟩
        unfold condAt
        rw [Dict.get?_map (fun _ (a : Arr3 V) => a.takeDev n)]
        cases hk : cl.get? k with
        | none => rfl
        | some a =>
          have ha : a.HasDims L C D := (hl _ _ (Dict.mem_of_get? hx) : DictDims cl L C D) _ _ (Dict.mem_of_get? hk)
          obtain ⟨rfl, rfl, rfl⟩ := ha
          exact congrArg some (Arr3.at_takeDev _ hn h1 h2 h3)
  · rw [if_neg hnD] at h
    unfold subLatents at h
    cases hx : lat.get? "cond" with
    | none => rw [hx] at h; cases h
    | some x =>
      rw [hx] at h
      cases x with
      | arr a => cases h
      | sub cl => cases h; exact ⟨_, rfl, fun _ _ _ _ _ _ _ => rfl⟩

theorem condLatents_dims {lat : Dict (LatNode V)} {L C D n : Nat} (hl : LatDims lat L C D) (hn : n ≤ D)
    {clat : Dict (Arr3 V)} (h : subLatents (if n < D then reduceLatents lat n else lat) "cond" = .ok clat) :
    GetDims clat L C n := by
  refine subLatents_dims ?_ h
  split
  · exact reduceLatents_dims hl hn
  · have : n = D := by omega
    subst this
    exact hl

/-- The arguments of a conditional shift at one sample. -/
theorem condArgs_names {f : PyFun W V} {cs clat : Dict (Arr3 V)} {l c d : Nat} {k : String} {v : PyVal V}
    (h : (fillArgs (lookup2 clat cs) f.argNames []).get? k = some v) :
    sampleVal v l c d = condNames (condAt clat l c d) (condAt cs l c d) k ∧ ∃ a, v = .arr a := by
  rw [fillArgs_get?] at h
  split at h
  · simp only [Dict.get?_nil, Option.or_none] at h
    unfold lookup2 at h
    unfold condNames condAt
    cases hl : clat.get? k with
    | some a => rw [hl] at h; cases h; exact ⟨rfl, _, rfl⟩
    | none =>
      rw [hl] at h
      simp only at h
      cases hc : cs.get? k with
      | some b => rw [hc] at h; cases h; exact ⟨rfl, _, rfl⟩
      | none => rw [hc] at h; cases h
  · cases h

variable [Rng W V]

/-- **C71**, the shift of a measurement of `n` devices: at every sample the value of the conditional equation for
that sample's own latent values and conditions. -/
theorem C71_shift {m : LatentMdl W V} {N : Nat → Prop} {gc : (String → V) → V}
    (hf : SampleEquation m.compute gc N) {cs clat : Dict (Arr3 V)} {L C n : Nat} (hN : N (L * C * n))
    (hc : GetDims cs L C n) (hl : GetDims clat L C n) {v : PyVal V} {w w' : W}
    (h : calcCondVals m cs clat L C n w = (.ok v, w')) :
    (∀ x, v ≠ .npscal x) ∧ ∀ l < L, ∀ c < C, ∀ d < n,
      sampleVal v l c d = gc (condNames (condAt clat l c d) (condAt cs l c d)) := by
  have hnd : (fillArgs (lookup2 clat cs) m.compute.argNames []).Nodup :=
    fillArgs_nodup _ _ (show (Dict.keys []).Nodup from List.nodup_nil)
  obtain ⟨h1, h2⟩ := hf _ _ _ _ _ _ _ hN hnd
    (fillArgs_uniform (fun k a h => by cases h) (lookup2_dims hl hc))
    (fun k x hx => by
      obtain ⟨-, a, ha⟩ := condArgs_names (l := 0) (c := 0) (d := 0) (Dict.get?_of_mem hnd hx)
      cases ha) h
  exact ⟨h1, fun l hl' c hc' d hd' => h2 l hl' c hc' d hd' _ fun k v hv => (condArgs_names hv).1⟩

/-- **C71**, readings: the rows of a measurement of `n` devices of a parameter show what its instrument reads from
the value of the parameter's equation for the true value, the conditional shift, the neutral mechanism values
and the latent values of that very device; the conditional shift is the value of the conditional equation for the
conditional latent values of that device and the conditions of the measurement at that device. -/
theorem C71_reading [LawfulRng W V] {ord : SetOrder} {dev : DeviceMdl W V} {env : PhysTestEnv V}
    (hnd : dev.prms.Nodup) (hm : ∀ p d, dev.prms.get? p = some (.deg d) → d.mechs.Nodup)
    {N : Nat → Prop} (hs : ∀ p d, dev.prms.get? p = some (.deg d) → DegShapes d N) {test : TestSpec V}
    {r : SimReport V} {w w' : W} (h : simulate ord test dev env none w = (.ok r, w'))
    {pre post : List (Step V)} {step : MeasSpec V} (ht : test.steps = pre ++ .meas step :: post)
    (hnm : step.measurements.Nodup) {prm : String} {n : Nat} (hp : (prm, n) ∈ step.measurements)
    {m : DegPrmMdl W V} (hd : dev.prms.get? prm = some (.deg m)) {g gc : (String → V) → V}
    {S : PyVal V → Prop} (he : HasEquation m g N S) (hc : SampleEquation m.condMdl.compute gc N)
    (hN : SizesIn N r.info := by intro _ _ _; trivial)
    (hNn : N (test.numLots * test.numChps * n) := by trivial) :
    ∃ s0 r0 s r1 conds cs cur lat cl k ys, ∃ w0 w1 w2 u2 u3 : W,
      simStart dev test none w = (.ok (s0, r0), w0) ∧
      runSteps ord dev env 0 pre (s0, r0) w0 = (.ok (s, r1), w1) ∧
      env.genEnvCondVals ord step.conditions (.counts step.measurements) (some r.info) (some dev)
        .measure 1 1 w1 = (.ok conds, w2) ∧
      conds.get? prm = some cs ∧ s.currPrm.get? prm = some (.arr cur) ∧
      cur.HasDims test.numLots test.numChps k ∧ n ≤ k ∧
      s.latents.get? prm = some lat ∧ lat.get? "cond" = some (.sub cl) ∧
      (instrumentOf env prm).measureVals ((expectedRows test.numLots test.numChps n (fun l c d =>
        g (prmNames (cur.at' l c d) (gc (condNames (condAt cl l c d) (condAt cs l c d)))
          (fun k => (m.mechs.get? k).map (·.unitary)) (ownAt lat l c d))) prm s.elapsed
        pre.length).map (·.measured)) u2 = (.ok ys, u3) ∧
      rowsAt r.measurements pre.length prm = List.zipWith (fun x y => { x with measured := y })
        (expectedRows test.numLots test.numChps n (fun l c d =>
          g (prmNames (cur.at' l c d) (gc (condNames (condAt cl l c d) (condAt cs l c d)))
            (fun k => (m.mechs.get? k).map (·.unitary)) (ownAt lat l c d))) prm s.elapsed pre.length) ys := by
  obtain ⟨s0, r0, s, r1, conds, t, ys, w0, w1, w2, u1, u2, u3, h1, h2, h3, h4, h5, h6, h7⟩ :=
    C57_instrument h ht hnm hp
  have hN0 : SizesIn N r0.info := by rw [← h3]; exact hN
  obtain ⟨g1, g2, g3, -, g5⟩ := simStart_shape hnd hs h1 hN0
  obtain ⟨g6, g7⟩ := runSteps_shape hnd hm hs (sr := (s0, r0)) (sr' := (s, r1)) g1 h2 hN0
  simp only at g6 g7
  obtain ⟨k, lat, b1, b2, b3⟩ := g6.count prm _ hd
  have b0 := b1
  rw [g7] at b1
  have hle : n ≤ k := by
    cases hb : (calcSamplesNeeded test.steps).get? prm with
    | none =>
      refine absurd ⟨step, ?_, hp⟩ (((C08_max test.steps prm).2.1 hb) n)
      rw [ht]; simp
    | some j =>
      obtain ⟨k', hk', hkk⟩ := g5.keeps hb
      rw [show r0.devCounts.get? prm = some k from b1] at hk'
      cases hk'
      refine Nat.le_trans (((C08_max test.steps prm).1 j |>.1 hb).2 n ⟨step, ?_, hp⟩) hkk
      rw [ht]; simp
  have e1 : r0.info.numLots = test.numLots := g2
  have e2 : r0.info.numChps = test.numChps := g3
  obtain ⟨cur, k3, k4⟩ := (g6.deg prm m k hd b0).prm
  rw [g7, e1, e2] at k4
  unfold measureTrue at h5
  rw [k3, hd] at h5
  simp only at h5
  obtain ⟨cs, c1, h8⟩ := M.getE_bind_ok.1 h5
  obtain ⟨lat', c2, h9⟩ := M.getE_bind_ok.1 h8
  rw [b2] at c2
  cases c2
  obtain ⟨v, w3, h10, h11⟩ := M.bind_eq_ok.1 h9
  have hcs := conds_dims h4 rfl (show prm ∈ Dict.keys _ from List.mem_map_of_mem hp)
    (Dict.mem_keys_of_get? hd) (Dict.get?_of_mem hnm hp) c1
  rw [g7, e1, e2] at b3
  rw [h3, e1, e2] at h10 hcs
  -- the shift is not a numpy scalar
  have hnp : ∀ clat (u u' : W) x, GetDims clat test.numLots test.numChps n →
      calcCondVals m.condMdl cs clat test.numLots test.numChps n u = (.ok x, u') → S x := by
    intro clat u u' x hcl hx
    have := (C71_shift hc hNn hcs hcl hx).1
    cases x with
    | arr a => exact he.arr a
    | scal y => exact he.scal y
    | npscal y => exact absurd rfl (this y)
  obtain ⟨clat, shift, a, w4, d1, d2, rfl, d3, d4⟩ := C65_measured (hs _ _ hd) (hm _ _ hd) he k4 hle b3 hcs
    h10 hnp hNn
  obtain ⟨cl, x1, x2⟩ := condLatents_cut b3 hle d1
  have hcl := condLatents_dims b3 hle d1
  have hsv := (C71_shift hc hNn hcs hcl d2).2
  have hval : ∀ l < test.numLots, ∀ c < test.numChps, ∀ d < n, a.at' l c d =
      g (prmNames (cur.at' l c d) (gc (condNames (condAt cl l c d) (condAt cs l c d)))
        (fun k => (m.mechs.get? k).map (·.unitary)) (ownAt lat l c d)) := by
    intro l hl c hc d hd
    rw [d4 l hl c hc d hd, hsv l hl c hc d hd]
    have : condAt clat l c d = condAt cl l c d := funext (x2 l hl c hc d hd)
    rw [this]
  obtain ⟨f1, rfl⟩ := M.ofExcept_eq_ok.1 h11
  rw [C38_rows, d3.1, d3.2.1, d3.2.2, expectedRows_congr hval] at f1
  cases f1
  exact ⟨s0, r0, s, r1, conds, cs, cur, lat, cl, k, ys, w0, w1, w2, _, u3, h1, h2, h4, c1, k3, k4, hle, b2, x1, h6, h7⟩

end

/-! ### A temperature coefficient -/

section
open Ex

/-- The shift `tc * temp` with the latent coefficient `tc`. -/
def tempExpr : NumExpr Q := .bin PyArith.mul (.arg "tc") (.arg "temp")

/-- The parameter equation `init + cond + burn`. -/
def shiftExpr : NumExpr Q := .bin PyArith.add (.bin PyArith.add (.arg "init") (.arg "cond")) (.arg "burn")

/-- A parameter with them. -/
def shiftPrm : DegPrmMdl Counts Q :=
  { degPrm [("burn", burn)] (.fin 3) with
    condMdl := { compute := tempExpr.fn ["tc", "temp"], latentVars := [("tc", constLatent (.fin 2))] }
    mdl := { compute := shiftExpr.fn ["init", "cond", "burn"], name := some "vth" } }

/-- A device with it. -/
def shiftDev : DeviceMdl Counts Q where
  prms := [("vth", .deg shiftPrm)]

/-- It burns at 120 degrees and is measured at 20 and at 30. -/
def shiftTest : TestSpec Q :=
  { steps := [.strs ⟨[("temp", .fin 120)], .td 3600000000, "heat"⟩,
      .meas ⟨[("vth", 2)], [("temp", .fin 20)], "read"⟩, .meas ⟨[("vth", 1)], [("temp", .fin 30)], "read"⟩],
    numChps := 1, numLots := 1, name := "shift", description := "" }

theorem shift_equation : HasEquation shiftPrm fun env => exprOn env shiftExpr :=
  expr_equation (params := ["init", "cond", "burn"]) rfl (by
    intro k
    simp [shiftExpr, NumExpr.uses])

theorem temp_equation : SampleEquation (W := Counts) shiftPrm.condMdl.compute fun env => exprOn env tempExpr :=
  expr_sample (by
    intro k
    simp [tempExpr, NumExpr.uses])

/-- The shapes are as `C71_reading` needs them. -/
example : DegShapes shiftPrm := by
  refine ⟨argEqn_shapes _, by decide, by simp [shiftPrm, degPrm, initValMk, nameLatents],
    NumExpr.shapes (by intro k; simp [tempExpr, NumExpr.uses]), ?_,
    NumExpr.shapes (by intro k; simp [shiftExpr, NumExpr.uses])⟩
  intro k m hk
  cases List.mem_singleton.1 hk
  exact eqn2_shapes _ _ _

/-- Both measurements show the true value 8, shifted by twice the temperature. -/
example : ∃ r w', simulate orderA shiftTest shiftDev ⟨[], []⟩ none Counts.start = (.ok r, w') ∧
    (rowsAt r.measurements 1 "vth").map (·.measured) = [.fin 48, .fin 48] ∧
    (rowsAt r.measurements 2 "vth").map (·.measured) = [.fin 68] ∧
    exprOn (prmNames (.fin 8) (exprOn (condNames (condAt [("tc", .full 1 1 1 (.fin 2))] 0 0 0)
      (condAt [("temp", .full 1 1 1 (.fin 30))] 0 0 0)) tempExpr)
      (fun k => (shiftPrm.mechs.get? k).map (·.unitary)) fun _ => none) shiftExpr = .fin 68 := by
  obtain ⟨r, hr, hq⟩ := exists_ok (x := (simulate orderA shiftTest shiftDev ⟨[], []⟩ none Counts.start).1)
    (f := fun r => decide ((rowsAt r.measurements 1 "vth").map (·.measured) = [.fin 48, .fin 48] ∧
      (rowsAt r.measurements 2 "vth").map (·.measured) = [.fin 68])) (by decide +kernel)
  exact ⟨r, _, Prod.ext hr rfl, (of_decide_eq_true hq).1, (of_decide_eq_true hq).2, by decide +kernel⟩

/-- A shift with a Python `if`: 1 above 25 degrees, otherwise 0. Arrays raise `ValueError`. -/
def hotEqn : PyFun Counts Q where
  params := [("temp", false)]
  call := fun args => M.ofExcept (match args.get? "temp" with
    | some (.scal x) => .ok (.scal (if PyArith.gt x (.fin 25) then .fin 1 else .fin 0))
    | some (.npscal x) => .ok (.scal (if PyArith.gt x (.fin 25) then .fin 1 else .fin 0))
    | some (.arr _) => .error .valueError
    | none => .error .keyError)

/-- It is an equation for single numbers, so that `C71_shift` applies to it through the loop. -/
theorem hot_equation : NumberEquation hotEqn
    fun env => if PyArith.gt (env "temp") (.fin 25) then .fin 1 else .fin 0 where
  arrays := by
    intro args w hex hacc
    obtain ⟨k, a, hk⟩ := hex
    have hm := accepts_mem hacc rfl hk
    simp only [hotEqn, List.map_cons, List.map_nil, List.mem_singleton] at hm
    subst hm
    simp only [hotEqn, hk]
    rfl
  numbers := by
    intro args w w' v hn hacc h
    obtain ⟨y, hy⟩ := accepts_present hacc (show ("temp", false) ∈ hotEqn.params by simp [hotEqn])
    obtain ⟨x, rfl⟩ := hn _ _ (Dict.mem_of_get? hy)
    simp only [hotEqn, hy] at h
    cases h
    refine ⟨_, rfl, fun env henv => ?_⟩
    cases henv _ _ hy
    rfl

example : SampleEquation hotEqn
    (fun env => if PyArith.gt (env "temp") (.fin 25) then .fin 1 else .fin 0) := number_sample hot_equation

end
end Gerabaldi.Props
