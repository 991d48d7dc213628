import Verif.Props.Equation
import Verif.Spec.Circuit

/-!
# C67: circuit parameters follow their own equation
-/

namespace Gerabaldi.Props

open Gerabaldi Gerabaldi.Spec

section
variable {W V : Type} [PyNum V]

/-- Expressions of numbers are numbers. -/
theorem eval_number {e : NumExpr V} {args : Dict (PyVal V)} (h : ∀ k a, args.get? k ≠ some (.arr a))
    {v : PyVal V} (hv : e.eval args = .ok v) : ∀ a, v ≠ .arr a := by
  induction e generalizing v with
  | arg k =>
    rintro a rfl
    unfold NumExpr.eval Dict.getE at hv
    cases hg : args.get? k with
    | none => rw [hg] at hv; cases hv
    | some x => rw [hg] at hv; cases hv; exact h k a hg
  | lit x => cases hv; exact fun a ha => (nomatch ha)
  | un f e ih =>
    unfold NumExpr.eval at hv
    cases hx : e.eval args with
    | error e => rw [hx] at hv; cases hv
    | ok x =>
      rw [hx] at hv
      cases hv
      have := ih hx
      cases x with
      | arr a => exact absurd rfl (this a)
      | scal x => exact fun a ha => (nomatch ha)
      | npscal x => exact fun a ha => (nomatch ha)
  | bin f e₁ e₂ ih₁ ih₂ =>
    unfold NumExpr.eval at hv
    cases hx : e₁.eval args with
    | error e => rw [hx] at hv; cases hv
    | ok x =>
      rw [hx] at hv
      cases hy : e₂.eval args with
      | error e => rw [hy] at hv; cases hv
      | ok y =>
        rw [hy] at hv
        have h1 := ih₁ hx
        have h2 := ih₂ hy
        cases x with
        | arr a => exact absurd rfl (h1 a)
        | scal x => cases y with
          | arr a => exact absurd rfl (h2 a)
          | scal y => cases hv; exact fun a ha => (nomatch ha)
          | npscal y => cases hv; exact fun a ha => (nomatch ha)
        | npscal x => cases y with
          | arr a => exact absurd rfl (h2 a)
          | scal y => cases hv; exact fun a ha => (nomatch ha)
          | npscal y => cases hv; exact fun a ha => (nomatch ha)

/-- Arithmetic expressions compute their own value. -/
theorem expr_circuit [Rng W V] {e : NumExpr V} {params : List String} (he : e.Uses params) :
    CircEquation (e.fn params : PyFun W V) fun env => exprOn env e := by
  intro args L C n w w' a hnd hu h
  obtain ⟨hacc, hcall⟩ := invoke_ok h
  by_cases harr : ∃ k b, args.get? k = some (PyVal.arr b)
  · obtain ⟨k, b, hb⟩ := harr
    obtain ⟨r, h1, h2, h3⟩ := (NumExpr.elementwise (W := W) he).onArrays _ L C n hnd hu
      ⟨k, b, Dict.mem_of_get? hb⟩ hacc w
    cases hcall.symm.trans h1
    refine ⟨h2, fun l hl c hc d hd env henv => (h3 l hl c hc d hd).trans (val_on fun k hk => ?_)⟩
    obtain ⟨v, hv⟩ := fn_present he hacc k hk
    exact ⟨v, hv, henv k v hv⟩
  · exact absurd rfl (eval_number (fun k b hb => harr ⟨k, b, hb⟩) (M.ofExcept_eq_ok.1 hcall).1 a)

/-- The arguments of a circuit parameter at one sample. -/
theorem circArgs_names {m : LatentMdl W V} {cs : Dict (Arr3 V)} {s : SimState V} {lat : Dict (LatNode V)}
    (harr : ∀ k v, s.currPrm.get? k = some v → ∃ a, v = .arr a) {l c d : Nat} {k : String} {v : PyVal V}
    (h : (circArgs m cs s.currPrm lat).get? k = some v) :
    sampleVal v l c d = circNames (ownAt lat l c d) (condAt cs l c d) (trueAt s l c d) k := by
  unfold circArgs at h
  rw [fillArgs_get?] at h
  split at h
  · simp only [Dict.get?_nil, Option.or_none] at h
    unfold circNames ownAt condAt trueAt
    unfold ownLatent at h
    cases hl : lat.get? k with
    | some x => cases x with
      | arr a =>
        rw [hl] at h
        cases h
        rfl
      | sub x =>
        rw [hl] at h
        simp only at h ⊢
        cases hc : cs.get? k with
        | some b => rw [hc] at h; cases h; rfl
        | none =>
          rw [hc] at h
          simp only at h
          obtain ⟨a, rfl⟩ := harr k v h
          rw [h]
          rfl
    | none =>
      rw [hl] at h
      simp only at h ⊢
      cases hc : cs.get? k with
      | some b => rw [hc] at h; cases h; rfl
      | none =>
        rw [hc] at h
        simp only at h
        obtain ⟨a, rfl⟩ := harr k v h
        rw [h]
        rfl
  · cases h

variable [Rng W V]

/-- **C67**: a measurement of `n` samples of a circuit parameter shows, for each sample, what the parameter's
instrument reads from the value of its equation for its own latent values, the conditions and the true parameter
values of that very sample, in the state left by the preceding steps. Exactly `n` devices of the parameter and
of everything it reads exist. With fewer samples than lots, only the first `n` lots are measured (C44). -/
theorem C67_reading [LawfulRng W V] {ord : SetOrder} {dev : DeviceMdl W V} {env : PhysTestEnv V}
    (hnd : dev.prms.Nodup) (hm : ∀ p d, dev.prms.get? p = some (.deg d) → d.mechs.Nodup)
    {N : Nat → Prop} (hs : ∀ p d, dev.prms.get? p = some (.deg d) → DegShapes d N) {test : TestSpec V}
    {r : SimReport V} {w w' : W} (h : simulate ord test dev env none w = (.ok r, w'))
    {pre post : List (Step V)} {step : MeasSpec V} (ht : test.steps = pre ++ .meas step :: post)
    (hnm : step.measurements.Nodup) {prm : String} {n : Nat} (hp : (prm, n) ∈ step.measurements)
    {m : LatentMdl W V} (hd : dev.prms.get? prm = some (.circ m)) {g : (String → V) → V}
    (hf : CircEquation m.compute g) (hown : r.devCounts.get? prm = some n)
    (hread : ∀ p d, p ∈ m.compute.argNames → dev.prms.get? p = some (.deg d) → r.devCounts.get? p = some n)
    (hN : SizesIn N r.info := by intro _ _ _; trivial) :
    ∃ s0 r0 s r1 conds cs lat ys, ∃ w0 w1 w2 u2 u3 : W, simStart dev test none w = (.ok (s0, r0), w0) ∧
      runSteps ord dev env 0 pre (s0, r0) w0 = (.ok (s, r1), w1) ∧
      env.genEnvCondVals ord step.conditions (.counts step.measurements) (some r.info) (some dev)
        .measure 1 1 w1 = (.ok conds, w2) ∧
      conds.get? prm = some cs ∧ s.latents.get? prm = some lat ∧
      (instrumentOf env prm).measureVals ((expectedRows (min n test.numLots) test.numChps n (fun l c d =>
        g (circNames (ownAt lat l c d) (condAt cs l c d) (trueAt s l c d))) prm s.elapsed
        pre.length).map (·.measured)) u2 = (.ok ys, u3) ∧
      rowsAt r.measurements pre.length prm = List.zipWith (fun x y => { x with measured := y })
        (expectedRows (min n test.numLots) test.numChps n (fun l c d =>
          g (circNames (ownAt lat l c d) (condAt cs l c d) (trueAt s l c d))) prm s.elapsed pre.length) ys := by
  obtain ⟨s0, r0, s, r1, conds, t, ys, w0, w1, w2, u1, u2, u3, h1, h2, h3, h4, h5, h6, h7⟩ :=
    C57_instrument h ht hnm hp
  obtain ⟨g1, g2, g3, -, g5⟩ := simStart_shape hnd hs h1 (by rw [← h3]; exact hN)
  obtain ⟨g6, g7⟩ := runSteps_shape hnd hm hs (sr := (s0, r0)) (sr' := (s, r1)) g1 h2 (by rw [← h3]; exact hN)
  simp only at g6 g7
  have e1 : r.info.numLots = test.numLots := by rw [h3]; exact g2
  have e2 : r.info.numChps = test.numChps := by rw [h3]; exact g3
  rw [g7, ← h3] at g6
  obtain ⟨D, lat, b1, b2, b3⟩ := g6.count prm _ hd
  cases b1.symm.trans hown
  unfold measureTrue at h5
  rw [g6.only prm (fun d => by rw [hd]; simp), hd] at h5
  simp only at h5
  obtain ⟨cs, k1, h8⟩ := M.getE_bind_ok.1 h5
  obtain ⟨lat', k2, h9⟩ := M.getE_bind_ok.1 h8
  cases b2.symm.trans k2
  obtain ⟨v, w3, h10, h11⟩ := M.bind_eq_ok.1 h9
  obtain ⟨v0, w4, h12, h13⟩ := M.bind_eq_ok.1 h10
  have hcs := conds_dims h4 rfl (show prm ∈ Dict.keys _ from List.mem_map_of_mem hp)
    (Dict.mem_keys_of_get? hd) (Dict.get?_of_mem hnm hp) k1
  have hdeg : ∀ k v, s.currPrm.get? k = some v → ∃ d, dev.prms.get? k = some (.deg d) := by
    intro k v hv
    by_contra hn
    rw [g6.only k fun d hd' => hn ⟨d, hd'⟩] at hv
    cases hv
  have hu : uniformShape (circArgs m cs s.currPrm lat) r.info.numLots r.info.numChps n := by
    refine circArgs_uniform hcs b3 fun k hk a ha => ?_
    obtain ⟨d, hd'⟩ := hdeg k _ ha
    obtain ⟨b, hb, hbd⟩ := (g6.deg k d n hd' (hread k d hk hd')).prm
    cases ha.symm.trans hb
    exact hbd
  have harr : ∀ k v, s.currPrm.get? k = some v → ∃ a, v = .arr a := by
    intro k v hv
    obtain ⟨d, hd'⟩ := hdeg k v hv
    obtain ⟨j, -, hj, -⟩ := g6.count k _ hd'
    obtain ⟨b, hb, -⟩ := (g6.deg k d j hd' hj).prm
    exact ⟨b, Option.some.inj (hv.symm.trans hb)⟩
  obtain ⟨h14, rfl⟩ := M.ofExcept_eq_ok.1 h13
  unfold sliceTriple at h14
  split at h14
  · rename_i a
    cases h14
    obtain ⟨⟨d1, d2, d3⟩, hval⟩ := hf _ _ _ _ _ _ _ (fillArgs_nodup _ _ (show (Dict.keys []).Nodup from List.nodup_nil)) hu h12
    obtain ⟨f1, rfl⟩ := M.ofExcept_eq_ok.1 h11
    have hb : (a.takeLot n).HasDims (min n test.numLots) test.numChps n := by
      refine ⟨?_, d2.trans e2, d3⟩
      show min n a.nl = _
      rw [d1, e1]
    rw [C38_rows, hb.1, hb.2.1, hb.2.2] at f1
    have hv : ∀ l < min n test.numLots, ∀ c < test.numChps, ∀ d < n, (a.takeLot n).at' l c d =
        g (circNames (ownAt lat l c d) (condAt cs l c d) (trueAt s l c d)) := by
      intro l hl c hc d hd'
      have : (a.takeLot n).at' l c d = a.at' l c d := by
        unfold Arr3.takeLot
        exact Arr3.at_ofFn _ (by rw [d1, e1]; exact hl) (by rw [d2, e2]; exact hc) (by rw [d3]; exact hd')
      rw [this]
      exact hval l (by rw [e1]; omega) c (by rw [e2]; exact hc) d hd' _ fun k v hk => circArgs_names harr hk
    rw [expectedRows_congr hv] at f1
    cases f1
    exact ⟨s0, r0, s, r1, conds, cs, lat, ys, w0, w1, w2, _, u3, h1, h2, h4, k1, b2, h6, h7⟩
  · cases h14

end

/-! ### A delay `vth * vdd * load` with its own latent variable -/

section
open Ex

/-- The equation. -/
def delayExpr : NumExpr Q := .bin PyArith.mul (.bin PyArith.mul (.arg "vth") (.arg "vdd")) (.arg "load")

/-- The circuit parameter. -/
def delayMdl : LatentMdl Counts Q :=
  { compute := delayExpr.fn ["vth", "vdd", "load"], latentVars := [("load", constLatent (.fin 7))] }

/-- `Ex.dev` with it. -/
def delayDev : DeviceMdl Counts Q where
  prms := [("vth", .deg (degPrm [("burn", burn)] (.fin 3))), ("delay", .circ delayMdl)]

/-- It is measured for two samples. -/
def delayTest : TestSpec Q :=
  { steps := [.strs ⟨[("temp", .fin 120), ("vdd", .fin 2)], .td 3600000000, "heat"⟩,
      .meas ⟨[("delay", 2)], [("temp", .fin 20), ("vdd", .fin 2)], "read"⟩],
    numChps := 1, numLots := 3, name := "delay", description := "" }

theorem delay_circuit : CircEquation (W := Counts) delayMdl.compute fun env => exprOn env delayExpr :=
  expr_circuit (by
    intro k
    simp [delayExpr, NumExpr.uses])

/-- The hypotheses of `C67_reading` hold for the run of this test. -/
example : ∃ r w', simulate orderA delayTest delayDev ⟨[], []⟩ none Counts.start = (.ok r, w') ∧
    r.devCounts.get? "delay" = some 2 ∧
    (∀ p d, p ∈ delayMdl.compute.argNames → delayDev.prms.get? p = some (.deg d) →
      r.devCounts.get? p = some 2) ∧
    (rowsAt r.measurements 1 "delay").map (fun x => (x.lot, x.chp, x.measured)) =
      [(some 0, some 0, .fin 112), (some 0, some 0, .fin 112), (some 1, some 0, .fin 112), (some 1, some 0, .fin 112)] ∧
    exprOn (circNames (ownAt [("load", .arr (.full 1 1 1 (.fin 7)))] 0 0 0)
      (condAt [("vdd", .full 1 1 1 (.fin 2))] 0 0 0) fun _ => some (.fin 8)) delayExpr = .fin 112 := by
  obtain ⟨r, hr, hq⟩ := exists_ok (x := (simulate orderA delayTest delayDev ⟨[], []⟩ none Counts.start).1)
    (f := fun r => decide (r.devCounts.get? "delay" = some 2 ∧ r.devCounts.get? "vth" = some 2 ∧
      (rowsAt r.measurements 1 "delay").map (fun x => (x.lot, x.chp, x.measured)) =
        [(some 0, some 0, .fin 112), (some 0, some 0, .fin 112), (some 1, some 0, .fin 112), (some 1, some 0, .fin 112)]))
    (by decide +kernel)
  obtain ⟨h1, h2, h3⟩ := of_decide_eq_true hq
  refine ⟨r, _, Prod.ext hr rfl, h1, fun p d hp hd => ?_, h3, by decide +kernel⟩
  have : p = "vth" ∨ p = "delay" := by
    have := Dict.mem_keys_of_get? hd
    simpa [delayDev, Dict.keys] using this
  rcases this with rfl | rfl
  · exact h2
  · cases hd

end

end Gerabaldi.Props
