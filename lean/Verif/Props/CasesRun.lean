import Verif.Props.HtolNbtiEx
import Verif.Props.FailHistory
import Verif.Props.River

/-!
# A whole run to which the theorems on exposures and on the damage of the NBTI mechanism apply
-/

namespace Gerabaldi.Props

open Gerabaldi Gerabaldi.Spec

/-- The 1000 hours of `halfWhole` at 398 K and 1.2 V: the damage of every sample is at least that of a new
sample under the same conditions for as long. -/
example : ∃ (s s0 : SimState (Ext ℝ)) (V : Arr3 (Ext ℝ)) (r0 r : SimReport (Ext ℝ)),
    simStart halfDev halfWhole none ⟨⟩ = (.ok (s0, r0), ⟨⟩) ∧
    runSteps Ex.orderA halfDev ⟨[], []⟩ 0 halfWhole.steps (s0, r0) ⟨⟩ = (.ok (s, r), ⟨⟩) ∧
    mechVal s "vth" "m" = some V ∧ ∀ d < 10, ∃ x : ℝ, 0 < x ∧ V.at' 0 0 d = .fin x ∧
      damage (1 / 2) (nbtiShift (1 / 2) (1 / 2) (125 + 27315 / 100) (6 / 5) (1 / 2) (1 / 2) 1000) ≤
        damage (1 / 2) x := by
  obtain ⟨s0, r0, w0, h1, h2, h3, h4, h5⟩ := simStart_works halfDev_works half_wholeOk ⟨⟩
  have hq : r0.devCounts.get? "vth" = some 10 := by
    rw [h2]
    rfl
  obtain ⟨n1, n2⟩ := genSizes (N := fun _ => True) (q := r0.info) (fun _ _ _ => trivial) h4 h5 h2
  have hsh := fun p d (hp : halfDev.prms.get? p = some (.deg d)) => (halfDev_works.deg p d hp).shapes
  obtain ⟨a1, g2, g3, -, -⟩ := simStart_shape halfDev_works.unique hsh h1 n1
  obtain ⟨⟨s, r⟩, w', h⟩ := runSteps_works halfDev_works (envDraws_empty (W := Halves) []) (ord := Ex.orderA)
    (genCounts_ok half_wholeOk h2) a1 (simStart_latents halfDev_works h1) h3 half_wholeOk.times 0 w0 n1 n2
  obtain ⟨_, lat', _, q2, q3⟩ := C75_run halfDev_works.unique half_mechsUnique hsh h1 h rfl half_own half_mechs hq n1
  obtain ⟨_, _, pd, -⟩ := q3 "m" halfMech rfl rfl
  obtain ⟨phases, lat, p1, p2, p3⟩ := C89_run halfDev_works.unique half_mechsUnique hsh h1 h rfl half_own half_mechs hq n1
  obtain ⟨V, v1, v2⟩ := p3 "m" halfMech rfl halfMech_is rfl
  rw [q2] at p2
  cases p2
  refine ⟨s, s0, V, r0, r, h1, h, v1, fun d hd => ?_⟩
  have hs : stressSteps halfWhole.steps =
      [⟨htolConds (.fin 1) (.fin (6 / 5)) (.fin 125), .td (1000 * 3600000000), "HTOL Stress"⟩] := rfl
  rw [hs] at p1
  obtain ⟨ph, rest, hof, hr, rfl⟩ := List.forall₂_cons_left_iff.1 p1
  cases hr
  obtain ⟨d1, d2, d3⟩ := htol_phase (mech := "m") (k := halfMech) rfl rfl rfl rfl halfMech_is hq rfl hof
  have hL : r0.info.numLots = 1 := g2
  have hC : r0.info.numChps = 1 := g3
  rw [hL, hC] at d2 d3
  have hdv := half_device pd hd
  have hlen : lengthOf .hours ph = 1000 := by
    unfold lengthOf
    rw [hof.1]
    have : phaseTime .hours (.td (1000 * 3600000000)) = 1000 := by decide +kernel
    show ((phaseTime .hours (.td (1000 * 3600000000)) : ℚ) : ℝ) = 1000
    rw [this]; norm_num
  obtain ⟨x, x0, x1, x2, -⟩ := v2 0 Nat.one_pos 0 Nat.one_pos d hd (1 / 2) (1 / 2) (1 / 2) (1 / 2)
    (fun _ => 125 + 27315 / 100) (fun _ => 1 * (6 / 5)) ph [] rfl (by norm_num) (by norm_num) (by norm_num)
    (fun q hq' => by
      rw [List.mem_singleton.1 hq']
      exact ⟨⟨_, d2, Arr3.at_full _ Nat.one_pos Nat.one_pos hd⟩, ⟨_, d3, Arr3.at_full _ Nat.one_pos Nat.one_pos hd⟩,
        hdv.a_0, hdv.e_aa, hdv.alpha, hdv.n⟩)
    (fun q hq' => by
      rw [List.mem_singleton.1 hq']
      refine ⟨by norm_num, by norm_num, ?_, d1⟩
      rw [hof.1]
      show (0 : ℚ) ≤ ((1000 * 3600000000 : Int) : ℚ)
      norm_num)
    (by show lengthOf .hours ph + 11 / 10000 ≤ 9000000000; rw [hlen]; norm_num) trivial trivial
  refine ⟨x, x0, x1, ?_⟩
  simp only [totalDamage, List.map_cons, List.map_nil, List.sum_cons, List.sum_nil, List.length_nil, pow_zero, div_one,
    add_zero, one_mul] at x2
  rw [show lengthOf _ ph = 1000 from hlen] at x2
  exact x2

open Ex in
/-- The device of C73 that fails in its second phase: the value is that of the second phase, whatever the third does. -/
example : ∃ s r w', simulateFull orderA wearTest wearDev {} none Counts.start = (.ok (s, r), w') ∧
    ∃ n v lat, r.devCounts.get? "vth" = some n ∧ mechVal s "vth" "wear" = some v ∧ Drawn wear.mdl 1 1 n lat ∧
      ∀ d < n, exprOn (mechNames (PyArith.ofRat 1) (condAt lat 0 0 d) fun k => Dict.get? [("temp", (.fin 110 : Q))] k) wearExpr =
          .fin 0 →
        exprOn (mechNames (PyArith.ofRat 3) (condAt lat 0 0 d) fun k => Dict.get? [("temp", (.fin 90 : Q))] k) wearExpr = .fin 5 →
        v.at' 0 0 d = .fin 5 := by
  obtain ⟨x, hx, -⟩ := exists_ok (x := (simulateFull orderA wearTest wearDev {} none Counts.start).1)
    (f := fun _ => true) (by decide +kernel)
  have h : simulateFull orderA wearTest wearDev {} none Counts.start = (.ok (x.1, x.2), _) := Prod.ext hx rfl
  have e1 : phaseTime .hours (.td 3600000000) = 1 := by decide +kernel
  have e3 : phaseTime .hours (.td 10800000000) = 3 := by decide +kernel
  obtain ⟨n, v, lat, a1, a2, -, a3, a4⟩ := C73_first_failure (k := wear) (prm := "vth") (mech := "wear")
    (m := degPrm [("wear", wear)] (.fin 3)) (unit := .hours)
    (g := fun env => exprOn env wearExpr) (pre := wearSteps.take 2) (post := wearSteps.drop 3)
    (st := ⟨[("temp", .fin 90)], .td 10800000000, "long"⟩) (by decide) (by
      intro p d hp
      cases List.mem_singleton.1 (Dict.mem_of_get? hp)
      decide) wear_shapes h rfl ⟨by decide, by decide, by decide, fun k hk => (by cases hk)⟩ rfl rfl
    (expr_sample (by intro k; simp [wearExpr, NumExpr.uses])) (by decide) (by
      intro st hst
      simp only [wearTest, wearSteps, List.mem_cons, Step.strs.injEq, reduceCtorEq, List.not_mem_nil, or_false,
        false_or] at hst
      rcases hst with rfl | rfl | rfl <;> decide) (fun st _ x _ _ => rfl) rfl (by decide +kernel) rfl (by decide +kernel)
  refine ⟨x.1, x.2, _, h, n, v, lat, a1, a2, a3, fun d hd h1 h3 => ?_⟩
  refine a4 0 Nat.one_pos 0 Nat.one_pos d hd (fun st hst => ?_) (.fin 5) ?_ (by decide +kernel)
  · simp only [wearSteps, List.take_succ_cons, List.take_zero, List.mem_cons, Step.strs.injEq, reduceCtorEq,
      List.not_mem_nil, or_false] at hst
    subst hst
    show exprOn (mechNames (PyArith.ofRat (phaseTime .hours (.td 3600000000))) _ _) wearExpr = _
    rw [e1]
    exact h1
  · show exprOn (mechNames (PyArith.ofRat (phaseTime .hours (.td 10800000000))) _ _) wearExpr = _
    rw [e3]
    exact h3

/-- The NBTI shift at 398 K and 1.2 V grows from zero. -/
example : nbtiShift (6 / 1000) (5 / 100) 398 (6 / 5) (34 / 10) (21 / 100) 0 = 0 ∧
    nbtiShift (6 / 1000) (5 / 100) 398 (6 / 5) (34 / 10) (21 / 100) 1 <
      nbtiShift (6 / 1000) (5 / 100) 398 (6 / 5) (34 / 10) (21 / 100) 2 := by
  obtain ⟨h1, h2⟩ := C60_time (a := 6 / 1000) (e := 5 / 100) (T := 398) (v := 6 / 5) (α := 34 / 10) (n := 21 / 100)
    (by norm_num) (by norm_num) (by norm_num)
  exact ⟨h2, h1 (by norm_num) (by norm_num) (by norm_num)⟩

end Gerabaldi.Props
