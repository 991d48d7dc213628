import Verif.Props.Fresh
import Verif.Props.Env
import Verif.Props.Total

/-!
# A concrete stress step of the prebuilt NBTI mechanism
-/

namespace Gerabaldi.Props

open Gerabaldi Gerabaldi.Spec

/-- A stress at 400 K and 1.2 V. -/
noncomputable def nbtiStep (us : Int) : StrsSpec (Ext ℝ) :=
  ⟨[("temp", .fin 400), ("vdd", .fin (6 / 5))], .td us, "stress"⟩

/-- The prebuilt mechanism. -/
noncomputable def nbtiMech : MechMdl Counts (Ext ℝ) :=
  (jedecNbti : Except Err (MechMdl Counts (Ext ℝ))).toOption.get rfl

theorem nbtiMech_is : IsNbti nbtiMech := ⟨nbtiMech, rfl, rfl, rfl, rfl, rfl⟩

theorem nbti_depends : (PrmMdl.deg (timePrm nbtiMech)).dependencies Ex.orderA ["temp", "vdd"] .stress =
    ["temp", "vdd"] := by
  decide +kernel

theorem nbti_conds (us : Int) (n : Nat) (w : Counts) :
    (⟨[], []⟩ : PhysTestEnv (Ext ℝ)).genEnvCondVals Ex.orderA (nbtiStep us).conditions
      (.names ((timeDev nbtiMech).degPrms.map (·.1))) (some (timeReport n).info)
      (some (timeDev nbtiMech)) .stress 1 1 w = (.ok [("vth", nbtiConds n)], w) := by
  have i := fun c => ideal_run (W := Counts) (env := (⟨[], []⟩ : PhysTestEnv (Ext ℝ))) (cond := c) rfl
  have hp : ({ } : PhysTestEnv (Ext ℝ)).genPrmConds Ex.orderA (some (timeDev nbtiMech))
      (Dict.keys [("temp", Ext.fin (400 : ℝ)), ("vdd", Ext.fin (6 / 5))]) Target.stress
      ((Dict.set [] "temp" (Ext.fin 400, Arr3.full 1 1 1 (Ext.fin 400))).set "vdd"
        (Ext.fin (6 / 5), Arr3.full 1 1 1 (Ext.fin (6 / 5)))) [("vth", n)] "vth" =
      (pure (nbtiConds n) : M Counts _) := by
    show M.forIn' _ ((PrmMdl.deg (timePrm nbtiMech)).dependencies Ex.orderA ["temp", "vdd"] .stress) [] = _
    rw [nbti_depends]
    funext w
    simp [M.forIn', PhysTestEnv.genDepend, Dict.getE, Dict.set, Dict.get?, M.bind_run, (i _).2.2]
    rfl
  simp [PhysTestEnv.genEnvCondVals, M.forIn', PhysTestEnv.genShared, nbtiStep, (i _).1, (i _).2.1, M.bind_run]
  show M.forIn' _ ["vth"] [] w = _
  rw [M.forIn', M.bind_ok (a := [("vth", nbtiConds n)]) (w' := w)]
  · rfl
  · exact M.bind_ok (congrFun hp w)

theorem nbti_draws : LatentsDraw (nbtiMech : MechMdl Counts (Ext ℝ)).mdl := by
  intro k lv h n C L w
  have h' : ∃ i mu sigma lv', devNormal i mu sigma = .ok lv' ∧ lv = lv'.setName (some k) := by
    rcases List.mem_cons.1 h with h | h
    · cases h; exact ⟨1, _, _, _, rfl, rfl⟩
    rcases List.mem_cons.1 h with h | h
    · cases h; exact ⟨2, _, _, _, rfl, rfl⟩
    rcases List.mem_cons.1 h with h | h
    · cases h; exact ⟨3, _, _, _, rfl, rfl⟩
    rcases List.mem_cons.1 h with h | h
    · cases h; exact ⟨4, _, _, _, rfl, rfl⟩
    cases h
  obtain ⟨i, mu, sigma, lv', h1, rfl⟩ := h'
  cases h1
  exact ⟨_, _, genLatentVals_run _ (lotS := List.replicate L (PyArith.ofRat 1)) rfl rfl rfl (by simp)
    (by simp) (by simp)⟩

/-- `n` fresh devices on one chip. -/
noncomputable def nbtiState (n : Nat) : SimState (Ext ℝ) where
  elapsed := .td 0
  currPrm := [("vth", .arr (Arr3.full 1 1 n (.fin 3)))]
  initPrm := [("vth", .arr (Arr3.full 1 1 n (.fin 3)))]
  currMech := [("vth", [("m", Arr3.full 1 1 n (.fin 0))])]
  initMech := [("vth", [("m", Arr3.full 1 1 n (.fin 0))])]
  latents := [("vth", [("cond", .sub []), ("m", .sub (nbtiLats n))])]

theorem nbtiDev_works : DeviceWorks (timeDev nbtiMech) where
  unique := List.nodup_singleton _
  deg := by
    intro p d hp
    obtain ⟨rfl, h⟩ := timeDev_get hp
    cases h
    refine
      { shapes := ⟨argEqn_shapes _, ?_, by simp [timePrm, initValMk, nameLatents],
          constEqn_shapes _, ?_, basicSum_shapes⟩
        unique := List.nodup_singleton _
        mechs := ?_
        condName := by simp [timePrm, Dict.keys]
        ownNames := fun k hk => (by cases hk)
        initDraws := initVal_draws _
        initEqn := argEqn_direct _
        initArgs := ?_
        initTakes := ?_
        condDraws := fun k lv h => (by cases h)
        condEqn := direct_works (constEqn_direct _)
        condPlain := ?_
        draws := fun k lv h => (by cases h)
        eqn := direct_works basicSum_direct
        args := ?_
        takes := fun k _ => .inl rfl }
    · simp [timePrm, Dict.keys]
    · intro k m hk
      cases List.mem_singleton.1 hk
      exact NumExpr.shapes nbti_uses
    · intro k m hm
      cases List.mem_singleton.1 hm
      exact ⟨by decide, by decide, nbti_draws, direct_works (NumExpr.direct nbti_uses),
        .inr ⟨false, by decide⟩⟩
    · intro p hp
      cases List.mem_singleton.1 hp
      exact List.mem_singleton.2 rfl
    · intro k hk
      cases List.mem_singleton.1 hk
      exact .inr ⟨false, List.mem_singleton.2 rfl⟩
    · intro args w w' v h
      have := (invoke_ok h).2
      cases this
    · intro p hp
      have : p = "init" ∨ p = "cond" := by simpa [timePrm, basicSum] using hp
      rcases this with rfl | rfl <;> simp
  circ := by
    intro p c hp
    obtain ⟨rfl, h⟩ := timeDev_get hp
    cases h

theorem nbtiState_shape (n : Nat) : StateShape (timeDev nbtiMech) (timeReport n).info (nbtiState n) := by
  refine ⟨?_, ?_, ?_⟩
  · intro p m hp
    obtain ⟨rfl, rfl⟩ := timeDev_get hp
    refine ⟨n, _, rfl, rfl, ?_⟩
    intro k x hx
    simp only [List.mem_cons, Prod.mk.injEq, List.not_mem_nil, or_false] at hx
    rcases hx with ⟨rfl, rfl⟩ | ⟨rfl, rfl⟩
    · exact fun k a h => (by cases h)
    · intro k a h
      simp only [nbtiLats, List.mem_cons, Prod.mk.injEq, List.not_mem_nil, or_false] at h
      rcases h with ⟨-, rfl⟩ | ⟨-, rfl⟩ | ⟨-, rfl⟩ | ⟨-, rfl⟩ <;> exact ⟨rfl, rfl, rfl⟩
  · intro p d m hp hm
    obtain ⟨rfl, h⟩ := timeDev_get hp
    cases h
    cases hm
    refine ⟨⟨_, rfl, full_dims ..⟩, ⟨_, rfl, full_dims ..⟩, ⟨_, rfl, rfl, ?_⟩, ⟨_, rfl, rfl, ?_⟩⟩ <;>
    · intro k a h
      cases List.mem_singleton.1 h
      exact full_dims ..
  · intro p hp
    by_cases h : p = "vth"
    · subst h
      exact absurd rfl (hp (timePrm nbtiMech))
    · rw [Dict.get?_eq_none_iff]
      simpa [nbtiState, Dict.keys] using h

theorem nbtiState_latents (n : Nat) : LatentsThere (timeDev nbtiMech) (nbtiState n) := by
  refine ⟨?_, ?_⟩
  · intro p d hp
    obtain ⟨rfl, h⟩ := timeDev_get hp
    cases h
    refine ⟨_, rfl, ?_, ⟨_, rfl, fun j hj => (by cases hj)⟩, fun j hj => (by cases hj)⟩
    intro k' m hm
    cases List.mem_singleton.1 hm
    exact ⟨nbtiLats n, rfl, fun j hj => hj⟩
  · intro p c hp
    obtain ⟨rfl, h⟩ := timeDev_get hp
    cases h

theorem nbti_stressed (n : Nat) {us : Int} (hus : tdValid us) (w : Counts) :
    ∃ s', StressedMech Ex.orderA (timeDev nbtiMech) ⟨[], []⟩ (nbtiStep us) 0
      (nbtiState n) (timeReport n) w s' "vth" "m" nbtiMech
      (Arr3.full 1 1 n (.fin 0)) (nbtiConds n) (nbtiLats n) n := by
  have hst : StressOk (timeDev nbtiMech) (nbtiStep us) := by
    intro p d k m hp hm
    obtain ⟨rfl, h⟩ := timeDev_get hp
    cases h
    cases List.mem_singleton.1 hm
    intro q hq
    have hq : (q, false) ∈ nbtiParams.map fun p => (p, false) := hq
    show q ∈ "time" :: ["a_0", "e_aa", "alpha", "n"] ++ ["temp", "vdd"]
    simp only [List.mem_map, Prod.mk.injEq, and_true, exists_eq_right, nbtiParams, List.mem_cons,
      List.not_mem_nil, or_false] at hq
    simp only [List.cons_append, List.nil_append, List.mem_cons, List.not_mem_nil, or_false]
    tauto
  obtain ⟨s', r', w', hrun, -⟩ := simStress_works nbtiDev_works (envDraws_empty (W := Counts) []) hst
    (us := us) (t := 0) rfl (by decide) (by rwa [zero_add]) (nbtiState_shape n)
    (nbtiState_latents n) rfl (ord := Ex.orderA) 0 w
  exact ⟨s', ⟨r', w', hrun⟩, nbtiDev_works.unique, ⟨_, rfl, List.nodup_singleton _, rfl⟩,
    ⟨_, w, nbti_conds us n w, ⟨rfl, rfl, rfl, _, rfl, rfl⟩⟩, full_dims ..⟩
/-- 1000 hours at 400 K and 1.2 V on three fresh devices: each has the JEDEC shift at 1000 hours and less than
4 seconds. -/
example (w : Counts) : ∃ s' r' w', simStress Ex.orderA (timeDev nbtiMech) ⟨[], []⟩
    (nbtiStep 3600000000000) 0 (nbtiState 3, timeReport 3) w = (.ok (s', r'), w') ∧
    ∃ v, mechVal s' "vth" "m" = some v ∧ ∀ d < 3, ∃ t : ℝ, 0 < t ∧ t < 11 / 10000 ∧
      v.at' 0 0 d =
        .fin (nbtiShift (6 / 1000) (5 / 100) 400 (6 / 5) (34 / 10) (21 / 100) (1000 + t)) := by
  obtain ⟨s', h⟩ := nbti_stressed 3 (us := 3600000000000) (by decide) w
  obtain ⟨r', w', hrun⟩ := h.run
  refine ⟨s', r', w', hrun, ?_⟩
  have hdur : convertTime (nbtiStep 3600000000000).duration nbtiMech.timeUnit = .ok (.num 1000) := by
    show Except.ok (TimeVal.num (numOfTd .hours 3600000000000)) = _
    norm_num [numOfTd, timeSecondFactor]
  have h0 : ∀ l < 1, l = 0 := fun l hl => by omega
  obtain ⟨v, h1, -, h2⟩ := C60_stress_partial h nbtiMech_is (nbtiInputs 3)
    (fun l hl c hc d hd => Arr3.at_full _ hl hc hd) (a := fun _ _ _ => 6 / 1000)
    (e := fun _ _ _ => 5 / 100) (T := fun _ _ _ => 400) (v := fun _ _ _ => 6 / 5)
    (α := fun _ _ _ => 34 / 10) (m := fun _ _ _ => 21 / 100)
    (fun l hl c hc d hd => by
      cases h0 l hl
      cases h0 c hc
      exact ⟨nbtiSample hd, by norm_num, by norm_num, by norm_num, by norm_num, by norm_num⟩)
    hdur (by norm_num) (by norm_num)
  refine ⟨v, h1, fun d hd => ?_⟩
  obtain ⟨t, k1, k2, k3⟩ := h2 0 Nat.one_pos 0 Nat.one_pos d hd
  exact ⟨t, k1, k2, by rw [k3]; norm_num⟩

end Gerabaldi.Props
