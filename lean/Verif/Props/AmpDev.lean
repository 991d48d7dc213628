import Verif.Model.DemoAmp
import Verif.Props.Circuit
import Verif.Props.TddbRun

/-!
# C68: the device, environment and tests of `demos/vts_paper_presilicon_variability.py`
-/

namespace Gerabaldi.Props

open Gerabaldi Gerabaldi.Spec

section
variable {K : Type} [Field K] [LinearOrder K] [IsStrictOrderedRing K] [FloorRing K] [Pow10 K]
variable [PyTrans (Ext K)]
variable {W : Type} [Rng W (Ext K)]
open PyArith

/-- A random latent variable. -/
def randLatent (t : VType) (dev : RVar (Ext K)) (chp lot : Option (RVar (Ext K))) : LatentVar (Ext K) where
  unitary := t.unitary
  dev := dev
  chp := chp.getD (detUnit t.unitary)
  lot := lot.getD (detUnit t.unitary)
  devDef := true
  chpDef := chp.isSome
  lotDef := lot.isSome
  deterVal := none
  name := none
  vrtnType := some t

/-- A latent variable of the demonstration, named. -/
def ampVar (t : VType) (i : Nat) (dev : ℚ × ℚ) (chp lot : Option (ℚ × ℚ)) : LatentVar (Ext K) :=
  randLatent t (normalVar i dev.1 dev.2) (chp.map fun x => normalVar (i + 1) x.1 x.2)
    (lot.map fun x => normalVar (i + 2) x.1 x.2)

omit [IsStrictOrderedRing K] [FloorRing K] [Pow10 K] [PyTrans (Ext K)] in
theorem ampLatent_scaling [FloorRing K] [Pow10 K] (i : Nat) (dev : ℚ × ℚ) (chp lot : Option (ℚ × ℚ)) :
    ampLatent i dev chp lot "scaling" = .ok (ampVar .scaling i dev chp lot : LatentVar (Ext K)) := by
  cases chp <;> cases lot <;> rfl

omit [IsStrictOrderedRing K] [FloorRing K] [Pow10 K] [PyTrans (Ext K)] in
theorem ampLatent_offset [FloorRing K] [Pow10 K] (i : Nat) (dev : ℚ × ℚ) (chp lot : Option (ℚ × ℚ)) :
    ampLatent i dev chp lot "offset" = .ok (ampVar .offset i dev chp lot : LatentVar (Ext K)) := by
  cases chp <;> cases lot <;> rfl

/-- The mechanism 'bti', for a given variable 'alpha'. -/
def btiMech (alpha : LatentVar (Ext K)) : MechMdl W (Ext K) where
  kind := .deg
  obj := 0
  unitary := ofRat 0
  timeUnit := some "hours"
  mdl :=
    { compute := nbtiExpr.fn nbtiParams
      latentVars := [
        ("a_0", (ampVar .scaling 100 (6 / 1000, 5 / 10000) none none).setName (some "a_0")),
        ("e_aa", (ampVar .scaling 110 (-5 / 100, 2 / 10000) (some (1, 3 / 10000)) (some (1, 1 / 10000))).setName
          (some "e_aa")),
        ("alpha", alpha),
        ("n", (ampVar .scaling 130 (4 / 10, 5 / 10000) none none).setName (some "n"))]
      name := some "bti" }

/-- The mechanism 'hci', for a given variable 'alpha'. -/
def hciMech (alpha : LatentVar (Ext K)) : MechMdl W (Ext K) where
  kind := .deg
  obj := 1
  unitary := ofRat 0
  timeUnit := some "hours"
  mdl :=
    { compute := hciExpr.fn hciParams
      latentVars := [
        ("a_0", (ampVar .scaling 200 (1 / 10, 4 / 1000) none none).setName (some "a_0")),
        ("n", (ampVar .scaling 210 (62 / 100, 3 / 1000) none none).setName (some "n")),
        ("alpha", alpha),
        ("beta", (ampVar .scaling 230 (11 / 10, 2 / 1000) (some (1, 1 / 1000)) (some (1, 1 / 100))).setName
          (some "beta")),
        ("t_0", (ampVar .scaling 240 (500, 1 / 1000) none none).setName (some "t_0"))]
      name := some "hci" }

/-- The threshold voltage, for given variables. -/
def vthPrm (init ba ha : LatentVar (Ext K)) : DegPrmMdl W (Ext K) where
  initMdl := { compute := argEqn "init_val", latentVars := [("init_val", init)] }
  condMdl := (condShiftMk none none (ofRat 0) []).1
  condUnitary := ofRat 0
  mechs := [("bti", btiMech ba), ("hci", hciMech ha)]
  mdl := { compute := vthExpr.fn vthParams, name := some "v_th" }

/-- The gain. -/
def gainMdl : LatentMdl W (Ext K) where
  compute := ampExpr.fn ampParams
  latentVars := nameLatents [("u_n", constLatent (ofRat 1)), ("c_ox", constLatent (ofRat 1)),
    ("w", constLatent (ofRat 8)), ("l", constLatent (ofRat 2)), ("v_e", constLatent (ofRat 5))]
  name := some "amp_gain"

/-- The device, for given variables. -/
def ampDev (init ba ha : LatentVar (Ext K)) : DeviceMdl W (Ext K) where
  prms := [("v_th", .deg (vthPrm init ba ha)), ("amp_gain", .circ gainMdl)]
  timeUnit := some "hours"

/-- The variables that the two processes do not share, for the current one. -/
def curInit : LatentVar (Ext K) :=
  (ampVar .offset 300 (42 / 100, 1 / 10000) (some (0, 2 / 10000)) (some (0, 3 / 10000))).setName (some "init_val")

/-- 'alpha' of 'bti'. -/
def curBti : LatentVar (Ext K) :=
  (ampVar .scaling 120 (95 / 10, 2 / 1000) (some (1, 5 / 1000)) none).setName (some "alpha")

/-- 'alpha' of 'hci'. -/
def curHci : LatentVar (Ext K) :=
  (ampVar .scaling 220 (72 / 10, 3 / 100) (some (1, 4 / 100)) none).setName (some "alpha")

/-- The device of the current process. -/
def curDev : DeviceMdl W (Ext K) := ampDev curInit curBti curHci

/-- The device of the new process. -/
def newDev : DeviceMdl W (Ext K) :=
  ampDev (curInit.setLot (some (normalVar 400 0 (6 / 10000)))) (curBti.setChp (some (normalVar 410 1 (1 / 100))))
    (curHci.setChp (some (normalVar 420 1 (8 / 100))))

omit [IsStrictOrderedRing K] [Rng W (Ext K)] in
theorem ampDevice_eq : (ampDevice : Except Err (DeviceMdl W (Ext K))) = .ok curDev := by
  unfold ampDevice ampBti ampHci fixedLatent
  simp only [ampLatent_scaling, ampLatent_offset, riverConst_eq]
  rfl

omit [IsStrictOrderedRing K] [Rng W (Ext K)] in
theorem ampNewProcess_eq : ampNewProcess (curDev : DeviceMdl W (Ext K)) = .ok newDev := rfl

/-- The environment. -/
def ampWorld : PhysTestEnv (Ext K) := (ampEnv (V := Ext K)).toOption.get rfl

omit [IsStrictOrderedRing K] [PyTrans (Ext K)] [Rng W (Ext K)] in
theorem ampEnv_eq : (ampEnv : Except Err (PhysTestEnv (Ext K))) = .ok ampWorld := rfl

/-- All layers of the variable can be sampled. -/
def CanDraw (W : Type) [Rng W (Ext K)] (lv : LatentVar (Ext K)) : Prop :=
  DrawsWork W lv.lot ∧ DrawsWork W lv.chp ∧ DrawsWork W lv.dev

omit [FloorRing K] [Pow10 K] [IsStrictOrderedRing K] [PyTrans (Ext K)] in
theorem CanDraw.gen [LawfulRng W (Ext K)] {lv : LatentVar (Ext K)} (h : CanDraw W lv) (n C L : Nat) (w : W) :
    ∃ x w', lv.genLatentVals n C L w = (.ok x, w') := by
  obtain ⟨xs, w1, h1⟩ := h.1 L w
  obtain ⟨ys, w2, h2⟩ := h.2.1 (L * C) w1
  obtain ⟨zs, w3, h3⟩ := h.2.2 (L * C * n) w2
  exact ⟨_, _, genLatentVals_run lv h1 h2 h3 (sample_length h1) (sample_length h2) (sample_length h3)⟩

omit [FloorRing K] [Pow10 K] [IsStrictOrderedRing K] [PyTrans (Ext K)] in
theorem draws_rename {r : RVar (Ext K)} (h : DrawsWork W r) (n : Option String) :
    DrawsWork W { r with name := n } := h

omit [FloorRing K] [Pow10 K] [IsStrictOrderedRing K] [PyTrans (Ext K)] in
theorem CanDraw.setName {lv : LatentVar (Ext K)} (h : CanDraw W lv) (k : String) :
    CanDraw W (lv.setName (some k)) := by
  refine ⟨?_, ?_, ?_⟩
  · show DrawsWork W (if lv.lotDef then _ else _)
    split
    · exact draws_rename h.1 _
    · exact h.1
  · show DrawsWork W (if lv.chpDef then _ else _)
    split
    · exact draws_rename h.2.1 _
    · exact h.2.1
  · show DrawsWork W (if lv.devDef then _ else _)
    split
    · exact draws_rename h.2.2 _
    · exact h.2.2

omit [FloorRing K] [Pow10 K] [IsStrictOrderedRing K] [PyTrans (Ext K)] in
theorem ampVar_draws (h : FiniteNormals W K) (t : VType) (i : Nat) {dev : ℚ × ℚ} {chp lot : Option (ℚ × ℚ)}
    (h1 : 0 ≤ dev.2) (h2 : 0 ≤ (chp.getD (0, 0)).2) (h3 : 0 ≤ (lot.getD (0, 0)).2) (k : String) :
    CanDraw W ((ampVar t i dev chp lot : LatentVar (Ext K)).setName (some k)) := by
  refine CanDraw.setName ⟨?_, ?_, normal_draws h _ _ h1⟩ k
  · cases lot with
    | none => exact fun n w => ⟨_, w, rfl⟩
    | some x => exact normal_draws h _ _ h3
  · cases chp with
    | none => exact fun n w => ⟨_, w, rfl⟩
    | some x => exact normal_draws h _ _ h2

omit [IsStrictOrderedRing K] [FloorRing K] [Pow10 K] [PyTrans (Ext K)] in
theorem curInit_draws (h : FiniteNormals W K) : CanDraw W (curInit : LatentVar (Ext K)) :=
  ampVar_draws h _ _ (by norm_num) (by norm_num) (by norm_num) _

omit [IsStrictOrderedRing K] [FloorRing K] [Pow10 K] [PyTrans (Ext K)] in
theorem curBti_draws (h : FiniteNormals W K) : CanDraw W (curBti : LatentVar (Ext K)) :=
  ampVar_draws h _ _ (by norm_num) (by norm_num) (by norm_num) _

omit [IsStrictOrderedRing K] [FloorRing K] [Pow10 K] [PyTrans (Ext K)] in
theorem curHci_draws (h : FiniteNormals W K) : CanDraw W (curHci : LatentVar (Ext K)) :=
  ampVar_draws h _ _ (by norm_num) (by norm_num) (by norm_num) _

omit [IsStrictOrderedRing K] [FloorRing K] [Pow10 K] [PyTrans (Ext K)] in
theorem newInit_draws (h : FiniteNormals W K) :
    CanDraw W ((curInit : LatentVar (Ext K)).setLot (some (normalVar 400 0 (6 / 10000)))) :=
  ⟨normal_draws h _ _ (by norm_num), (curInit_draws h).2⟩

omit [IsStrictOrderedRing K] [FloorRing K] [Pow10 K] [PyTrans (Ext K)] in
theorem newBti_draws (h : FiniteNormals W K) :
    CanDraw W ((curBti : LatentVar (Ext K)).setChp (some (normalVar 410 1 (1 / 100)))) :=
  ⟨(curBti_draws h).1, normal_draws h _ _ (by norm_num), (curBti_draws h).2.2⟩

omit [IsStrictOrderedRing K] [FloorRing K] [Pow10 K] [PyTrans (Ext K)] in
theorem newHci_draws (h : FiniteNormals W K) :
    CanDraw W ((curHci : LatentVar (Ext K)).setChp (some (normalVar 420 1 (8 / 100)))) :=
  ⟨(curHci_draws h).1, normal_draws h _ _ (by norm_num), (curHci_draws h).2.2⟩

omit [IsStrictOrderedRing K] [Rng W (Ext K)] in
theorem ampDev_get {init ba ha : LatentVar (Ext K)} {p : String} {m : PrmMdl W (Ext K)}
    (h : (ampDev init ba ha : DeviceMdl W (Ext K)).prms.get? p = some m) :
    (p = "v_th" ∧ m = .deg (vthPrm init ba ha)) ∨ (p = "amp_gain" ∧ m = .circ gainMdl) := by
  have := Dict.mem_of_get? h
  simp only [ampDev, List.mem_cons, List.not_mem_nil, or_false, Prod.mk.injEq] at this
  exact this

omit [IsStrictOrderedRing K] in
theorem hci_uses : (hciExpr : NumExpr (Ext K)).Uses hciParams := by
  intro k
  simp only [hciExpr, NumExpr.uses, hciParams, List.mem_append, List.mem_cons, List.not_mem_nil,
    or_false, or_assoc]
  tauto

omit [IsStrictOrderedRing K] [FloorRing K] [Pow10 K] in
theorem bti_uses : (nbtiExpr : NumExpr (Ext K)).Uses nbtiParams := by
  intro k
  simp only [nbtiExpr, NumExpr.uses, nbtiParams, List.mem_append, List.mem_cons, List.not_mem_nil,
    or_false, or_assoc]
  tauto

omit [IsStrictOrderedRing K] [PyTrans (Ext K)] in
theorem vth_uses : (vthExpr : NumExpr (Ext K)).Uses vthParams := by
  intro k
  simp only [vthExpr, NumExpr.uses, vthParams, List.mem_append, List.mem_cons, List.not_mem_nil,
    or_false, or_assoc]

omit [IsStrictOrderedRing K] [PyTrans (Ext K)] in
theorem amp_uses : (ampExpr : NumExpr (Ext K)).Uses ampParams := by
  intro k
  simp only [ampExpr, overdrive, drainCurrent, NumExpr.uses, ampParams, List.mem_append, List.mem_cons,
    List.not_mem_nil, or_false, false_or, or_assoc]
  tauto

omit [IsStrictOrderedRing K] in
theorem bti_works [LawfulRng W (Ext K)] (h : FiniteNormals W K) {alpha : LatentVar (Ext K)}
    (ha : CanDraw W alpha) : MechWorks (btiMech alpha : MechMdl W (Ext K)) := by
  refine ⟨by simp [btiMech], by simp [btiMech, timeUnitMap], ?_, direct_works (NumExpr.direct bti_uses),
    .inr ⟨false, by simp [btiMech, NumExpr.fn, nbtiParams]⟩⟩
  intro k lv hk n C L w
  refine CanDraw.gen ?_ n C L w
  simp only [btiMech, List.mem_cons, List.not_mem_nil, or_false, Prod.mk.injEq] at hk
  rcases hk with ⟨-, rfl⟩ | ⟨-, rfl⟩ | ⟨-, rfl⟩ | ⟨-, rfl⟩
  · exact ampVar_draws h _ _ (by norm_num) (by norm_num) (by norm_num) _
  · exact ampVar_draws h _ _ (by norm_num) (by norm_num) (by norm_num) _
  · exact ha
  · exact ampVar_draws h _ _ (by norm_num) (by norm_num) (by norm_num) _

omit [IsStrictOrderedRing K] in
theorem hci_works [LawfulRng W (Ext K)] (h : FiniteNormals W K) {alpha : LatentVar (Ext K)}
    (ha : CanDraw W alpha) : MechWorks (hciMech alpha : MechMdl W (Ext K)) := by
  refine ⟨by simp [hciMech], by simp [hciMech, timeUnitMap], ?_, direct_works (NumExpr.direct hci_uses),
    .inr ⟨false, by simp [hciMech, NumExpr.fn, hciParams]⟩⟩
  intro k lv hk n C L w
  refine CanDraw.gen ?_ n C L w
  simp only [hciMech, List.mem_cons, List.not_mem_nil, or_false, Prod.mk.injEq] at hk
  rcases hk with ⟨-, rfl⟩ | ⟨-, rfl⟩ | ⟨-, rfl⟩ | ⟨-, rfl⟩ | ⟨-, rfl⟩
  · exact ampVar_draws h _ _ (by norm_num) (by norm_num) (by norm_num) _
  · exact ampVar_draws h _ _ (by norm_num) (by norm_num) (by norm_num) _
  · exact ha
  · exact ampVar_draws h _ _ (by norm_num) (by norm_num) (by norm_num) _
  · exact ampVar_draws h _ _ (by norm_num) (by norm_num) (by norm_num) _

omit [IsStrictOrderedRing K] in
theorem ampDev_works [LawfulRng W (Ext K)] (h : FiniteNormals W K) {init ba ha : LatentVar (Ext K)}
    (hi : CanDraw W init) (hb : CanDraw W ba) (hh : CanDraw W ha) :
    DeviceWorks (ampDev init ba ha : DeviceMdl W (Ext K)) where
  unique := by simp [ampDev, Dict.Nodup, Dict.keys]
  deg := by
    intro p d hp
    rcases ampDev_get hp with ⟨rfl, hd⟩ | ⟨-, hd⟩
    swap
    · cases hd
    cases hd
    refine
      { shapes := ⟨argEqn_shapes _, ?_, by simp [vthPrm], constEqn_shapes _, ?_, NumExpr.shapes vth_uses⟩
        unique := by simp [vthPrm, Dict.Nodup, Dict.keys]
        mechs := ?_
        condName := by simp [vthPrm, Dict.keys]
        ownNames := fun k hk => (by cases hk)
        initDraws := ?_
        initEqn := argEqn_direct _
        initArgs := ?_
        initTakes := ?_
        condDraws := fun k lv h => (by cases h)
        condEqn := direct_works (constEqn_direct _)
        condPlain := ?_
        draws := fun k lv h => (by cases h)
        eqn := direct_works (NumExpr.direct vth_uses)
        args := ?_
        takes := ?_ }
    · simp [vthPrm, Dict.keys]
    · intro k m hk
      simp only [vthPrm, List.mem_cons, List.not_mem_nil, or_false, Prod.mk.injEq] at hk
      rcases hk with ⟨-, rfl⟩ | ⟨-, rfl⟩
      · exact NumExpr.shapes bti_uses
      · exact NumExpr.shapes hci_uses
    · intro k m hk
      simp only [vthPrm, List.mem_cons, List.not_mem_nil, or_false, Prod.mk.injEq] at hk
      rcases hk with ⟨-, rfl⟩ | ⟨-, rfl⟩
      · exact bti_works h hb
      · exact hci_works h hh
    · intro k lv hk n C L w
      cases List.mem_singleton.1 hk
      exact hi.gen n C L w
    · intro p hp
      cases List.mem_singleton.1 hp
      exact List.mem_singleton.2 rfl
    · intro k hk
      cases List.mem_singleton.1 hk
      exact .inr ⟨false, List.mem_singleton.2 rfl⟩
    · intro args w w' v h
      have := (invoke_ok h).2
      cases this
    · intro p hp
      have : p = "init" ∨ p = "bti" ∨ p = "hci" ∨ p = "cond" := by
        simpa [vthPrm, NumExpr.fn, vthParams] using hp
      rcases this with rfl | rfl | rfl | rfl <;> simp [vthPrm, Dict.keys]
    · intro k hk
      have : k = "init" ∨ k = "cond" ∨ k = "bti" ∨ k = "hci" := by
        simpa [vthPrm, Dict.keys] using hk
      rcases this with rfl | rfl | rfl | rfl <;>
        exact .inr ⟨false, by simp [vthPrm, NumExpr.fn, vthParams]⟩
  circ := by
    intro p c hp
    rcases ampDev_get hp with ⟨-, hd⟩ | ⟨rfl, hd⟩
    · cases hd
    cases hd
    refine ⟨NumExpr.shapes amp_uses, NumExpr.direct amp_uses, ?_⟩
    intro k lv hk n C L w
    have hk : (k, lv) ∈ [("u_n", (constLatent (ofRat 1) : LatentVar (Ext K)).setName (some "u_n")),
      ("c_ox", (constLatent (ofRat 1)).setName (some "c_ox")), ("w", (constLatent (ofRat 8)).setName (some "w")),
      ("l", (constLatent (ofRat 2)).setName (some "l")), ("v_e", (constLatent (ofRat 5)).setName (some "v_e"))] := hk
    simp only [List.mem_cons, List.not_mem_nil, or_false, Prod.mk.injEq] at hk
    rcases hk with ⟨-, rfl⟩ | ⟨-, rfl⟩ | ⟨-, rfl⟩ | ⟨-, rfl⟩ | ⟨-, rfl⟩ <;> exact constLatent_draws _ _ n C L w

omit [IsStrictOrderedRing K] [PyTrans (Ext K)] in
theorem ampWorld_draws (h : FiniteNormals W K) : EnvDraws W (ampWorld : PhysTestEnv (Ext K)) := by
  intro k
  by_cases hk : k = "temp" ∨ k = "vdd"
  · rcases hk with rfl | rfl
    · exact ⟨fixed_draws _, normal_draws h 501 0 (by norm_num), normal_draws h 500 0 (by norm_num)⟩
    · exact ⟨fixed_draws _, normal_draws h 511 0 (by norm_num), normal_draws h 510 0 (by norm_num)⟩
  · have : (ampWorld : PhysTestEnv (Ext K)).vars.get? k = none := by
      refine (Dict.get?_eq_none_iff _ _).2 fun h => hk ?_
      have h : k ∈ ["temp", "vdd"] := h
      simpa using h
    have e : (ampWorld : PhysTestEnv (Ext K)).vrtnMdl k = EnvVrtnMdl.ideal := by
      unfold PhysTestEnv.vrtnMdl
      rw [this]
      rfl
    rw [e]
    exact ⟨fun n w => ⟨_, w, rfl⟩, fun n w => ⟨_, w, rfl⟩, fun n w => ⟨_, w, rfl⟩⟩

end
end Gerabaldi.Props
