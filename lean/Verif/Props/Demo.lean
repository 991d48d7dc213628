import Verif.Lemmas.ExprMech
import Verif.Model.Demos
import Verif.Props.Env
import Verif.Props.Flat
import Verif.Props.Fresh
import Verif.Props.Readings

/-!
# C62: the readings of `demos/basic_use.py`
-/

namespace Gerabaldi.Props

open Gerabaldi Gerabaldi.Spec

variable {W : Type} [Rng W (Ext ℝ)]

/-- Draws of the demonstration's random variable give finite numbers. -/
def BasicDraws (W : Type) [Rng W (Ext ℝ)] (mu sigma : ℚ) : Prop :=
  ∀ n (w : W), ∃ (as : List ℝ) (w' : W),
    Rng.draw 1 "normal" [("loc", Ext.fin (mu : ℝ)), ("scale", Ext.fin (sigma : ℝ))] n w =
      (.ok (as.map Ext.fin), w')

/-- The mechanism, as the device has it. -/
noncomputable def basicLinear (mu sigma : ℚ) : MechMdl W (Ext ℝ) where
  kind := .deg
  obj := 0
  unitary := .fin 0
  timeUnit := some "h"
  mdl :=
    { compute := basicExpr.fn basicParams
      latentVars := nameLatents [("a", (devNormal 1 mu sigma).toOption.get rfl)]
      name := some "linear" }

/-- The parameter, as the device has it. -/
noncomputable def basicPrm (mu sigma : ℚ) : DegPrmMdl W (Ext ℝ) where
  initMdl := initValMk none none [("init_val", constLatent (PyArith.ofRat 0))]
  condMdl := (condShiftMk none none (PyArith.ofRat 0) []).1
  condUnitary := PyArith.ofRat 0
  mechs := [("linear", basicLinear mu sigma)]
  mdl := { compute := basicSum, name := some "example_prm" }

/-- The device. -/
noncomputable def basicDev (mu sigma : ℚ) : DeviceMdl W (Ext ℝ) where
  prms := [("example_prm", .deg (basicPrm mu sigma))]

omit [Rng W (Ext ℝ)] in
theorem basicDevice_eq (mu sigma : ℚ) :
    (basicDevice mu sigma : Except Err (DeviceMdl W (Ext ℝ))) = .ok (basicDev mu sigma) := by
  have h0 : (PyArith.ofRat 0 : Ext ℝ) = .fin 0 := by
    show Ext.fin ((0 : ℚ) : ℝ) = _
    norm_num
  unfold basicDev basicPrm basicLinear
  rw [← h0]
  rfl

omit [Rng W (Ext ℝ)] in
theorem basicDev_get {mu sigma : ℚ} {p : String} {m : PrmMdl W (Ext ℝ)}
    (h : (basicDev mu sigma).prms.get? p = some m) :
    p = "example_prm" ∧ m = .deg (basicPrm mu sigma) := by
  cases List.mem_singleton.1 (Dict.mem_of_get? h)
  exact ⟨rfl, rfl⟩

theorem basic_uses : (basicExpr : NumExpr (Ext ℝ)).Uses basicParams := by
  intro k
  simp only [basicExpr, NumExpr.uses, basicParams, List.mem_append, List.mem_cons, List.not_mem_nil,
    or_false, or_assoc]
  tauto

/-- Sampling the latent variable: the drawn numbers. -/
theorem basic_latent [LawfulRng W (Ext ℝ)] {mu sigma : ℚ} (hd : BasicDraws W mu sigma) (n : Nat) (w : W) :
    ∃ (as : List ℝ) (w' : W), as.length = n ∧
      Rng.draw 1 "normal" [("loc", Ext.fin (mu : ℝ)), ("scale", Ext.fin (sigma : ℝ))] n w =
        (.ok (as.map Ext.fin), w') ∧
      ∃ A : Arr3 (Ext ℝ), A.HasDims 1 1 n ∧ (∀ d < n, A.at' 0 0 d = .fin (as.getD d 0)) ∧
        (basicLinear mu sigma : MechMdl W (Ext ℝ)).mdl.genLatentVals n 1 1 w = (.ok [("a", A)], w') := by
  obtain ⟨as, w', h⟩ := hd n w
  have hlen : as.length = n := by simpa using LawfulRng.length h
  refine ⟨as, w', hlen, h, ?_⟩
  have h3 : ((devNormal 1 mu sigma : Except Err (LatentVar (Ext ℝ))).toOption.get rfl).dev.sample
      (1 * 1 * n) w = (.ok (as.map Ext.fin), w') := by
    rw [Nat.one_mul]
    exact h
  have hrun := genLatentVals_run
    (((devNormal 1 mu sigma : Except Err (LatentVar (Ext ℝ))).toOption.get rfl).setName (some "a"))
    (L := 1) (C := 1) (D := n) (w := w) (lotS := List.replicate 1 (PyArith.ofRat 1))
    (chpS := List.replicate 1 (PyArith.ofRat 1)) rfl rfl h3 rfl rfl (by simp [hlen])
  refine ⟨_, ⟨rfl, rfl, rfl⟩, fun d hdn => ?_, M.bind_ok (M.bind_ok hrun)⟩
  rw [Arr3.at_ofFn _ Nat.one_pos Nat.one_pos hdn]
  have h1 : ∀ x : ℝ, PyArith.mul (PyArith.mul (Ext.fin x) (PyArith.ofRat 1)) (PyArith.ofRat 1) =
      Ext.fin x := fun x => by
    show Ext.fin (x * ((1 : ℚ) : ℝ) * ((1 : ℚ) : ℝ)) = _
    norm_num
  have h2 : (as.map Ext.fin).getD d default = Ext.fin (as.getD d 0) := by
    simp [List.getD_eq_getElem?_getD, hlen, hdn]
  rw [← h1, ← h2]
  simp
  rfl

theorem basic_draws [LawfulRng W (Ext ℝ)] {mu sigma : ℚ} (hd : BasicDraws W mu sigma) :
    LatentsDraw (basicLinear mu sigma : MechMdl W (Ext ℝ)).mdl := by
  intro k lv h n C L w
  cases List.mem_singleton.1 h
  obtain ⟨as, w', h⟩ := hd (L * C * n) w
  exact ⟨_, _, genLatentVals_run _ (lotS := List.replicate L (PyArith.ofRat 1)) rfl rfl h (by simp)
    (by simp) (LawfulRng.length h)⟩

theorem basicDev_works [LawfulRng W (Ext ℝ)] {mu sigma : ℚ} (hd : BasicDraws W mu sigma) :
    DeviceWorks (basicDev mu sigma : DeviceMdl W (Ext ℝ)) where
  unique := List.nodup_singleton _
  deg := by
    intro p d hp
    obtain ⟨rfl, h⟩ := basicDev_get hp
    cases h
    refine
      { shapes := ⟨argEqn_shapes _, ?_, by simp [basicPrm, initValMk, nameLatents],
          constEqn_shapes _, ?_, basicSum_shapes⟩
        unique := List.nodup_singleton _
        mechs := ?_
        condName := by simp [basicPrm, Dict.keys]
        ownNames := fun k hk => (by cases hk)
        initDraws := initVal_draws _
        initEqn := argEqn_direct _
        initArgs := ?_
        initTakes := ?_
        condDraws := fun k lv h => (by cases h)
        condEqn := direct_works (constEqn_direct _)
        condPlain := ?_
        draws := fun k lv h => (by cases h)
        eqn := direct_works basicSum_direct
        args := ?_
        takes := fun k _ => .inl rfl }
    · simp [basicPrm, Dict.keys]
    · intro k m hk
      cases List.mem_singleton.1 hk
      exact NumExpr.shapes basic_uses
    · intro k m hm
      cases List.mem_singleton.1 hm
      exact ⟨by simp [basicLinear], by simp [basicLinear, timeUnitMap], basic_draws hd,
        direct_works (NumExpr.direct basic_uses), .inr ⟨false, List.mem_cons_self⟩⟩
    · intro p hp
      cases List.mem_singleton.1 hp
      exact List.mem_singleton.2 rfl
    · intro k hk
      cases List.mem_singleton.1 hk
      exact .inr ⟨false, List.mem_singleton.2 rfl⟩
    · intro args w w' v h
      have := (invoke_ok h).2
      cases this
    · intro p hp
      have : p = "init" ∨ p = "cond" := by simpa [basicPrm, basicSum] using hp
      rcases this with rfl | rfl <;> simp
  circ := by
    intro p c hp
    obtain ⟨rfl, h⟩ := basicDev_get hp
    cases h

/-- The measurement step. -/
def basicMeas (n : Nat) (cold : ℝ) : MeasSpec (Ext ℝ) :=
  ⟨[("example_prm", n)], [("temp", .fin cold)], "unspecified"⟩

/-- The stress step. -/
def basicStrs (hot : ℝ) (us : Int) : StrsSpec (Ext ℝ) := ⟨[("temp", .fin hot)], .td us, "unspecified"⟩

/-- The test. -/
def basicSteps (n : Nat) (cold hot : ℝ) (us : Int) : TestSpec (Ext ℝ) where
  steps := [.meas (basicMeas n cold), .strs (basicStrs hot us), .meas (basicMeas n cold)]

theorem basicTest_eq {n : Nat} {cold hot : ℝ} {hours : ℚ} {us : Int}
    (h : tdOfNum .hours hours = .ok us) (hus : us ≠ 0) :
    basicTest n (.fin cold) (.fin hot) hours = .ok (basicSteps n cold hot us) := by
  have h1 : StrsSpec.mk' [("temp", Ext.fin hot)] (.num hours) "unspecified" (some "h") =
      .ok (basicStrs hot us) := by
    simp [StrsSpec.mk', convertTime, timeUnitMap, h, hus, basicStrs]
  unfold basicTest
  rw [h1]
  rfl

theorem basic_counts (n : Nat) (cold hot : ℝ) (us : Int) :
    calcSamplesNeeded (basicSteps n cold hot us).steps = [("example_prm", n)] := by
  simp [calcSamplesNeeded, basicSteps, basicMeas, samplesUpdate, Dict.get?, Dict.set]

/-- The state before the first step. -/
noncomputable def basicState (n : Nat) (I A : Arr3 (Ext ℝ)) : SimState (Ext ℝ) where
  elapsed := .td 0
  currPrm := [("example_prm", .arr I)]
  initPrm := [("example_prm", .arr I)]
  currMech := [("example_prm", [("linear", Arr3.full 1 1 n (.fin 0))])]
  initMech := [("example_prm", [("linear", Arr3.full 1 1 n (.fin 0))])]
  latents := [("example_prm", [("cond", .sub []), ("linear", .sub [("a", A)])])]

/-- The initial values are all zero. -/
theorem basic_init (n : Nat) (w : W) :
    ∃ I : Arr3 (Ext ℝ), I.HasDims 1 1 n ∧ (∀ d < n, I.at' 0 0 d = .fin 0) ∧
      ((constLatent (PyArith.ofRat 0) : LatentVar (Ext ℝ)).setName (some "init_val")).genLatentVals n 1 1 w =
        (.ok I, w) := by
  have hI := genLatentVals_run (W := W) ((constLatent (PyArith.ofRat 0) : LatentVar (Ext ℝ)).setName
    (some "init_val")) (L := 1) (C := 1) (D := n) (w := w) (lotS := List.replicate 1 (PyArith.ofRat 1))
    (chpS := List.replicate (1 * 1) (PyArith.ofRat 1)) (devS := List.replicate (1 * 1 * n) (PyArith.ofRat 1))
    rfl rfl rfl (by simp) (by simp) (by simp)
  refine ⟨_, ⟨rfl, rfl, rfl⟩, fun d hdn => ?_, hI⟩
  rw [Arr3.at_ofFn _ Nat.one_pos Nat.one_pos hdn]
  have h1 : (List.replicate (1 * 1 * n) (PyArith.ofRat 1 : Ext ℝ)).getD ((0 * 1 + 0) * n + d) default =
      PyArith.ofRat 1 := by
    simp [List.getD_eq_getElem?_getD, hdn]
  rw [h1]
  show Ext.fin (((0 : ℚ) : ℝ) * ((1 : ℚ) : ℝ) * ((1 : ℚ) : ℝ) * ((1 : ℚ) : ℝ)) = _
  norm_num

theorem basic_initStep {mu sigma : ℚ} {n : Nat} {w w' : W} {A : Arr3 (Ext ℝ)}
    (h5 : (basicLinear mu sigma : MechMdl W (Ext ℝ)).mdl.genLatentVals n 1 1 w = (.ok [("a", A)], w'))
    {I : Arr3 (Ext ℝ)} (hI : ((constLatent (PyArith.ofRat 0) : LatentVar (Ext ℝ)).setName
      (some "init_val")).genLatentVals n 1 1 w' = (.ok I, w')) :
    initStep 1 1 ⟨[("example_prm", n)], [], [], []⟩
      ("example_prm", .deg (basicPrm mu sigma : DegPrmMdl W (Ext ℝ))) w =
      (.ok ⟨[("example_prm", n)],
        [("example_prm", [("cond", .sub []), ("linear", .sub [("a", A)])])],
        [("example_prm", [("linear", Arr3.full 1 1 n (.fin 0))])], [("example_prm", .arr I)]⟩, w') := by
  have hlatI : (basicPrm mu sigma : DegPrmMdl W (Ext ℝ)).initMdl.genLatentVals n 1 1 w' =
      (.ok [("init_val", I)], w') := M.bind_ok (M.bind_ok hI)
  have hinit : genInitVals (basicPrm mu sigma : DegPrmMdl W (Ext ℝ)).initMdl n 1 1 w' =
      (.ok (.arr I), w') :=
    (M.bind_ok hlatI).trans rfl
  have hlat : (basicPrm mu sigma : DegPrmMdl W (Ext ℝ)).genLatentVals n 1 1 w =
      (.ok [("cond", .sub []), ("linear", .sub [("a", A)])], w') := by
    have : M.forIn' (genMechLatents n 1 1) (basicPrm mu sigma : DegPrmMdl W (Ext ℝ)).mechs
        [("cond", .sub [])] w = (.ok [("cond", .sub []), ("linear", .sub [("a", A)])], w') :=
      M.bind_ok (M.bind_ok h5)
    exact (M.bind_ok (w' := w) rfl).trans (M.bind_ok this)
  exact (M.bind_ok (a := n) (w' := w) rfl).trans ((M.bind_ok hlat).trans (M.bind_ok hinit))

theorem basic_genInit {mu sigma : ℚ} {n : Nat} {w w' : W} {A : Arr3 (Ext ℝ)}
    (h5 : (basicLinear mu sigma : MechMdl W (Ext ℝ)).mdl.genLatentVals n 1 1 w = (.ok [("a", A)], w'))
    {I : Arr3 (Ext ℝ)} (hI : ((constLatent (PyArith.ofRat 0) : LatentVar (Ext ℝ)).setName
      (some "init_val")).genLatentVals n 1 1 w' = (.ok I, w')) :
    (basicDev mu sigma : DeviceMdl W (Ext ℝ)).genInitState [("example_prm", n)] 1 1 w =
      (.ok (basicState n I A), w') := by
  unfold DeviceMdl.genInitState basicDev
  simp only [M.forIn']
  rw [M.bind_run, M.bind_run, basic_initStep h5 hI]
  rfl

theorem basic_start [LawfulRng W (Ext ℝ)] {mu sigma : ℚ} (hd : BasicDraws W mu sigma) (n : Nat)
    (cold hot : ℝ) (us : Int) (w : W) :
    ∃ (as : List ℝ) (w' : W) (I A : Arr3 (Ext ℝ)), as.length = n ∧
      Rng.draw 1 "normal" [("loc", Ext.fin (mu : ℝ)), ("scale", Ext.fin (sigma : ℝ))] n w =
        (.ok (as.map Ext.fin), w') ∧
      A.HasDims 1 1 n ∧ (∀ d < n, A.at' 0 0 d = .fin (as.getD d 0)) ∧
      I.HasDims 1 1 n ∧ (∀ d < n, I.at' 0 0 d = .fin 0) ∧
      simStart (basicDev mu sigma : DeviceMdl W (Ext ℝ)) (basicSteps n cold hot us) none w =
        (.ok (basicState n I A,
          { SimReport.ofTest (basicSteps n cold hot us) with devCounts := [("example_prm", n)] }), w') := by
  obtain ⟨as, w', h1, h2, A, h3, h4, h5⟩ := basic_latent hd n w
  obtain ⟨I, h6, h7, hI⟩ := basic_init n w'
  refine ⟨as, w', I, A, h1, h2, h3, h4, h6, h7, ?_⟩
  have haug : augment (basicDev mu sigma : DeviceMdl W (Ext ℝ)) [("example_prm", n)] =
      [("example_prm", n)] := rfl
  have hq : (SimReport.ofTest (basicSteps n cold hot us)).info = ⟨[("example_prm", n)], 1, 1⟩ := by
    show Quantities.mk (calcSamplesNeeded (basicSteps n cold hot us).steps) 1 1 = _
    rw [basic_counts]
  have hfrom : genInitFrom (basicDev mu sigma : DeviceMdl W (Ext ℝ)) [("example_prm", n)] 1 1 (.td 0) w =
      (.ok (basicState n I A), w') := by
    unfold genInitFrom
    rw [haug, M.bind_run, basic_genInit h5 hI]
    rfl
  unfold simStart genInitState
  rw [hq]
  simp only [Option.filter_none]
  rw [M.bind_run, M.bind_run, hfrom]
  rfl

theorem order_single (ord : SetOrder) (a : String) : ord.order [a] = [a] := by
  have h := ord.mem [a]
  have hn := ord.nodup [a]
  cases hc : ord.order [a] with
  | nil => simp [hc] at h
  | cons b l =>
    rw [hc] at h hn
    have hb : b = a := by simpa using (h b).1 List.mem_cons_self
    subst hb
    cases l with
    | nil => rfl
    | cons c l =>
      have hcb : c = b := by simpa using (h c).1 (by simp)
      subst hcb
      simp at hn

omit [Rng W (Ext ℝ)] in
theorem basic_depends (ord : SetOrder) (mu sigma : ℚ) :
    (PrmMdl.deg (basicPrm mu sigma : DegPrmMdl W (Ext ℝ))).dependencies ord ["temp"] .stress = ["temp"] := by
  have h : (PrmMdl.deg (basicPrm mu sigma : DegPrmMdl W (Ext ℝ))).dependencies ord ["temp"] .stress =
      ord.order ["temp"] := rfl
  rw [h, order_single]

theorem basic_conds [LawfulRng W (Ext ℝ)] (ord : SetOrder) (mu sigma : ℚ) (hot : ℝ) (us : Int) (n : Nat) (w : W) :
    (⟨[], []⟩ : PhysTestEnv (Ext ℝ)).genEnvCondVals ord (basicStrs hot us).conditions
      (.names ((basicDev mu sigma : DeviceMdl W (Ext ℝ)).degPrms.map (·.1)))
      (some ⟨[("example_prm", n)], 1, 1⟩) (some (basicDev mu sigma)) .stress 1 1 w =
      (.ok [("example_prm", [("temp", Arr3.full 1 1 n (.fin hot))])], w) := by
  have i := fun c => ideal_run (W := W) (env := (⟨[], []⟩ : PhysTestEnv (Ext ℝ))) (cond := c) rfl
  have hp : ({ } : PhysTestEnv (Ext ℝ)).genPrmConds ord (some (basicDev mu sigma : DeviceMdl W (Ext ℝ)))
      (Dict.keys [("temp", Ext.fin hot)]) Target.stress
      (Dict.set [] "temp" (Ext.fin hot, Arr3.full 1 1 1 (Ext.fin hot))) [("example_prm", n)] "example_prm" =
      (pure [("temp", Arr3.full 1 1 n (.fin hot))] : M W _) := by
    show M.forIn' _ ((PrmMdl.deg (basicPrm mu sigma)).dependencies ord ["temp"] .stress) [] = _
    rw [basic_depends]
    funext w
    simp [M.forIn', PhysTestEnv.genDepend, Dict.getE, Dict.set, Dict.get?, M.bind_run, (i _).2.2]
  simp [PhysTestEnv.genEnvCondVals, M.forIn', PhysTestEnv.genShared, basicStrs, (i _).1, (i _).2.1, M.bind_run]
  show M.forIn' _ ["example_prm"] [] w = _
  rw [M.forIn', M.bind_ok (a := [("example_prm", [("temp", Arr3.full 1 1 n (.fin hot))])]) (w' := w)]
  · rfl
  · exact M.bind_ok (congrFun hp w)

theorem basic_testOk {mu sigma : ℚ} {n : Nat} {cold hot : ℝ} {us : Int} (hus : tdValid us) :
    TestOk (basicDev mu sigma : DeviceMdl W (Ext ℝ)) ⟨[], []⟩ (basicSteps n cold hot us) where
  stress := by
    intro st hst p d k m hp hm
    have : st = basicStrs hot us := by simpa [basicSteps] using hst
    subst this
    obtain ⟨rfl, h⟩ := basicDev_get hp
    cases h
    cases List.mem_singleton.1 hm
    intro q hq
    have hq : (q, false) ∈ basicParams.map fun p => (p, false) := hq
    show q ∈ "time" :: ["a"] ++ ["temp"]
    simp only [List.mem_map, Prod.mk.injEq, and_true, exists_eq_right, basicParams, List.mem_cons,
      List.not_mem_nil, or_false] at hq
    simp only [List.cons_append, List.nil_append, List.mem_cons, List.not_mem_nil, or_false]
    tauto
  measure := by
    intro m hm
    have : m = basicMeas n cold := by simpa [basicSteps] using hm
    subst this
    refine ⟨List.nodup_singleton _, fun p hp => .inl hp, fun p hp => ?_, ?_, ?_, ?_⟩
    · cases List.mem_singleton.1 hp
      exact ⟨{ precision := none, range := none, error := none }, rfl, fun xs w _ => ⟨xs, w, rfl⟩⟩
    · intro p d hp hd
      obtain ⟨rfl, h⟩ := basicDev_get hd
      cases h
      exact fun q hq => (by cases hq)
    · intro p c hp hc
      obtain ⟨rfl, h⟩ := basicDev_get hc
      cases h
    · intro p c hp hc
      obtain ⟨rfl, h⟩ := basicDev_get hc
      cases h
  all := by
    intro p hp
    cases List.mem_singleton.1 hp
    exact ⟨"example_prm", n, ⟨basicMeas n cold, by simp [basicSteps], List.mem_singleton.2 rfl⟩, .inl rfl⟩
  tied := by
    intro c m n hc
    obtain ⟨rfl, h⟩ := basicDev_get hc
    cases h
  times := by
    refine ⟨by decide, us, rfl, ?_⟩
    show tdValid (0 + us)
    rwa [zero_add]

theorem basic_inputs {n : Nat} (hot : ℝ) {A : Arr3 (Ext ℝ)} (hA : A.HasDims 1 1 n) :
    ExprInputs basicParams [("temp", Arr3.full 1 1 n (.fin hot))] [("a", A)] 1 1 n where
  condDims := by
    intro k a h
    cases List.mem_singleton.1 (Dict.mem_of_get? h)
    exact full_dims ..
  latDims := by
    intro k a h
    cases List.mem_singleton.1 (Dict.mem_of_get? h)
    exact hA
  time := by simp [basicParams]
  there := by
    intro k hk ht
    simp only [basicParams, List.mem_cons, List.not_mem_nil, or_false] at hk
    rcases hk with rfl | rfl | rfl
    · exact absurd rfl ht
    · exact .inr ⟨_, rfl⟩
    · exact .inl ⟨_, rfl⟩
  noTime := ⟨rfl, rfl⟩

/-- The curve of one device. -/
theorem basic_curve {mu sigma : ℚ} {n : Nat} {hot a : ℝ} {A : Arr3 (Ext ℝ)} (hA : A.HasDims 1 1 n)
    {d : Nat} (hd : d < n) (ha : A.at' 0 0 d = .fin a) (t : ℝ) :
    curve (basicLinear mu sigma : MechMdl W (Ext ℝ)) (fun args => basicExpr.val args)
      [("temp", Arr3.full 1 1 n (.fin hot))] [("a", A)] 1 1 n 0 0 d (.fin t) =
      .fin (-(a * hot) * t) := by
  have key : ∀ p ∈ basicParams, _ := fun p hp => exprArg_val (k := (basicLinear mu sigma : MechMdl W (Ext ℝ)))
    (e := basicExpr) rfl (basic_inputs hot hA) (.fin t) Nat.one_pos Nat.one_pos hd hp
  have k1 := key "time" (by simp [basicParams])
  have k2 := key "temp" (by simp [basicParams])
  have k3 := key "a" (by simp [basicParams])
  rw [if_pos rfl] at k1
  rw [if_neg (by decide)] at k2 k3
  have k2 := k2.trans (Arr3.at_full (Ext.fin hot) Nat.one_pos Nat.one_pos hd)
  have k3 := k3.trans ha
  have : ∀ args : Dict (PyVal (Ext ℝ)), (basicExpr : NumExpr (Ext ℝ)).val args =
      PyArith.mul (PyArith.mul ((NumExpr.arg "time").val args) (PyArith.neg ((NumExpr.arg "a").val args)))
        ((NumExpr.arg "temp").val args) := fun _ => rfl
  show basicExpr.val _ = _
  rw [this, k1, k2, k3]
  show Ext.fin (t * -a * hot) = _
  congr 1
  ring

/-- Linear laws. -/
theorem FreshCurve.linear {A : ℝ} (hA : A ≠ 0) : FreshCurve (fun t => A * t) 0 := by
  rcases lt_or_gt_of_ne hA with h | h
  · refine .inr ⟨fun s _ t _ hst => mul_lt_mul_of_neg_left hst h, ⟨convex_Ioi 0, ?_⟩, fun t ht => ?_⟩
    · intro s _ t _ a b _ _ _
      apply le_of_eq
      simp only [smul_eq_mul]
      ring
    · exact mul_nonpos_of_nonpos_of_nonneg h.le ht.le
  · refine .inl ⟨fun s _ t _ hst => mul_lt_mul_of_pos_left hst h, ⟨convex_Ioi 0, ?_⟩, fun t ht => ?_⟩
    · intro s _ t _ a b _ _ _
      apply le_of_eq
      simp only [smul_eq_mul]
      ring
    · exact mul_nonneg h.le ht.le

/-- The rows of a measurement of the demonstration. -/
theorem basic_rows [LawfulRng W (Ext ℝ)] {ord : SetOrder} {mu sigma : ℚ} (hd : BasicDraws W mu sigma)
    {n : Nat} {cold hot : ℝ} {us : Int} {w w' : W} {r : SimReport (Ext ℝ)}
    (h : simulate ord (basicSteps n cold hot us) (basicDev mu sigma) ⟨[], []⟩ none w = (.ok r, w'))
    {pre post : List (Step (Ext ℝ))} (ht : (basicSteps n cold hot us).steps =
      pre ++ .meas (basicMeas n cold) :: post) {s0 : SimState (Ext ℝ)} {r0 : SimReport (Ext ℝ)} {w0 : W}
    (hstart : simStart (basicDev mu sigma) (basicSteps n cold hot us) none w = (.ok (s0, r0), w0)) :
    ∃ s r1 w1 I v k, runSteps ord (basicDev mu sigma) ⟨[], []⟩ 0 pre (s0, r0) w0 = (.ok (s, r1), w1) ∧
      s0.initPrm.get? "example_prm" = some (.arr I) ∧ mechVal s "example_prm" "linear" = some v ∧ n ≤ k ∧
      rowsAt r.measurements pre.length "example_prm" = expectedRows 1 1 n (fun _ _ d =>
        defaultSum (I.at' 0 0 d) (PyArith.ofRat 0) [v.at' 0 0 d]) "example_prm" s.elapsed pre.length := by
  have hdev := basicDev_works hd
  obtain ⟨s0', r0', s, r1, cur, k, ys, w0', w1, u2, u3, g1, g2, g3, g4, g5, g6, g7⟩ :=
    C34_reading_partial hdev.unique (fun p d hp => (hdev.deg p d hp).unique)
      (fun p d hp => (hdev.deg p d hp).shapes) h ht (List.nodup_singleton _)
      (List.mem_singleton.2 rfl : ("example_prm", n) ∈ (basicMeas n cold).measurements)
      (m := basicPrm mu sigma) rfl ⟨rfl, rfl, fun kv hkv => by
        cases List.mem_singleton.1 hkv
        show Ext.fin 0 = Ext.fin ((0 : ℚ) : ℝ)
        norm_num⟩ rfl ⟨List.nodup_singleton _, by simp [basicPrm, Dict.keys], by simp [basicPrm, Dict.keys],
        by simp [basicPrm, Dict.keys]⟩
  rw [hstart] at g1
  cases g1
  obtain ⟨ia, a, mv, e1, e2, e3, e4, e5, e6, e7⟩ := g5
  rw [g3] at e3
  cases e3
  obtain ⟨v, rfl⟩ : ∃ v, mv = [("linear", v)] := by
    have e6 : mv.map (·.1) = ["linear"] := e6
    match mv, e6 with
    | [(_, v)], e6 => exact ⟨v, by cases e6; rfl⟩
  rw [(C40_constant g2).1] at e1
  refine ⟨s, r1, w1, ia, v, k, g2, e1, ?_, g4, ?_⟩
  · unfold mechVal; rw [e5]; rfl
  · have hi : instrumentOf (⟨[], []⟩ : PhysTestEnv (Ext ℝ)) "example_prm" =
        { precision := none, range := none, error := none } := rfl
    rw [hi] at g6
    rw [g7, exact_reading g6]
    refine expectedRows_congr fun l hl c hc d hdn => ?_
    cases Nat.lt_one_iff.1 hl
    cases Nat.lt_one_iff.1 hc
    rw [e7 0 Nat.one_pos 0 Nat.one_pos d (by omega)]
    rfl

theorem basic_sum (x : ℝ) : defaultSum (.fin 0) (PyArith.ofRat 0) [.fin x] = Ext.fin x := by
  show Ext.fin (0 + ((0 : ℚ) : ℝ) + (((0 : ℚ) : ℝ) + x)) = _
  norm_num

/-- **C62**: `demos/basic_use.py` for any number of devices, temperatures, duration and latent distribution
whose draws are finite. The simulation succeeds. Nothing is drawn but the `n` coefficients `a`. The first
measurement reads 0 on every device. The second measurement, after the stress, reads the law
`-a * hot * time` of each device at the duration plus less than 0.0011 hours. -/
theorem C62_readings [LawfulRng W (Ext ℝ)] (ord : SetOrder) {mu sigma : ℚ} (hd : BasicDraws W mu sigma)
    (n : Nat) (cold hot : ℝ) {hours : ℚ} {us : Int} (hus : tdOfNum .hours hours = .ok us) (hpos : 0 < us)
    (hmax : numOfTd .hours us + 11 / 10000 ≤ 9000000000) (w : W) :
    ∃ (r : SimReport (Ext ℝ)) (w' : W) (as : List ℝ) (w1 : W), basicDemo ord mu sigma n (.fin cold) (.fin hot) hours w = (.ok r, w') ∧
      Rng.draw 1 "normal" [("loc", Ext.fin (mu : ℝ)), ("scale", Ext.fin (sigma : ℝ))] n w =
        (.ok (as.map Ext.fin), w1) ∧ as.length = n ∧
      rowsAt r.measurements 0 "example_prm" =
        expectedRows 1 1 n (fun _ _ _ => Ext.fin 0) "example_prm" (.td 0) 0 ∧
      ∃ t : Nat → ℝ, (∀ d, 0 < t d ∧ t d < 11 / 10000) ∧ rowsAt r.measurements 2 "example_prm" =
        expectedRows 1 1 n (fun _ _ d => Ext.fin (-(as.getD d 0 * hot) * (numOfTd .hours us + t d)))
          "example_prm" (.td us) 2 := by
  have hv : tdValid us := by
    unfold tdOfNum tdMk at hus
    split at hus
    · cases hus; assumption
    · cases hus
  have hdev := basicDev_works hd
  have hdemo : basicDemo ord mu sigma n (.fin cold) (.fin hot) hours w =
      simulate ord (basicSteps n cold hot us) (basicDev mu sigma) ⟨[], []⟩ none w := by
    unfold basicDemo
    rw [basicTest_eq hus hpos.ne', basicDevice_eq]
    rfl
  obtain ⟨r, w', hsim⟩ := C53_generated ord hdev (envDraws_empty (W := W) []) (basic_testOk hv (n := n)
    (cold := cold) (hot := hot)) w
  obtain ⟨as, w1, I, A, h1, h2, h3, h4, h5, h6, hstart⟩ := basic_start hd n cold hot us w
  refine ⟨r, w', as, w1, hdemo.trans hsim, h2, h1, ?_, ?_⟩
  · obtain ⟨s, r1, u1, I', v, k, g1, g2, g3, -, g5⟩ := basic_rows hd hsim (pre := []) rfl hstart
    cases g1
    cases g2
    cases g3
    rw [List.length_nil] at g5
    rw [g5]
    refine expectedRows_congr fun l hl c hc d hdn => ?_
    rw [h6 d hdn, Arr3.at_full _ Nat.one_pos Nat.one_pos hdn, basic_sum]
  · obtain ⟨s, r1, u1, I', v, k, g1, g2, g3, -, g5⟩ := basic_rows hd hsim
      (pre := [.meas (basicMeas n cold), .strs (basicStrs hot us)]) rfl hstart
    cases g2
    obtain ⟨⟨s2, r2⟩, u2, k1, k2⟩ := M.bind_eq_ok.1 g1
    obtain ⟨⟨s3, r3⟩, u3, k3, k4⟩ := M.bind_eq_ok.1 k2
    cases k4
    obtain ⟨_, _, _, _, _, rfl, hr2⟩ := simMeas_ok k1
    have hinfo : r2.info = ⟨[("example_prm", n)], 1, 1⟩ := by rw [hr2]; rfl
    obtain ⟨conds, s4, e, st, u4, c1, c2, c3, c4, c5, -⟩ := simStress_ok k3
    have hel : s.elapsed = .td us := by
      rw [(stress_frame c2).1] at c3
      have : TimeVal.add (.td 0) (.td us) = .ok (.td us) := by
        show (match tdAdd 0 us with | .ok c => Except.ok (TimeVal.td c) | .error e => .error e) = _
        unfold tdAdd tdMk
        rw [zero_add, if_pos hv]
      have c3 := this.symm.trans c3
      cases c3
      rw [c5]
    have hst : StressedMech ord (basicDev mu sigma) ⟨[], []⟩ (basicStrs hot us) 1 (basicState n I A) r2 u2 s
        "example_prm" "linear" (basicLinear mu sigma) (Arr3.full 1 1 n (.fin 0))
        [("temp", Arr3.full 1 1 n (.fin hot))] [("a", A)] n := by
      refine ⟨⟨_, _, k3⟩, hdev.unique, ⟨_, rfl, List.nodup_singleton _, rfl⟩, 
        ⟨[("example_prm", [("temp", Arr3.full 1 1 n (.fin hot))])], u2, ?_, ⟨rfl, ?_, rfl, _, rfl, rfl⟩⟩, ?_⟩
      · rw [hinfo]; exact basic_conds ..
      · rw [hinfo]; rfl
      · rw [hinfo]; exact full_dims ..
    have hval : ∀ d, ∃ t : ℝ, 0 < t ∧ t < 11 / 10000 ∧ (d < n →
        v.at' 0 0 d = .fin (-(as.getD d 0 * hot) * (numOfTd .hours us + t))) := by
      have hdur : convertTime (basicStrs hot us).duration
          (basicLinear mu sigma : MechMdl W (Ext ℝ)).timeUnit = .ok (.num (numOfTd .hours us)) := rfl
      have hx0 : 0 ≤ numOfTd .hours us := by
        unfold numOfTd timeSecondFactor
        positivity
      intro d
      by_cases hdn : d < n
      · have hsw : SampleWise (basicLinear mu sigma : MechMdl W (Ext ℝ)) (fun args => basicExpr.val args)
            [("temp", Arr3.full 1 1 n (.fin hot))] [("a", A)] r2.info.numLots r2.info.numChps n := by
          rw [hinfo]
          exact exprSampleWise rfl basic_uses (basic_inputs hot h3)
        have hl : 0 < r2.info.numLots := by rw [hinfo]; exact Nat.one_pos
        have hc : 0 < r2.info.numChps := by rw [hinfo]; exact Nat.one_pos
        have hcurve : ∀ t : ℝ, 0 < t → curve (basicLinear mu sigma : MechMdl W (Ext ℝ))
            (fun args => basicExpr.val args) [("temp", Arr3.full 1 1 n (.fin hot))] [("a", A)]
            r2.info.numLots r2.info.numChps n 0 0 d (.fin t) = .fin (-(as.getD d 0 * hot) * t) := by
          intro t _
          rw [hinfo]
          exact basic_curve h3 hdn (h4 d hdn) t
        have hpre := Arr3.at_full (Ext.fin (0 : ℝ)) Nat.one_pos Nat.one_pos hdn
        by_cases hz : as.getD d 0 * hot = 0
        · obtain ⟨v', e1, -, e2⟩ := C61_inactive_kept hst rfl hsw rfl hpos.le hl hc hdn hpre (z := 0)
            (fun t ht => by rw [hcurve t ht, hz]; norm_num)
          rw [g3] at e1
          cases e1
          exact ⟨1 / 1000, by norm_num, by norm_num, fun _ => by rw [e2, hz]; norm_num⟩
        · obtain ⟨v', t, e1, e2, e3, e4⟩ := C31_fresh_sample_partial hst rfl hsw hdur hx0 hmax hl hc hdn hpre
            hcurve (FreshCurve.linear (neg_ne_zero.2 hz))
          rw [g3] at e1
          cases e1
          exact ⟨t, e2, e3, fun _ => e4⟩
      · exact ⟨1 / 1000, by norm_num, by norm_num, fun h => absurd h hdn⟩
    choose t ht1 ht2 ht3 using hval
    refine ⟨t, fun d => ⟨ht1 d, ht2 d⟩, ?_⟩
    rw [show (2 : Nat) = [Step.meas (basicMeas n cold), .strs (basicStrs hot us)].length from rfl, g5, hel]
    refine expectedRows_congr fun l hl c hc d hdn => ?_
    rw [h6 d hdn, ht3 d hdn, basic_sum]

theorem basic_counting (mu sigma : ℚ) : BasicDraws Counts mu sigma := by
  intro n w
  refine ⟨(List.range n).map fun i => (((100 * 1 + w.next 1 + i : Nat) : ℚ) : ℝ), _, Prod.ext ?_ rfl⟩
  rw [List.map_map]
  rfl

/-- The numbers of the demonstration: five devices, 298.15 K, 100 hours at 398.15 K. -/
example (w : Counts) : ∃ (r : SimReport (Ext ℝ)) (w' : Counts) (as : List ℝ), as.length = 5 ∧
    basicDemo Ex.orderA (1 / 1000) (2 / 10000) 5 (.fin 298.15) (.fin 398.15) 100 w = (.ok r, w') ∧
    (rowsAt r.measurements 0 "example_prm").map (·.measured) = List.replicate 5 (.fin 0) ∧
    ∃ t : Nat → ℝ, (∀ d, 0 < t d ∧ t d < 11 / 10000) ∧
      (rowsAt r.measurements 2 "example_prm").map (·.measured) =
        (List.range 5).map fun d => Ext.fin (-(as.getD d 0 * 398.15) * (100 + t d)) := by
  obtain ⟨r, w', as, w1, h1, -, h2, h3, t, h4, h5⟩ := C62_readings Ex.orderA (basic_counting (1 / 1000)
    (2 / 10000)) 5 298.15 398.15 (hours := 100) (us := 360000000000) (by decide +kernel) (by norm_num)
    (by norm_num [numOfTd, timeSecondFactor]) w
  refine ⟨r, w', as, h2, h1, by rw [h3]; rfl, t, h4, ?_⟩
  rw [h5]
  have : numOfTd .hours 360000000000 = 100 := by norm_num [numOfTd, timeSecondFactor]
  rw [this]
  simp [expectedRows]

end Gerabaldi.Props
