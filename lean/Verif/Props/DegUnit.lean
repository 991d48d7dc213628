import Verif.Spec.DegUnit
import Verif.Lemmas.MinimizeField
import Verif.Props.History

namespace Gerabaldi.Props
open Gerabaldi Spec

section
variable {K : Type} [Field K] [LinearOrder K] [IsStrictOrderedRing K] {κ β : K} (hκ : 0 < κ)

local notation "sc" => inUnit κ (0 : K)

omit [LinearOrder K] [IsStrictOrderedRing K] in
private theorem sc_zero : sc (.fin 0) = .fin 0 := by simp [inUnit]

omit [LinearOrder K] [IsStrictOrderedRing K] in
private theorem sc_neg (x : Ext K) : Ext.neg (sc x) = sc (Ext.neg x) := by
  cases x <;> simp [Ext.neg, inUnit]

omit [LinearOrder K] [IsStrictOrderedRing K] in
private theorem sc_add (x y : Ext K) : Ext.add (sc x) (sc y) = sc (Ext.add x y) := by
  cases x <;> cases y <;> simp [Ext.add, inUnit, mul_add]

include hκ

private theorem sc_abs (x : Ext K) : Ext.abs (sc x) = sc (Ext.abs x) := by
  cases x <;> simp [Ext.abs, inUnit, abs_mul, abs_of_pos hκ]

private theorem signInf_sc (a : K) : (Ext.signInf (κ * a) : Ext K) = Ext.signInf a := by
  simp [Ext.signInf, hκ, mul_pos_iff_of_pos_left, mul_neg_iff, hκ.not_gt]

omit [IsStrictOrderedRing K] hκ in
private theorem sc_signInf (a : K) : sc (Ext.signInf a) = Ext.signInf a := by
  unfold Ext.signInf
  split_ifs <;> rfl

private theorem sc_mul (x y : Ext K) : Ext.mul x (sc y) = sc (Ext.mul x y) := by
  cases x with
  | fin a =>
    cases y with
    | fin b =>
      simp only [Ext.mul, inUnit]
      congr 1
      ring
    | pinf => exact (sc_signInf a).symm
    | ninf => exact ((sc_neg _).symm.trans (congrArg Ext.neg (sc_signInf a))).symm
    | nan => rfl
  | pinf =>
    cases y with
    | fin b =>
      show Ext.signInf (κ * b + 0) = sc (Ext.signInf b)
      rw [add_zero, sc_signInf, signInf_sc hκ]
    | pinf => rfl
    | ninf => rfl
    | nan => rfl
  | ninf =>
    cases y with
    | fin b =>
      show Ext.neg (Ext.signInf (κ * b + 0)) = sc (Ext.neg (Ext.signInf b))
      rw [add_zero, ← sc_neg, sc_signInf, signInf_sc hκ]
    | pinf => rfl
    | ninf => rfl
    | nan => rfl
  | nan => cases y <;> rfl

private theorem sc_div (x y : Ext K) : Ext.div (sc x) (sc y) = Ext.div x y := by
  have hn : ∀ b : K, κ * b < 0 ↔ b < 0 := fun b => by simp [mul_neg_iff, hκ, hκ.not_gt]
  cases x <;> cases y <;> simp [Ext.div, inUnit, signInf_sc hκ, hκ.ne', hn, mul_div_mul_left]

private theorem in_lt (x y : Ext K) : Ext.lt (inUnit κ β x) (inUnit κ β y) = Ext.lt x y := by
  cases x <;> cases y <;> simp [Ext.lt, inUnit, hκ]

private theorem in_eq (x y : Ext K) : Ext.eq (inUnit κ β x) (inUnit κ β y) = Ext.eq x y := by
  cases x <;> cases y <;> simp [Ext.eq, inUnit, hκ.ne']

private theorem in_le (x y : Ext K) : Ext.le (inUnit κ β x) (inUnit κ β y) = Ext.le x y := by
  simp [Ext.le, in_lt hκ, in_eq hκ]

private theorem in_sub (x y : Ext K) :
    Ext.abs (Ext.add (inUnit κ β x) (Ext.neg (inUnit κ β y))) = sc (Ext.abs (Ext.add x (Ext.neg y))) := by
  rw [← sc_abs hκ]
  congr 1
  cases x <;> cases y <;> simp [Ext.add, Ext.neg, inUnit]
  ring

end

section
variable {K : Type} [Field K] [LinearOrder K] [IsStrictOrderedRing K] {κ β : K} (hκ : 0 < κ)

/-- The search with objective values in another unit. -/
private def otherState (κ : K) (s : BState (Ext K)) : BState (Ext K) :=
  { s with fv := inUnit κ 0 s.fv, fw := inUnit κ 0 s.fw, fx := inUnit κ 0 s.fx }

include hκ in
private theorem other_step (s : BState (Ext K)) (c : MinCfg (Ext K)) : (otherState κ s).step c = s.step c := by
  have z : (PyArith.ofRat 0 : Ext K) = inUnit κ 0 (PyArith.ofRat 0) := by
    show Ext.fin ((0 : ℚ) : K) = inUnit κ 0 (Ext.fin ((0 : ℚ) : K))
    simp [inUnit]
  have msub : ∀ x y : Ext K, PyArith.sub (inUnit κ 0 x) (inUnit κ 0 y) = inUnit κ 0 (PyArith.sub x y) := fun x y => by
    show Ext.add _ (Ext.neg _) = inUnit κ 0 (Ext.add _ (Ext.neg _))
    rw [sc_neg, sc_add]
  have mmul : ∀ x y : Ext K, PyArith.mul x (inUnit κ 0 y) = inUnit κ 0 (PyArith.mul x y) := fun x y => sc_mul hκ x y
  have ht : PyArith.gt (PyArith.abs (otherState κ s).e) ((otherState κ s).tol c) =
    PyArith.gt (PyArith.abs s.e) (s.tol c) := rfl
  have hq : (otherState κ s).paraQ c = inUnit κ 0 (s.paraQ c) := by
    unfold BState.paraQ
    rw [ht]
    generalize PyArith.gt (PyArith.abs s.e) (s.tol c) = b
    simp only [otherState, msub, mmul]
  have hp : (otherState κ s).paraP c = inUnit κ 0 (s.paraP c) := by
    unfold BState.paraP
    rw [ht]
    generalize PyArith.gt (PyArith.abs s.e) (s.tol c) = b
    simp only [otherState, msub, mmul]
  have hu : (otherState κ s).usePara c = s.usePara c := by
    unfold BState.usePara
    rw [hq]
    have : PyArith.eq (inUnit κ 0 (s.paraQ c)) (PyArith.ofRat 0) = PyArith.eq (s.paraQ c) (PyArith.ofRat 0) := by
      conv_lhs => rw [z]
      exact in_eq hκ _ _
    rw [this]
    rfl
  have hg : PyArith.gt (inUnit κ 0 (s.paraQ c)) (PyArith.ofRat 0) = PyArith.gt (s.paraQ c) (PyArith.ofRat 0) := by
    conv_lhs => rw [z]
    exact in_lt hκ _ _
  rw [BState.step_eq, BState.step_eq, hu, hp, hq, hg]
  have key : (PyArith.div (if PyArith.gt (s.paraQ c) (PyArith.ofRat 0) then
        PyArith.neg (if s.usePara c then inUnit κ 0 (s.paraP c) else PyArith.ofRat 0)
        else if s.usePara c then inUnit κ 0 (s.paraP c) else PyArith.ofRat 0) (PyArith.abs (inUnit κ 0 (s.paraQ c))) : Ext K) =
      PyArith.div (if PyArith.gt (s.paraQ c) (PyArith.ofRat 0) then
        PyArith.neg (if s.usePara c then s.paraP c else PyArith.ofRat 0)
        else if s.usePara c then s.paraP c else PyArith.ofRat 0) (PyArith.abs (s.paraQ c)) := by
    generalize PyArith.gt (s.paraQ c) (PyArith.ofRat 0) = b
    generalize s.usePara c = u
    have h0 : (if u then inUnit κ 0 (s.paraP c) else PyArith.ofRat 0 : Ext K) =
        inUnit κ 0 (if u then s.paraP c else PyArith.ofRat 0) := by
      cases u
      · exact z
      · rfl
    rw [h0]
    generalize (if u then s.paraP c else PyArith.ofRat 0 : Ext K) = p
    have h1 : (if b then PyArith.neg (inUnit κ 0 p) else inUnit κ 0 p : Ext K) =
        inUnit κ 0 (if b then PyArith.neg p else p) := by
      cases b
      · rfl
      · exact sc_neg p
    rw [h1]
    show Ext.div _ (Ext.abs (inUnit κ 0 (s.paraQ c))) = Ext.div _ (Ext.abs (s.paraQ c))
    rw [sc_abs hκ, sc_div hκ]
  rw [key]
  rfl

include hκ in
private theorem other_update (s : BState (Ext K)) (st fu : Ext K) :
    (otherState κ s).update st (inUnit κ 0 fu) = otherState κ (s.update st fu) := by
  have hle : ∀ x y : Ext K, PyArith.le (inUnit κ 0 x) (inUnit κ 0 y) = PyArith.le x y := fun x y => in_le hκ x y
  have hi : ∀ (b : Bool) (x y : Ext K), (if b then inUnit κ 0 x else inUnit κ 0 y) = inUnit κ 0 (if b then x else y) :=
    fun b x y => by cases b <;> rfl
  simp only [BState.update, otherState, hle, hi]

include hκ in
/-- The values of the objective of `minimize` may be in any unit: the result is the same, for any
configuration, number of elements and objective, even one that fails or has side effects. -/
theorem C90_minimize {W : Type} (c : MinCfg (Ext K)) (func : List (Ext K) → M W (List (Ext K))) (n : Nat) :
    minimize c (fun xs => do
      let ys ← func xs
      pure (ys.map (inUnit κ 0))) n = minimize c func n := by
  have loop : ∀ (k : Nat) (ss : List (BState (Ext K))),
      minLoop c (fun xs => do
        let ys ← func xs
        pure (ys.map (inUnit κ 0))) k (ss.map (otherState κ)) = (do
          let r ← minLoop c func k ss
          pure (r.map (otherState κ)) : M W _) := by
    intro k
    induction k with
    | zero =>
      intro ss
      rfl
    | succ k ih =>
      intro ss
      have hd : (ss.map (otherState κ)).all (BState.done c) = ss.all (BState.done c) := by
        rw [List.all_map]
        rfl
      have hn : nextPoints c (ss.map (otherState κ)) = nextPoints c ss := by
        unfold nextPoints
        rw [List.map_map]
        apply List.map_congr_left
        intro s _
        show c.xf (PyArith.add s.x ((otherState κ s).step c)) = _
        rw [other_step hκ]
      unfold minLoop
      rw [hd, hn]
      split
      · rfl
      · funext w
        simp only [M.bind_run]
        cases func (nextPoints c ss) w with
        | mk e w1 =>
          cases e with
          | error e => rfl
          | ok fus =>
            simp only [M.pure_run, List.length_map]
            split
            · have hu : updateAll c (ss.map (otherState κ)) (fus.map (inUnit κ 0)) =
                  (updateAll c ss fus).map (otherState κ) := by
                unfold updateAll
                rw [List.zipWith_map, List.map_zipWith]
                congr 1
                funext s fu
                rw [other_step hκ]
                exact other_update hκ _ _ _
              rw [hu, ih]
              rfl
            · rfl
  unfold minimize
  funext w
  simp only [M.bind_run]
  cases func (List.replicate n (c.xf c.x0)) w with
  | mk e w1 =>
    cases e with
    | error e => rfl
    | ok f0s =>
      simp only [M.pure_run, List.length_map]
      split
      · have h0 : (f0s.map (inUnit κ 0)).map c.init = (f0s.map c.init).map (otherState κ) := by
          rw [List.map_map, List.map_map]
          rfl
        rw [h0, loop]
        simp only [M.bind_run]
        cases minLoop c func c.maxiter (f0s.map c.init) w1 with
        | mk e w2 =>
          cases e with
          | error e => rfl
          | ok ss =>
            simp only [M.pure_run, List.map_map]
            rfl
      · rfl

variable [FloorRing K] [Pow10 K]

include hκ in
private theorem other_search (c : MinCfg (Ext K)) (f : Ext K → Ext K) (n : Nat) :
    searchState c (fun x => inUnit κ 0 (f x)) n = otherState κ (searchState c f n) := by
  induction n with
  | zero => rfl
  | succ n ih =>
    unfold searchState at ih ⊢
    rw [Function.iterate_succ_apply', Function.iterate_succ_apply', ih]
    simp only [other_step hκ]
    exact other_update hκ _ _ _


include hκ in
private theorem other_rounds (c : MinCfg (Ext K)) (L C n : Nat) (f : Nat → Nat → Nat → Ext K → Ext K) :
    commonRounds c L C n (fun l ch d x => inUnit κ 0 (f l ch d x)) = commonRounds c L C n f := by
  unfold commonRounds
  simp only [other_search hκ]
  rfl

include hκ in
private theorem other_residue {g g' : (String → Ext K) → Ext K} (hg : ∀ args, g' args = inUnit κ β (g args))
    (lat cond : String → Option (Ext K)) (v : Ext K) :
    residueOne g' lat cond (inUnit κ β v) = fun t => inUnit κ 0 (residueOne g lat cond v t) := by
  funext t
  unfold residueOne
  rw [hg]
  exact in_sub hκ _ _

include hκ in
private theorem other_value {g g' : (String → Ext K) → Ext K} (hg : ∀ args, g' args = inUnit κ β (g args))
    (kind : MechKind) (u : Ext K) (lat cond : String → Option (Ext K)) (len v : Ext K) (rounds : Nat) :
    phaseValue kind (inUnit κ β u) g' lat cond len rounds (inUnit κ β v) =
      inUnit κ β (phaseValue kind u g lat cond len rounds v) := by
  have hi : PyArith.eq (inUnit κ β v) PyNum.inf = PyArith.eq v PyNum.inf := in_eq (β := β) hκ v .pinf
  have hu : PyArith.eq (inUnit κ β v) (inUnit κ β u) = PyArith.eq v u := in_eq hκ v u
  have hs : searchOne (equivTimeCfg (Ext K)) (residueOne g' lat cond (inUnit κ β v)) rounds =
      searchOne (equivTimeCfg (Ext K)) (residueOne g lat cond v) rounds := by
    unfold searchOne
    rw [other_residue hκ hg, other_search hκ]
    rfl
  unfold phaseValue
  rw [hi, hu, hs, hg, hg]
  cases kind <;> simp only [apply_ite (inUnit κ β)]

variable {W : Type} {k k' : MechMdl W (Ext K)} {g g' : (String → Ext K) → Ext K}

include hκ in
/-- A mechanism in another unit has, after any stress phases and at any sample, its old value in the other
unit. -/
theorem C90_mechanism (h : OtherUnit κ β k k' g g') (unit : TUnit) (lat : Dict (Arr3 (Ext K))) (L C n : Nat)
    (phases : List (Phase (Ext K))) (l c d : Nat) :
    mechHistory k' g' unit lat L C n phases l c d = inUnit κ β (mechHistory k g unit lat L C n phases l c d) := by
  have step : ∀ (v : Nat → Nat → Nat → Ext K) (ph : Phase (Ext K)),
      phaseValues k' g' unit lat L C n (fun l c d => inUnit κ β (v l c d)) ph =
        fun l c d => inUnit κ β (phaseValues k g unit lat L C n v ph l c d) := by
    intro v ph
    funext l c d
    unfold phaseValues
    rw [h.kind, h.unitary]
    have hr : commonRounds (equivTimeCfg (Ext K)) L C n (fun l c d =>
          residueOne g' (condAt lat l c d) (condAt ph.conds l c d) (inUnit κ β (v l c d))) =
        commonRounds (equivTimeCfg (Ext K)) L C n fun l c d =>
          residueOne g (condAt lat l c d) (condAt ph.conds l c d) (v l c d) := by
      simp only [other_residue hκ h.eqn]
      exact other_rounds hκ _ _ _ _ _
    rw [hr]
    exact other_value hκ h.eqn _ _ _ _ _ _ _
  have all : ∀ (phs : List (Phase (Ext K))) (v : Nat → Nat → Nat → Ext K),
      phs.foldl (phaseValues k' g' unit lat L C n) (fun l c d => inUnit κ β (v l c d)) =
        fun l c d => inUnit κ β (phs.foldl (phaseValues k g unit lat L C n) v l c d) := by
    intro phs
    induction phs with
    | nil =>
      intro v
      rfl
    | cons ph phs ih =>
      intro v
      rw [List.foldl_cons, List.foldl_cons, step, ih]
  unfold mechHistory
  rw [h.unitary]
  exact congrFun (congrFun (congrFun (all phases fun _ _ _ => k.unitary) l) c) d

section
variable {κs βs : String → K} {m m' : DegPrmMdl W (Ext K)} {gm gm' : String → (String → Ext K) → Ext K}

/-- The true values of a parameter do not depend on the units of its mechanisms. -/
theorem C90_true (h : OtherUnits κs βs m m' g g' gm gm') (um : String → TUnit) (init : Ext K)
    (lat : Dict (LatNode (Ext K))) (L C n : Nat) (phases : List (Phase (Ext K))) (l c d : Nat) :
    trueAfter m' g' gm' um init lat L C n phases l c d = trueAfter m g gm um init lat L C n phases l c d := by
  unfold trueAfter
  have e : mechsAfter m' gm' um lat L C n phases l c d = fun mech =>
      (mechsAfter m gm um lat L C n phases l c d mech).map (inUnit (κs mech) (βs mech)) := by
    funext mech
    unfold mechsAfter
    cases hk : m.mechs.get? mech with
    | none =>
      rw [h.none _ hk]
      rfl
    | some k =>
      obtain ⟨k', h1, h2⟩ := h.mechs _ _ hk
      rw [h1]
      simp only [Option.map_some]
      rw [C90_mechanism (h.pos mech) h2]
  rw [e, h.cond, h.eqn]
  intro mech
  unfold mechsAfter
  rw [Option.isSome_map]

omit [IsStrictOrderedRing K] in
/-- Neither does what an instrument is shown of a true value. -/
theorem C90_shown (h : OtherUnits κs βs m m' g g' gm gm') (gc : (String → Ext K) → Ext K) (x : Ext K)
    (lat : Dict (LatNode (Ext K))) (cs : Dict (Arr3 (Ext K))) (l c d : Nat) :
    shownAfter m' g' gc x lat cs l c d = shownAfter m g gc x lat cs l c d := by
  unfold shownAfter
  have e : (fun mech => (m'.mechs.get? mech).map (·.unitary)) = fun mech =>
      ((m.mechs.get? mech).map (·.unitary)).map (inUnit (κs mech) (βs mech)) := by
    funext mech
    cases hk : m.mechs.get? mech with
    | none =>
      rw [h.none _ hk]
      rfl
    | some k =>
      obtain ⟨k', h1, h2⟩ := h.mechs _ _ hk
      rw [h1]
      exact congrArg some h2.unitary
  rw [e, h.eqn]
  intro mech
  rw [Option.isSome_map]

/-- Every measurement of a device whose mechanisms have other units reports what the device `m` with the usual
units would show after the same phases, for the same drawn values. -/
theorem C90_reading [Rng W (Ext K)] [InfLaw (Ext K)] [LawfulRng W (Ext K)] {ord : SetOrder} {dev : DeviceMdl W (Ext K)}
    {env : PhysTestEnv (Ext K)} (hnd : dev.prms.Nodup)
    (hmn : ∀ p d, dev.prms.get? p = some (.deg d) → d.mechs.Nodup) {N : Nat → Prop}
    (hs : ∀ p d, dev.prms.get? p = some (.deg d) → DegShapes d N) {test : TestSpec (Ext K)}
    {r : SimReport (Ext K)} {w w' : W} (h : simulate ord test dev env none w = (.ok r, w'))
    {pre post : List (Step (Ext K))} {step : MeasSpec (Ext K)} (ht : test.steps = pre ++ .meas step :: post)
    (hnm : step.measurements.Nodup) {prm : String} {n : Nat} (hp : (prm, n) ∈ step.measurements)
    (hm : dev.prms.get? prm = some (.deg m')) (ho : OwnNames m')
    (hil : m'.initMdl.latentVars.Nodup) {gi gc : (String → Ext K) → Ext K} {S : PyVal (Ext K) → Prop}
    (hg : HasEquation m' g' N S) (hi : CircEquation m'.initMdl.compute gi)
    (hc : SampleEquation m'.condMdl.compute gc N) {um : String → TUnit}
    (he : MechEquations m' gm' um N) (hu : OtherUnits κs βs m m' g g' gm gm')
    (hN : SizesIn N r.info := by intro _ _ _; trivial)
    (hNn : N (test.numLots * test.numChps * n) := by trivial) :
    ∃ phases il lat k conds cs ys, ∃ u u1 u2 u3 : W, ∃ t : TimeVal,
      DeviceHistory (W := W) ord dev env r.info prm m' k pre phases il lat ∧ n ≤ k ∧
      env.genEnvCondVals ord step.conditions (.counts step.measurements) (some r.info) (some dev)
        .measure 1 1 u = (.ok conds, u1) ∧ conds.get? prm = some cs ∧
      Spec.timeVal t = (pre.map stressLen).sum ∧
      (instrumentOf env prm).measureVals ((expectedRows test.numLots test.numChps n (fun l c d =>
        shownAfter m g gc (trueAfter m g gm um (initialAt gi il l c d) lat test.numLots test.numChps k phases l c d) lat cs l c d)
        prm t pre.length).map (·.measured)) u2 = (.ok ys, u3) ∧
      rowsAt r.measurements pre.length prm = List.zipWith (fun x y => { x with measured := y })
        (expectedRows test.numLots test.numChps n (fun l c d =>
          shownAfter m g gc (trueAfter m g gm um (initialAt gi il l c d) lat test.numLots test.numChps k phases l c d) lat cs l c d)
          prm t pre.length) ys := by
  have := C74_reading hnd hmn hs h ht hnm hp hm ho hil hg hi hc he hN hNn
  simpa only [C90_true hu, C90_shown hu] using this

end
end

/-! ### The ageing device with its drift in thousandths, counted from 5 -/

section
open Ex

/-- The drift `1000 * (rate * temp * time) + 5`. -/
def milliExpr : NumExpr Q := .bin PyArith.add (.bin PyArith.mul (.lit (.fin 1000)) driftExpr) (.lit (.fin 5))

/-- The mechanism. -/
def milliDrift : MechMdl Counts Q :=
  { MechMdl.mk' .deg 0 (some (milliExpr.fn ["rate", "temp", "time"])) none (.fin 5) (some "h")
      [("rate", constLatent (.fin 2))] with }

/-- The parameter equation `init + cond + (drift - 5) / 1000 + wear`. -/
def milliPrmExpr : NumExpr Q :=
  .bin PyArith.add (.bin PyArith.add (.bin PyArith.add (.arg "init") (.arg "cond"))
    (.bin PyArith.div (.bin PyArith.sub (.arg "drift") (.lit (.fin 5))) (.lit (.fin 1000)))) (.arg "wear")

/-- The parameter. -/
def milliPrm : DegPrmMdl Counts Q :=
  { degPrm [("drift", milliDrift), ("wear", wear)] (.fin 3) with
    condMdl := { compute := tempExpr.fn ["tc", "temp"], latentVars := [("tc", constLatent (.fin 2))] }
    mdl := { compute := milliPrmExpr.fn ["init", "cond", "drift", "wear"], name := some "vth" } }

/-- The device. -/
def milliDev : DeviceMdl Counts Q where
  prms := [("vth", .deg milliPrm)]

/-- What the mechanisms compute. -/
def milliMechs (mech : String) (env : String → Q) : Q :=
  if mech = "drift" then exprOn env milliExpr else exprOn env wearExpr

theorem milli_drift : OtherUnit (1000 : ℚ) 5 slowDrift milliDrift (fun env => exprOn env driftExpr)
    (fun env => exprOn env milliExpr) := by
  refine ⟨rfl, by decide +kernel, fun args => ?_⟩
  show Ext.add (Ext.mul (.fin 1000) (exprOn args driftExpr)) (.fin 5) = inUnit 1000 5 (exprOn args driftExpr)
  cases exprOn args driftExpr <;> simp [Ext.add, Ext.mul, inUnit, Ext.signInf, Ext.neg]

theorem milli_units : OtherUnits (fun mech => if mech = "drift" then (1000 : ℚ) else 1)
    (fun mech => if mech = "drift" then 5 else 0) agingPrm milliPrm (fun env => exprOn env agingExpr)
    (fun env => exprOn env milliPrmExpr) agingMechs milliMechs := by
  have one : ∀ x : Q, inUnit (1 : ℚ) 0 x = x := fun x => by cases x <;> simp [inUnit]
  have back : ∀ x : Q, Ext.div (Ext.add (inUnit (1000 : ℚ) 5 x) (.fin (-5))) (.fin 1000) = x := fun x => by
    cases x <;> simp [inUnit, Ext.add, Ext.div]
  refine ⟨?_, ?_, ?_, rfl, ?_⟩
  · intro mech
    split_ifs <;> norm_num
  · intro mech k h
    have := Dict.mem_of_get? h
    simp only [agingPrm, degPrm, List.mem_cons, List.not_mem_nil, or_false, Prod.mk.injEq] at this
    rcases this with ⟨rfl, rfl⟩ | ⟨rfl, rfl⟩
    · exact ⟨milliDrift, rfl, milli_drift⟩
    · exact ⟨wear, rfl, rfl, (one _).symm, fun args => (one _).symm⟩
  · intro mech h
    rw [Dict.get?_eq_none_iff] at h ⊢
    exact h
  · intro init cond vals own hv
    obtain ⟨x, hx⟩ := Option.isSome_iff_exists.1 ((hv "drift").trans rfl)
    obtain ⟨y, hy⟩ := Option.isSome_iff_exists.1 ((hv "wear").trans rfl)
    have hi : vals "init" = none := Option.isSome_eq_false_iff.1 ((hv "init").trans rfl) |> Option.isNone_iff_eq_none.1
    have hc : vals "cond" = none := Option.isSome_eq_false_iff.1 ((hv "cond").trans rfl) |> Option.isNone_iff_eq_none.1
    simp only [exprOn, milliPrmExpr, agingExpr, prmNames, hx, hy, hi, hc, Option.map_some, Option.map_none, if_true,
      String.reduceEq, if_false, one]
    congr 2
    exact back x

/-- Simulating it gives the same measurements as before. -/
example : ∃ r w' r' v', simulate orderA agingTest milliDev ⟨[], []⟩ none Counts.start = (.ok r, w') ∧
    simulate orderA agingTest agingDev ⟨[], []⟩ none Counts.start = (.ok r', v') ∧
    rowsAt r.measurements 2 "vth" = rowsAt r'.measurements 2 "vth" ∧ rowsAt r.measurements 2 "vth" ≠ [] := by
  obtain ⟨r, hr, hq⟩ := exists_ok (x := (simulate orderA agingTest milliDev ⟨[], []⟩ none Counts.start).1)
    (f := fun r : SimReport Q => match (simulate orderA agingTest agingDev ⟨[], []⟩ none Counts.start).1 with
      | .ok r' => decide (rowsAt r.measurements 2 "vth" = rowsAt r'.measurements 2 "vth" ∧
        rowsAt r.measurements 2 "vth" ≠ [])
      | .error _ => false) (by decide +kernel)
  cases hr' : (simulate orderA agingTest agingDev ⟨[], []⟩ none Counts.start).1 with
  | error e =>
    rw [hr'] at hq
    cases hq
  | ok r' =>
    rw [hr'] at hq
    exact ⟨r, _, r', _, Prod.ext hr rfl, Prod.ext hr' rfl, of_decide_eq_true hq⟩

theorem milli_shapes : DegShapes milliPrm := by
  refine ⟨argEqn_shapes _, by decide, by simp [milliPrm, degPrm, initValMk, nameLatents],
    NumExpr.shapes (by intro k; simp [tempExpr, NumExpr.uses]), ?_,
    NumExpr.shapes (by intro k; simp [milliPrmExpr, NumExpr.uses])⟩
  intro k m hk
  simp only [milliPrm, degPrm, List.mem_cons, List.not_mem_nil, or_false, Prod.mk.injEq] at hk
  rcases hk with ⟨rfl, rfl⟩ | ⟨rfl, rfl⟩
  · exact NumExpr.shapes (by intro k; simp [milliExpr, driftExpr, NumExpr.uses])
  · exact NumExpr.shapes (by intro k; simp [wearExpr, NumExpr.uses])

theorem milli_mechs : MechEquations milliPrm milliMechs fun _ => .hours := by
  have hk : ∀ mech k, milliPrm.mechs.get? mech = some k →
      (mech = "drift" ∧ k = milliDrift) ∨ (mech = "wear" ∧ k = wear) := by
    intro mech k h
    have := Dict.mem_of_get? h
    simp only [milliPrm, degPrm, List.mem_cons, List.not_mem_nil, or_false, Prod.mk.injEq] at this
    exact this
  constructor
  · intro mech k h
    rcases hk mech k h with ⟨rfl, rfl⟩ | ⟨rfl, rfl⟩
    · exact expr_sample (by intro k; simp [milliExpr, driftExpr, NumExpr.uses])
    · exact expr_sample (by intro k; simp [wearExpr, NumExpr.uses])
  · intro mech k h
    rcases hk mech k h with ⟨rfl, rfl⟩ | ⟨rfl, rfl⟩ <;> decide +kernel
  · intro mech k h
    rcases hk mech k h with ⟨rfl, rfl⟩ | ⟨rfl, rfl⟩ <;> rfl

theorem milli_device : milliDev.prms.Nodup ∧
    (∀ p d, milliDev.prms.get? p = some (.deg d) → d.mechs.Nodup) ∧
    ∀ p d, milliDev.prms.get? p = some (.deg d) → DegShapes d := by
  have hd : ∀ p d, milliDev.prms.get? p = some (.deg d) → d = milliPrm := by
    intro p d hp
    have := Dict.mem_of_get? hp
    cases List.mem_singleton.1 this
    rfl
  refine ⟨by decide, fun p d hp => ?_, fun p d hp => ?_⟩ <;> rw [hd p d hp]
  · decide +kernel
  · exact milli_shapes

/-- `C90_reading` applies to it. -/
example {r w'} (h : simulate orderA agingTest milliDev ⟨[], []⟩ none Counts.start = (.ok r, w')) :=
  C90_reading milli_device.1 milli_device.2.1 milli_device.2.2 h (pre := [_, _]) rfl (by decide)
    (List.mem_singleton.2 rfl) rfl ⟨by decide +kernel, by decide +kernel, by decide +kernel, by decide +kernel⟩
    (by decide +kernel)
    (expr_equation (params := ["init", "cond", "drift", "wear"]) rfl (by
      intro k
      simp [milliPrmExpr, NumExpr.uses]))
    (argEqn_value _) (expr_sample (by intro k; simp [tempExpr, NumExpr.uses])) milli_mechs milli_units

end
end Gerabaldi.Props
