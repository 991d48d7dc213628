import Verif.Props.Ranges
import Verif.Props.Total
import Verif.Lemmas.Works
import Verif.Model.CookbookMech

/-!
# C53 and C63: instruments with limited ranges, finite values
-/

namespace Gerabaldi.Props
open Spec

section
variable {W V : Type} [PyNum V] [Rng W V] [LawfulRng W V]

/-- C53, with instruments that work in the ranges of the values only (rounding to a number of significant
digits fails for NaN): if moreover the values stay in their ranges, the simulation returns a report, and
its readings are in their ranges. -/
theorem C53_ranges [InfLaw V] {R : Ranges V} (hF : NumClosed R.num) (ord : SetOrder)
    {dev : DeviceMdl W V} {N : Nat → Prop} (hdev : DeviceWorks dev N) (hin : DeviceIn R dev) {env : PhysTestEnv V}
    (he : EnvDraws W env) {test : TestSpec V} (ht : TestOk dev env test R.val)
    (hst : StepsIn R ord dev env test.steps) (w : W)
    (hN : TestSizes N test := by intro _ _ _; trivial) :
    ∃ r w', simulate ord test dev env none w = (.ok r, w') ∧
      ∀ x ∈ r.measurements, R.read x.prm x.measured := by
  obtain ⟨s, r, w1, h1, h2, h3, h4, h5⟩ := simStart_works hdev ht w
  obtain ⟨n1, n2⟩ := genSizes (q := r.info) hN h4 h5 h2
  obtain ⟨a1, _⟩ := simStart_shape hdev.unique (fun p d hp => (hdev.deg p d hp).shapes) h1 n1
  obtain ⟨sr, w', h⟩ := runSteps_works_inv hdev he (ord := ord) (genCounts_ok ht h2) a1
    (simStart_latents hdev h1) (StateIn R)
    (fun st hs i s r w s' r' w' hi h => (stress_in hF hin (hst.stress st hs) hi h).1)
    (fun m hm q i s hi u conds u' hc p n hp w rows w' h x hx =>
      (true_in hin (hst.measure m hm) hi ((hst.measure m hm).conds _ _ _ _ hc)
        (List.mem_map_of_mem hp) h x hx).2)
    (simStart_in hin h1).1 h3 ht.times 0 w1 n1 n2
  have hf : simulateFull ord test dev env none w = (.ok sr, w') := (M.bind_ok h1).trans h
  exact ⟨sr.2, w', M.bind_ok hf, (C63_ranges hF hin hst hf).2⟩

end

/-! ## Draws, conditions and expressions -/

section
variable {W V : Type} [PyArith V] [Rng W V]
open PyArith

/-- Whatever the variable draws is in the set. -/
def SamplesIn (W : Type) [Rng W V] (F : V → Prop) (r : RVar V) : Prop :=
  ∀ n (w : W) xs w', r.sample n w = (.ok xs, w') → ∀ x ∈ xs, F x

theorem samplesIn_fixed {F : V → Prop} {v : V} {o : RVar V} (ho : o.dist = .deterministic v)
    (hv : F v) : SamplesIn W F o := by
  intro n w xs w' h x hx
  unfold RVar.sample at h
  rw [ho] at h
  cases h
  rw [(List.mem_replicate.1 hx).2]
  exact hv

/-- The values of a latent variable are in a set that its operation does not leave. -/
theorem latent_in {F : V → Prop} {lv : LatentVar V} (hop : ∀ x y, F x → F y → F (lv.op x y))
    (hd : ∀ v, lv.deterVal = some v → F v) (h1 : SamplesIn W F lv.lot) (h2 : SamplesIn W F lv.chp)
    (h3 : SamplesIn W F lv.dev) {n C L : Nat} {w w' : W} {a : Arr3 V}
    (h : lv.genLatentVals n C L w = (.ok a, w')) : ArrIn F a := by
  unfold LatentVar.genLatentVals at h
  obtain ⟨xs, w1, a1, h⟩ := M.bind_eq_ok.1 h
  obtain ⟨lot, b1, h⟩ := M.ofExcept_bind_ok.1 h
  obtain ⟨ys, w2, a2, h⟩ := M.bind_eq_ok.1 h
  obtain ⟨chp, b2, h⟩ := M.ofExcept_bind_ok.1 h
  obtain ⟨zs, w3, a3, h⟩ := M.bind_eq_ok.1 h
  obtain ⟨dev, b3, h⟩ := M.ofExcept_bind_ok.1 h
  have c1 : ArrIn F lot := ArrIn.reshape (h1 _ _ _ _ a1) b1
  have c2 : ArrIn F chp := ArrIn.reshape (h2 _ _ _ _ a2) b2
  have c3 : ArrIn F dev := ArrIn.reshape (h3 _ _ _ _ a3) b3
  cases hv : lv.deterVal with
  | none =>
    rw [hv] at h
    obtain ⟨vals, w4, a4, h⟩ := M.bind_eq_ok.1 h
    cases a4
    obtain ⟨x, b5, h⟩ := M.ofExcept_bind_ok.1 h
    obtain ⟨b6, -⟩ := M.ofExcept_eq_ok.1 h
    exact (c3.bcast2 c2 hop b5).bcast2 c1 hop b6
  | some v =>
    rw [hv] at h
    obtain ⟨vals, a4, h⟩ := M.ofExcept_bind_ok.1 h
    obtain ⟨x, b5, h⟩ := M.ofExcept_bind_ok.1 h
    obtain ⟨b6, -⟩ := M.ofExcept_eq_ok.1 h
    exact (((ArrIn.full (hd v hv)).bcast2 c3 hop a4).bcast2 c2 hop b5).bcast2 c1 hop b6

/-- The variation model of the condition does not leave the set. -/
structure VrtnIn (W : Type) [Rng W V] (F : V → Prop) (m : EnvVrtnMdl V) : Prop where
  op : ∀ x y, F x → F y → F (m.op x y)
  batch : SamplesIn W F m.batch
  chp : SamplesIn W F m.chp
  dev : SamplesIn W F m.dev

theorem genBatch_in {F : V → Prop} {m : EnvVrtnMdl V} (hm : VrtnIn W F m) {v x : V} (hv : F v)
    {w w' : W} (h : m.genBatch v w = (.ok x, w')) : F x := by
  unfold EnvVrtnMdl.genBatch at h
  obtain ⟨xs, w1, h1, h⟩ := M.bind_eq_ok.1 h
  obtain ⟨y, h2, h⟩ := M.ofExcept_bind_ok.1 h
  cases h
  unfold single at h2
  split at h2
  · rename_i z hz
    cases h2
    exact hm.op _ _ hv (hm.batch _ _ _ _ h1 _ List.mem_cons_self)
  · cases h2

theorem genChp_in {F : V → Prop} {m : EnvVrtnMdl V} (hm : VrtnIn W F m) {v : V} {a : Arr3 V} (hv : F v)
    {C L : Nat} {w w' : W} (h : m.genChp v C L w = (.ok a, w')) : ArrIn F a := by
  unfold EnvVrtnMdl.genChp at h
  obtain ⟨xs, w1, h1, h⟩ := M.bind_eq_ok.1 h
  obtain ⟨y, h2, h⟩ := M.ofExcept_bind_ok.1 h
  cases h
  exact (ArrIn.reshape (hm.chp _ _ _ _ h1) h2).map fun x hx => hm.op _ _ hv hx

theorem genDev_in {F : V → Prop} {m : EnvVrtnMdl V} (hm : VrtnIn W F m) {b a : Arr3 V} (hb : ArrIn F b)
    {n : Nat} {w w' : W} (h : m.genDev b n w = (.ok a, w')) : ArrIn F a := by
  unfold EnvVrtnMdl.genDev at h
  obtain ⟨xs, w1, h1, h⟩ := M.bind_eq_ok.1 h
  obtain ⟨y, h2, h⟩ := M.ofExcept_bind_ok.1 h
  obtain ⟨h3, -⟩ := M.ofExcept_eq_ok.1 h
  exact hb.bcast2 (ArrIn.reshape (hm.dev _ _ _ _ h1) h2) hm.op h3

/-- The condition values are in the sets of the conditions. -/
theorem conds_in_of {F : String → V → Prop} {env : PhysTestEnv V}
    {ord : SetOrder} {base : Dict V} (he : ∀ k ∈ base.keys, VrtnIn W (F k) (env.vrtnMdl k))
    (hb : EveryEntry F base) {prms : PrmSel} {info : Option Quantities} {dev : Option (DeviceMdl W V)}
    {t : Target} {nc nl : Nat} {w w' : W} {r : Dict (Dict (Arr3 V))}
    (h : env.genEnvCondVals ord base prms info dev t nc nl w = (.ok r, w')) :
    EveryEntry (fun _ cs => EveryEntry (fun k a => ArrIn (F k) a) cs) r := by
  obtain ⟨shared, counts, w1, h1, -, h3⟩ := genEnvCondVals_inv h
  have hsh : EveryEntry (fun k bc => k ∈ base.keys ∧ F k bc.1 ∧ ArrIn (F k) bc.2) shared := by
    refine M.forIn'_ok_inv (P := fun _ sh _ => EveryEntry (fun k bc => k ∈ base.keys ∧ F k bc.1 ∧ ArrIn (F k) bc.2) sh) h1
      EveryEntry.nil ?_
    intro pre kv post b1 w1 b2 w2 hx hacc hf
    have hmem : kv ∈ base := by rw [hx]; simp
    unfold PhysTestEnv.genShared at hf
    obtain ⟨b, w3, h4, hf⟩ := M.bind_eq_ok.1 hf
    obtain ⟨c, h5, hf⟩ := M.bind_pure_ok.1 hf
    subst hf
    have hk : kv.1 ∈ base.keys := List.mem_map.2 ⟨kv, hmem, rfl⟩
    have hbb := genBatch_in (he kv.1 hk) (hb kv.1 kv.2 hmem) h4
    exact hacc.set ⟨hk, hbb, genChp_in (he kv.1 hk) hbb h5⟩
  refine M.forIn'_ok_inv (P := fun _ r _ =>
    EveryEntry (fun _ cs => EveryEntry (fun k a => ArrIn (F k) a) cs) r) h3 EveryEntry.nil ?_
  intro pre p post b1 w1 b2 w2 hx hacc hf
  unfold PhysTestEnv.genPrmStep at hf
  obtain ⟨d, h4, hf⟩ := M.bind_pure_ok.1 hf
  subst hf
  refine hacc.set ?_
  unfold PhysTestEnv.genPrmConds at h4
  cases hp : dev.bind fun d => d.prms.get? p with
  | some m =>
    rw [hp] at h4
    refine M.forIn'_ok_inv (P := fun _ d _ => EveryEntry (fun k a => ArrIn (F k) a) d) h4
      EveryEntry.nil ?_
    intro pre k post b1 w1 b2 w2 hx hacc hf
    unfold PhysTestEnv.genDepend at hf
    obtain ⟨bc, h5, hf⟩ := M.getE_bind_ok.1 hf
    obtain ⟨n, h6, hf⟩ := M.getE_bind_ok.1 hf
    obtain ⟨a, h7, hf⟩ := M.bind_pure_ok.1 hf
    subst hf
    exact hacc.set (genDev_in (he k (hsh.get h5).1) (hsh.get h5).2.2 h7)
  | none =>
    rw [hp] at h4
    unfold PhysTestEnv.genSensor at h4
    obtain ⟨bc, h5, hf⟩ := M.getE_bind_ok.1 h4
    obtain ⟨n, h6, hf⟩ := M.getE_bind_ok.1 hf
    obtain ⟨s, w3, h7, hf⟩ := M.bind_eq_ok.1 hf
    obtain ⟨a, h8, hf⟩ := M.bind_pure_ok.1 hf
    subst hf
    have hk := (hsh.get h5).1
    exact EveryEntry.nil.cons (genDev_in (he p hk) (genChp_in (he p hk) (hsh.get h5).2.1 h7) h8)

theorem conds_in {F : String → V → Prop} {env : PhysTestEnv V}
    (he : ∀ k, VrtnIn W (F k) (env.vrtnMdl k)) {ord : SetOrder} {base : Dict V}
    (hb : EveryEntry F base) {prms : PrmSel} {info : Option Quantities} {dev : Option (DeviceMdl W V)}
    {t : Target} {nc nl : Nat} {w w' : W} {r : Dict (Dict (Arr3 V))}
    (h : env.genEnvCondVals ord base prms info dev t nc nl w = (.ok r, w')) :
    EveryEntry (fun _ cs => EveryEntry (fun k a => ArrIn (F k) a) cs) r :=
  conds_in_of (fun k _ => he k) hb h

omit [PyArith V] [Rng W V] in
theorem ValIn.bin [Inhabited V] {A B C : V → Prop} {x y r : PyVal V} (hx : ValIn A x) (hy : ValIn B y)
    {f : V → V → V} (hf : ∀ a b, A a → B b → C (f a b)) (h : PyVal.bin f x y = .ok r) : ValIn C r := by
  cases x <;> cases y <;> simp only [PyVal.bin] at h
  case arr.arr =>
    split at h
    · rename_i r' hr
      cases h
      exact ArrIn.bcast2 hx hy hf hr
    · cases h
  all_goals cases h
  all_goals first
    | exact ArrIn.map hx fun a ha => hf _ _ ha hy
    | exact ArrIn.map hy fun b hb => hf _ _ hx hb
    | exact hf _ _ hx hy

/-- The values an expression takes when its arguments are in their ranges, taken independently. -/
def exprRange (A : String → V → Prop) : NumExpr V → V → Prop
  | .arg k => A k
  | .lit v => fun x => x = v
  | .un f e => fun x => ∃ y, exprRange A e y ∧ x = f y
  | .bin f e₁ e₂ => fun x => ∃ y z, exprRange A e₁ y ∧ exprRange A e₂ z ∧ x = f y z

theorem eval_in {A : String → V → Prop} {args : Dict (PyVal V)}
    (ha : EveryEntry (fun k v => ValIn (A k) v) args) (e : NumExpr V) {r : PyVal V}
    (h : e.eval args = .ok r) : ValIn (exprRange A e) r := by
  induction e generalizing r with
  | arg k => exact ha.get (Dict.getE_eq_ok.1 h)
  | lit v => cases h; exact rfl
  | un f e ih =>
    cases hx : e.eval args with
    | error er => simp only [NumExpr.eval, hx] at h; cases h
    | ok x =>
      simp only [NumExpr.eval, hx] at h
      cases h
      have := ih hx
      cases x with
      | arr a => exact ArrIn.map this fun y hy => ⟨y, hy, rfl⟩
      | scal y => exact ⟨y, this, rfl⟩
      | npscal y => exact ⟨y, this, rfl⟩
  | bin f e₁ e₂ ih₁ ih₂ =>
    cases hx : e₁.eval args with
    | error er => simp only [NumExpr.eval, hx] at h; cases h
    | ok x =>
      cases hy : e₂.eval args with
      | error er => simp only [NumExpr.eval, hx, hy] at h; cases h
      | ok y =>
        simp only [NumExpr.eval, hx, hy] at h
        exact ValIn.bin (ih₁ hx) (ih₂ hy) (fun a b ha hb => ⟨a, b, ha, hb, rfl⟩) h

omit [Rng W V] in
/-- An expression maps arguments in their ranges to a range that contains its values. -/
theorem maps_expr {A : String → V → Prop} {B : V → Prop} (ps : List String) (e : NumExpr V)
    (h : ∀ x, exprRange A e x → B x) : Maps (NumExpr.fn ps e : PyFun W V) A B := by
  intro args w r w' ha hr
  exact (eval_in ha e (M.ofExcept_eq_ok.1 hr).1).mono h

end

/-! ## Finite values -/

section finite
variable {K : Type} [Field K] [LinearOrder K] [IsStrictOrderedRing K] [FloorRing K] [Pow10 K]
variable {W : Type} [Rng W (Ext K)]
open PyArith

/-- A finite number: neither infinite nor NaN. -/
def IsFin (x : Ext K) : Prop := ∃ a, x = .fin a

omit [FloorRing K] [Pow10 K] [IsStrictOrderedRing K] in
theorem fin_add {x y : Ext K} (hx : IsFin x) (hy : IsFin y) : IsFin (add x y) := by
  obtain ⟨a, rfl⟩ := hx
  obtain ⟨b, rfl⟩ := hy
  exact ⟨_, rfl⟩

omit [FloorRing K] [Pow10 K] [IsStrictOrderedRing K] in
theorem fin_mul {x y : Ext K} (hx : IsFin x) (hy : IsFin y) : IsFin (mul x y) := by
  obtain ⟨a, rfl⟩ := hx
  obtain ⟨b, rfl⟩ := hy
  exact ⟨_, rfl⟩

omit [FloorRing K] [Pow10 K] [IsStrictOrderedRing K] in
theorem fin_sub {x y : Ext K} (hx : IsFin x) (hy : IsFin y) : IsFin (sub x y) := by
  obtain ⟨a, rfl⟩ := hx
  obtain ⟨b, rfl⟩ := hy
  exact ⟨_, rfl⟩

/-- The finite numbers are closed under arithmetic, except for divisions by zero. -/
theorem fin_closed : NumClosed (IsFin : Ext K → Prop) where
  lit := fun q => ⟨_, rfl⟩
  add := fin_add
  sub := fin_sub
  mul := fin_mul
  neg := fun ⟨a, ha⟩ => ⟨-a, by rw [ha]; rfl⟩
  abs := fun ⟨a, ha⟩ => ⟨|a|, by rw [ha]; rfl⟩
  div := by
    rintro _ _ ⟨a, rfl⟩ ⟨b, rfl⟩ h
    have hb : b ≠ 0 := by
      have : decide (b = ((0 : ℚ) : K)) = false := h
      simpa using this
    refine ⟨a / b, ?_⟩
    show (if b = 0 then Ext.signInf a else .fin (a / b)) = _
    rw [if_neg hb]
  absZero := by
    intro x h
    cases x with
    | fin a =>
      have : decide (a = ((0 : ℚ) : K)) = false := h
      show decide (|a| = ((0 : ℚ) : K)) = false
      simpa using this
    | pinf => rfl
    | ninf => rfl
    | nan => rfl
  litZero := by
    intro q hq
    show decide ((q : K) = ((0 : ℚ) : K)) = false
    simpa using hq

omit [FloorRing K] [Pow10 K] [IsStrictOrderedRing K] in
theorem vop_fin (t : Option VType) {x y : Ext K} (hx : IsFin x) (hy : IsFin y) :
    IsFin ((match t with
      | some t => t.op
      | none => fun x _ => x) x y) := by
  cases t with
  | none => exact hx
  | some t =>
    cases t with
    | scaling => exact fin_mul hx hy
    | offset => exact fin_add hx hy

/-- All ranges are the finite numbers. -/
def finRanges : Ranges (Ext K) := ⟨fun _ _ => IsFin, fun _ => IsFin, fun _ => IsFin, IsFin⟩

/-- The layers of the latent variables draw finite values. -/
def FiniteLatents (m : LatentMdl W (Ext K)) : Prop :=
  ∀ k lv, (k, lv) ∈ m.latentVars → (∀ v, lv.deterVal = some v → IsFin v) ∧
    SamplesIn W IsFin lv.lot ∧ SamplesIn W IsFin lv.chp ∧ SamplesIn W IsFin lv.dev

omit [FloorRing K] [Pow10 K] [IsStrictOrderedRing K] in
theorem FiniteLatents.drawsIn [FloorRing K] [Pow10 K] {m : LatentMdl W (Ext K)} (h : FiniteLatents m) :
    DrawsIn (fun _ => IsFin) m := by
  intro k lv hk n C L w a w' ha
  obtain ⟨h1, h2, h3, h4⟩ := h k lv hk
  exact latent_in (fun x y hx hy => vop_fin lv.vrtnType hx hy) h1 h2 h3 h4 ha

/-- An equation that is finite on finite arguments. -/
abbrev FiniteEqn (f : PyFun W (Ext K)) : Prop := Maps f (fun _ => IsFin) IsFin

/-- A device whose latent variables draw finite values and whose equations are finite on finite
arguments. -/
structure FiniteDevice (dev : DeviceMdl W (Ext K)) : Prop where
  unique : ∀ p d, (p, .deg d) ∈ dev.prms → d.mechs.Nodup
  mech : ∀ p d, (p, .deg d) ∈ dev.prms → ∀ k m, (k, m) ∈ d.mechs →
    FiniteLatents m.mdl ∧ FiniteEqn m.mdl.compute ∧ IsFin m.unitary
  deg : ∀ p d, (p, .deg d) ∈ dev.prms → FiniteLatents d.initMdl ∧ FiniteEqn d.initMdl.compute ∧
    FiniteLatents d.condMdl ∧ FiniteEqn d.condMdl.compute ∧ IsFin d.condUnitary ∧
    FiniteLatents d.mdl ∧ FiniteEqn d.mdl.compute
  circ : ∀ p c, (p, .circ c) ∈ dev.prms → FiniteLatents c ∧ FiniteEqn c.compute

omit [IsStrictOrderedRing K] in
theorem FiniteDevice.deviceIn {dev : DeviceMdl W (Ext K)} (h : FiniteDevice dev) :
    DeviceIn finRanges dev where
  deg := fun p d hp => by
    obtain ⟨h1, h2, h3, h4, h5, h6, h7⟩ := h.deg p d hp
    refine ⟨h.unique p d hp, fun k m hm => ?_, h1.drawsIn, h2, fun _ h => h, h3.drawsIn, h4, h5,
      h6.drawsIn, h7⟩
    obtain ⟨a1, a2, a3⟩ := h.mech p d hp k m hm
    refine ⟨a1.drawsIn, a2, a3, fun _ _ h => h, fun _ x hx => ?_⟩
    obtain ⟨a, rfl⟩ := hx
    exact ⟨_, rfl⟩
  circ := fun p c hp => ⟨(h.circ p c hp).1.drawsIn, fun _ _ h => h, (h.circ p c hp).2⟩

/-- An environment whose variations draw finite values and whose instruments have finite limits and draw
finite errors. -/
structure FiniteEnv (W : Type) [Rng W (Ext K)] (env : PhysTestEnv (Ext K)) : Prop where
  vars : ∀ k m, (k, m) ∈ env.vars → SamplesIn W IsFin m.batch ∧ SamplesIn W IsFin m.chp ∧
    SamplesIn W IsFin m.dev
  instms : ∀ k ins, (k, ins) ∈ env.instms → (∀ r, ins.error = some r → SamplesIn W IsFin r) ∧
    ∀ lo hi, ins.range = some (lo, hi) → IsFin lo ∧ IsFin hi

omit [FloorRing K] [Pow10 K] [IsStrictOrderedRing K] in
theorem FiniteEnv.vrtn {env : PhysTestEnv (Ext K)} (h : FiniteEnv W env) (k : String) :
    VrtnIn W IsFin (env.vrtnMdl k) := by
  have hop : ∀ x y, IsFin x → IsFin y → IsFin ((env.vrtnMdl k).op x y) :=
    fun x y hx hy => vop_fin (env.vrtnMdl k).vrtnType hx hy
  unfold PhysTestEnv.vrtnMdl at *
  cases hg : env.vars.get? k with
  | none =>
    rw [hg] at hop
    have h0 : SamplesIn W (IsFin : Ext K → Prop) (detUnit (ofRat 0)) :=
      samplesIn_fixed rfl ⟨_, rfl⟩
    exact ⟨hop, h0, h0, h0⟩
  | some m =>
    rw [hg] at hop
    obtain ⟨h1, h2, h3⟩ := h.vars k m (Dict.mem_of_get? hg)
    exact ⟨hop, h1, h2, h3⟩

omit [IsStrictOrderedRing K] in
theorem sigRound_fin {p : Int} {x y : Ext K} (hx : IsFin x) (h : sigRound p x = .ok y) : IsFin y := by
  obtain ⟨a, rfl⟩ := hx
  unfold sigRound at h
  split at h
  · cases h; exact ⟨_, rfl⟩
  · split at h
    · cases h; exact ⟨_, rfl⟩
    · cases h

theorem sigRound_works {p : Int} {x : Ext K} (hx : IsFin x) : ∃ y, sigRound p x = .ok y := by
  obtain ⟨a, rfl⟩ := hx
  unfold sigRound
  split
  · exact ⟨_, rfl⟩
  · rename_i h
    have ha : a ≠ 0 := by
      intro ha
      subst ha
      apply h
      show (decide ((0 : K) = ((0 : ℚ) : K)) || _) = true
      simp
    have : PyNum.floorLog10 (PyArith.abs (Ext.fin a)) = .ok (Int.log 10 |a|) := by
      show (if 0 < |a| then _ else _) = _
      rw [if_pos (abs_pos.2 ha)]
    rw [this]
    exact ⟨_, rfl⟩

omit [IsStrictOrderedRing K] in
theorem clip_fin {lo hi x : Ext K} (h1 : IsFin lo) (h2 : IsFin hi) (hx : IsFin x) :
    IsFin (clip1 lo hi x) := by
  unfold clip1
  exact ite_in (ite_in h1 h2) (ite_in (ite_in h2 h1) hx)

theorem mapExcept_fin {p : Int} {xs : List (Ext K)} (hx : ∀ x ∈ xs, IsFin x) :
    ∃ ys, mapExcept (sigRound p) xs = .ok ys ∧ ∀ y ∈ ys, IsFin y := by
  induction xs with
  | nil => exact ⟨[], rfl, fun _ h => (nomatch h)⟩
  | cons x xs ih =>
    obtain ⟨y, hy⟩ := sigRound_works (p := p) (hx x List.mem_cons_self)
    obtain ⟨ys, hys, hf⟩ := ih fun z hz => hx z (List.mem_cons_of_mem _ hz)
    refine ⟨y :: ys, by simp only [mapExcept, hy, hys], fun z hz => ?_⟩
    rcases List.mem_cons.1 hz with rfl | hz
    · exact sigRound_fin (hx x List.mem_cons_self) hy
    · exact hf z hz

theorem precision_fin {ins : Instrument (Ext K)} {xs : List (Ext K)} (hx : ∀ x ∈ xs, IsFin x) :
    ∃ ys, ins.applyPrecision xs = .ok ys ∧ ∀ y ∈ ys, IsFin y := by
  unfold Instrument.applyPrecision
  cases ins.precision with
  | none => exact ⟨xs, rfl, hx⟩
  | some p =>
    by_cases hp : p = 0
    · exact ⟨xs, by simp only [if_pos hp], hx⟩
    · simp only [if_neg hp]
      exact mapExcept_fin hx

/-- An instrument reads finite values as finite values, whatever its precision, limits and error. -/
theorem measure_fin {env : PhysTestEnv (Ext K)} (he : FiniteEnv W env) {p : String}
    {ins : Instrument (Ext K)} (hi : env.measInstm p = .ok ins) {xs ys : List (Ext K)} {w w' : W}
    (hx : ∀ x ∈ xs, IsFin x) (h : ins.measureVals xs w = (.ok ys, w')) : ∀ y ∈ ys, IsFin y := by
  have hins : (∀ r, ins.error = some r → SamplesIn W IsFin r) ∧
      ∀ lo hi, ins.range = some (lo, hi) → IsFin lo ∧ IsFin hi := by
    unfold PhysTestEnv.measInstm at hi
    split at hi
    · cases hi
    · split at hi
      · rename_i i hg
        cases hi
        exact he.instms p _ (Dict.mem_of_get? hg)
      · split at hi
        · cases hi
        · cases hi
          exact ⟨fun r hr => (nomatch hr), fun lo hi hr => (nomatch hr)⟩
  unfold Instrument.measureVals at h
  obtain ⟨noisy, w1, h1, h⟩ := M.bind_eq_ok.1 h
  obtain ⟨rounded, h2, h⟩ := M.ofExcept_bind_ok.1 h
  cases h
  have hn : ∀ x ∈ noisy, IsFin x := by
    unfold Instrument.addNoise at h1
    cases hr : ins.error with
    | none => rw [hr] at h1; cases h1; exact hx
    | some r =>
      rw [hr] at h1
      obtain ⟨es, h3, h4⟩ := M.bind_pure_ok.1 h1
      subst h4
      intro x hxx
      obtain ⟨j, hj, rfl⟩ := List.mem_iff_getElem.1 hxx
      rw [List.getElem_zipWith]
      exact fin_add (hx _ (List.getElem_mem _)) (hins.1 r hr _ _ _ _ h3 _ (List.getElem_mem _))
  obtain ⟨ys, h5, h6⟩ := precision_fin (ins := ins) hn
  rw [h5] at h2
  cases h2
  unfold Instrument.applyRange
  cases hr : ins.range with
  | none => exact h6
  | some lh =>
    intro y hy
    obtain ⟨z, hz, rfl⟩ := List.mem_map.1 hy
    obtain ⟨a1, a2⟩ := hins.2 lh.1 lh.2 hr
    exact clip_fin a1 a2 (h6 z hz)

/-- An instrument without an error term, or with one that can be drawn, measures all finite values. -/
theorem instrument_fin {env : PhysTestEnv (Ext K)} (he : FiniteEnv W env) {p : String}
    {ins : Instrument (Ext K)} (hi : env.measInstm p = .ok ins)
    (hd : ∀ r, ins.error = some r → DrawsWork W r) :
    InstrumentOk W env p (fun _ => IsFin) := by
  refine ⟨ins, hi, fun xs w hx => ?_⟩
  have hr : ∀ r, ins.error = some r → SamplesIn W IsFin r := by
    unfold PhysTestEnv.measInstm at hi
    split at hi
    · cases hi
    · split at hi
      · rename_i i hg
        cases hi
        exact (he.instms p _ (Dict.mem_of_get? hg)).1
      · split at hi
        · cases hi
        · cases hi
          exact fun r hr => (nomatch hr)
  have hn : ∃ noisy w1, ins.addNoise xs w = (.ok noisy, w1) ∧ ∀ x ∈ noisy, IsFin x := by
    unfold Instrument.addNoise
    cases he : ins.error with
    | none => exact ⟨xs, w, rfl, hx⟩
    | some r =>
      obtain ⟨es, w1, h1⟩ := hd r he xs.length w
      refine ⟨List.zipWith add xs es, w1, M.bind_ok h1, fun x hxx => ?_⟩
      obtain ⟨j, hj, rfl⟩ := List.mem_iff_getElem.1 hxx
      rw [List.getElem_zipWith]
      exact fin_add (hx _ (List.getElem_mem _)) (hr r he _ _ _ _ h1 _ (List.getElem_mem _))
  obtain ⟨noisy, w1, h1, h2⟩ := hn
  obtain ⟨ys, h3, -⟩ := precision_fin (ins := ins) h2
  refine ⟨ins.applyRange ys, w1, ?_⟩
  unfold Instrument.measureVals
  rw [M.bind_ok h1, h3]
  rfl

/-- The conditions of all steps are finite. -/
def FiniteConditions (steps : List (Step (Ext K))) : Prop :=
  (∀ st, .strs st ∈ steps → EveryEntry (fun _ => IsFin) st.conditions) ∧
  ∀ m, .meas m ∈ steps → EveryEntry (fun _ => IsFin) m.conditions

theorem stepsIn_fin {ord : SetOrder} {dev : DeviceMdl W (Ext K)} {env : PhysTestEnv (Ext K)}
    (he : FiniteEnv W env) {steps : List (Step (Ext K))} (hc : FiniteConditions steps) :
    StepsIn finRanges ord dev env steps where
  stress := fun st hst => ⟨fun q w conds w' h => conds_in (F := fun _ => IsFin) he.vrtn (hc.1 st hst) h,
    fun p d hp k m hm q hq => ⟨fun _ x hx => by
      obtain ⟨a, rfl⟩ := hx
      exact ⟨_, rfl⟩, fun _ => ⟨_, rfl⟩⟩⟩
  measure := fun m hm => ⟨fun q w conds w' h => conds_in (F := fun _ => IsFin) he.vrtn (hc.2 m hm) h,
    fun _ _ _ _ h => h, fun p hp ins hi xs w ys w' hx h => measure_fin he hi hx h⟩

/-- C63 for finite numbers: if all random variables draw finite values, the conditions are finite and the
equations are finite on finite arguments, then no value of the final state and no reading of the report is
infinite or NaN: the search for the equivalent times, the limit for late times, the variations and the
instruments do not introduce any. -/
theorem C63_finite {ord : SetOrder} {dev : DeviceMdl W (Ext K)} (hdev : FiniteDevice dev)
    {env : PhysTestEnv (Ext K)} (he : FiniteEnv W env) {test : TestSpec (Ext K)}
    (hc : FiniteConditions test.steps) {w w' : W} {s : SimState (Ext K)} {r : SimReport (Ext K)}
    (h : simulateFull ord test dev env none w = (.ok (s, r), w')) :
    StateIn finRanges s ∧ ∀ x ∈ r.measurements, ∃ a, x.measured = .fin a :=
  C63_ranges fin_closed hdev.deviceIn (stepsIn_fin he hc) h

/-- C53 for finite numbers: with finite draws, conditions and equations the instruments may round to any
number of significant digits. -/
theorem C53_finite [LawfulRng W (Ext K)] (ord : SetOrder) {dev : DeviceMdl W (Ext K)}
    {N : Nat → Prop} (hdev : DeviceWorks dev N) (hfin : FiniteDevice dev) {env : PhysTestEnv (Ext K)} (he : EnvDraws W env)
    (hfe : FiniteEnv W env) {test : TestSpec (Ext K)} (ht : TestOk dev env test (fun _ => IsFin))
    (hc : FiniteConditions test.steps) (w : W) (hN : TestSizes N test := by intro _ _ _; trivial) :
    ∃ r w', simulate ord test dev env none w = (.ok r, w') ∧
      ∀ x ∈ r.measurements, ∃ a, x.measured = .fin a :=
  C53_ranges (R := finRanges) fin_closed ord hdev hfin.deviceIn he ht (stepsIn_fin hfe hc) w hN

end finite

end Gerabaldi.Props
