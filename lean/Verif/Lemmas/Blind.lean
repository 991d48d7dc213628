import Verif.Model.Sim

/-!
# Programs that treat related worlds alike

`R` relates worlds, for example worlds that differ only in some generators. A program is blind if it has the same
result in related worlds and leaves related worlds.
-/

namespace Gerabaldi
open Gerabaldi

variable {W V α β : Type} {R : W → W → Prop}

/-- Same result, related worlds. -/
def Blind (R : W → W → Prop) (p : M W α) : Prop :=
  ∀ w w', R w w' → (p w).1 = (p w').1 ∧ R (p w).2 (p w').2

theorem Blind.pure (a : α) : Blind R (Pure.pure a : M W α) := fun _ _ h => ⟨rfl, h⟩

theorem Blind.ofExcept (x : Except Err α) : Blind R (M.ofExcept x : M W α) := fun _ _ h => ⟨rfl, h⟩

theorem Blind.throw (e : Err) : Blind R (M.throw e : M W α) := fun _ _ h => ⟨rfl, h⟩

theorem Blind.bind {p : M W α} {q : α → M W β} (hp : Blind R p) (hq : ∀ a, Blind R (q a)) : Blind R (p >>= q) := by
  intro w w' h
  obtain ⟨h1, h2⟩ := hp w w' h
  rw [M.bind_run, M.bind_run]
  rcases e : p w with ⟨x, u⟩
  rcases e' : p w' with ⟨x', u'⟩
  rw [e, e'] at h1 h2
  simp only at h1 h2
  subst h1
  cases x with
  | error e => exact ⟨rfl, h2⟩
  | ok a => exact hq a u u' h2

theorem Blind.catch {p q : M W α} (hp : Blind R p) (hq : Blind R q) : Blind R (M.catchValueError p q) := by
  intro w w' h
  obtain ⟨h1, h2⟩ := hp w w' h
  have aux : ∀ r r' : Except Err α × W, r.1 = r'.1 → R r.2 r'.2 →
      (match r with | (.error .valueError, u) => q u | r => r).1 = (match r' with | (.error .valueError, u) => q u | r => r).1 ∧
      R (match r with | (.error .valueError, u) => q u | r => r).2 (match r' with | (.error .valueError, u) => q u | r => r).2 := by
    rintro ⟨x, u⟩ ⟨x', u'⟩ e e'
    simp only at e e'
    subst e
    cases x with
    | ok a => exact ⟨rfl, e'⟩
    | error e =>
      cases e <;> first
        | exact hq u u' e'
        | exact ⟨rfl, e'⟩
  exact aux _ _ h1 h2

theorem Blind.mapList {f : α → M W β} {xs : List α} (h : ∀ a ∈ xs, Blind R (f a)) : Blind R (M.mapList f xs) := by
  induction xs with
  | nil => exact Blind.pure _
  | cons a xs ih =>
    exact (h a List.mem_cons_self).bind fun b =>
      (ih fun c hc => h c (List.mem_cons_of_mem _ hc)).bind fun bs => Blind.pure _

theorem Blind.forIn' {f : β → α → M W β} {xs : List α} (h : ∀ a ∈ xs, ∀ b, Blind R (f b a)) (b : β) :
    Blind R (M.forIn' f xs b) := by
  induction xs generalizing b with
  | nil => exact Blind.pure _
  | cons a xs ih =>
    exact (h a List.mem_cons_self b).bind fun b' => ih (fun c hc => h c (List.mem_cons_of_mem _ hc)) b'

section functions

/-- An equation. -/
def BlindFun (R : W → W → Prop) (f : PyFun W V) : Prop := ∀ args, Blind R (f.call args)

theorem BlindFun.invoke {f : PyFun W V} (h : BlindFun R f) (args : Dict (PyVal V)) : Blind R (f.invoke args) := by
  unfold PyFun.invoke
  split_ifs
  · exact h args
  · exact Blind.throw _

theorem BlindFun.loop [Inhabited V] {f : PyFun W V} (h : BlindFun R f) (args : Dict (PyVal V)) (L C D : Nat) :
    Blind R (loopCompute f args L C D) := by
  refine Blind.bind (Blind.mapList fun p _ => ?_) fun _ => Blind.ofExcept _
  refine Blind.bind (Blind.ofExcept _) fun a => Blind.bind (h.invoke a) fun r => ?_
  cases r with
  | scal v => exact Blind.pure v
  | npscal v => exact Blind.pure v
  | arr a => exact Blind.throw _

end functions

section
variable [PyNum V]

theorem BlindFun.orLoop {f : PyFun W V} (h : BlindFun R f) (args : Dict (PyVal V)) (L C D : Nat) :
    Blind R (computeOrLoop f args L C D) :=
  Blind.catch (h.invoke args) ((h.loop args L C D).bind fun _ => Blind.pure _)

theorem Blind.minLoop {c : MinCfg V} {func : List V → M W (List V)} (h : ∀ xs, Blind R (func xs)) (k : Nat)
    (ss : List (BState V)) : Blind R (minLoop c func k ss) := by
  induction k generalizing ss with
  | zero => exact Blind.pure _
  | succ k ih =>
    unfold Gerabaldi.minLoop
    split_ifs
    · exact Blind.pure _
    · refine (h _).bind fun fus => ?_
      split_ifs
      · exact ih _
      · exact Blind.throw _

theorem Blind.minimize {c : MinCfg V} {func : List V → M W (List V)} (h : ∀ xs, Blind R (func xs)) (n : Nat) :
    Blind R (minimize c func n) := by
  refine (h _).bind fun fs => ?_
  split_ifs
  · exact (Blind.minLoop h _ _).bind fun _ => Blind.pure _
  · exact Blind.throw _

/-- A mechanism's equation. -/
theorem blind_degVals {m : MechMdl W V} (h : BlindFun R m.mdl.compute) (times pre : Arr3 V)
    (conds lat : Dict (Arr3 V)) (L C D : Nat) : Blind R (m.calcDegVals times pre conds lat L C D) := by
  have base : Blind R (m.calcDegBase times pre conds lat L C D) :=
    (Blind.ofExcept _).bind fun _ => (h.orLoop _ L C D).bind fun _ => Blind.ofExcept _
  unfold MechMdl.calcDegVals
  cases m.kind with
  | deg => exact base
  | base => exact base
  | fail => exact base.bind fun _ => Blind.ofExcept _

theorem blind_equiv {m : MechMdl W V} (h : BlindFun R m.mdl.compute) (cur : Arr3 V) (conds lat : Dict (Arr3 V))
    (L C D : Nat) : Blind R (m.calcEquiv cur conds lat L C D) := by
  unfold MechMdl.calcEquiv
  cases m.kind with
  | fail => exact Blind.pure _
  | base => exact Blind.throw _
  | deg =>
    refine Blind.bind (Blind.minimize (fun xs => ?_) _) fun _ => Blind.ofExcept _
    refine Blind.bind (Blind.ofExcept _) fun t => Blind.bind ?_ fun _ => Blind.pure _
    exact Blind.catch ((h.invoke _).bind fun _ => Blind.ofExcept _) ((h.loop _ L C D).bind fun _ => Blind.ofExcept _)

/-- The equations of a degrading parameter. -/
structure BlindDeg (R : W → W → Prop) (m : DegPrmMdl W V) : Prop where
  own : BlindFun R m.mdl.compute
  cond : BlindFun R m.condMdl.compute
  init : BlindFun R m.initMdl.compute
  mechs : ∀ kv ∈ m.mechs, BlindFun R kv.2.mdl.compute

theorem blind_stressPrm {q : Quantities} {du : TimeVal} {conds : Dict (Dict (Arr3 V))} {s : SimState V}
    {kv : String × DegPrmMdl W V} (h : BlindDeg R kv.2) : Blind R (stressPrm q du conds s kv) := by
  refine (Blind.ofExcept _).bind fun n => (Blind.ofExcept _).bind fun cur => (Blind.ofExcept _).bind fun cs =>
    (Blind.ofExcept _).bind fun im => (Blind.ofExcept _).bind fun lat => Blind.bind ?_ fun eq0 =>
    (Blind.ofExcept _).bind fun times => (Blind.ofExcept _).bind fun ip => Blind.bind ?_ fun r => Blind.pure _
  · refine Blind.forIn' (fun mk hmk acc => ?_) _
    exact (Blind.ofExcept _).bind fun _ => (Blind.ofExcept _).bind fun _ => (Blind.ofExcept _).bind fun _ =>
      (blind_equiv (h.mechs mk hmk) _ _ _ _ _ _).bind fun _ => Blind.pure _
  · refine Blind.bind (Blind.forIn' (fun mk hmk acc => ?_) _) fun mv => (h.own.orLoop _ _ _ _).bind fun _ => Blind.pure _
    exact (Blind.ofExcept _).bind fun _ => (Blind.ofExcept _).bind fun _ => (Blind.ofExcept _).bind fun _ =>
      (blind_degVals (h.mechs mk hmk) _ _ _ _ _ _ _).bind fun _ => Blind.pure _

/-- The equations of a device. -/
structure BlindEquations (R : W → W → Prop) (dev : DeviceMdl W V) : Prop where
  deg : ∀ p m, dev.prms.get? p = some (.deg m) → BlindDeg R m
  circ : ∀ p m, dev.prms.get? p = some (.circ m) → BlindFun R m.compute

theorem blind_measureTrue {dev : DeviceMdl W V} (h : BlindEquations R dev) (q : Quantities) (step : MeasSpec V) (i : Nat)
    (s : SimState V) (conds : Dict (Dict (Arr3 V))) (prm : String) (n : Nat) :
    Blind R (measureTrue q dev step i s conds prm n) := by
  unfold measureTrue
  cases hc : s.currPrm.get? prm with
  | some cur =>
    cases hp : dev.prms.get? prm with
    | none => exact Blind.throw _
    | some p =>
      cases p with
      | circ m => exact Blind.throw _
      | deg m =>
        refine (Blind.ofExcept _).bind fun cs => (Blind.ofExcept _).bind fun lat => Blind.bind ?_ fun v => Blind.ofExcept _
        unfold DegPrmMdl.calcCondShifted
        cases cur with
        | arr a =>
          exact (Blind.ofExcept _).bind fun _ => ((h.deg prm m hp).cond.orLoop _ _ _ _).bind fun _ =>
            (h.deg prm m hp).own.orLoop _ _ _ _
        | scal v => exact Blind.throw _
        | npscal v => exact Blind.throw _
  | none =>
    cases hp : dev.prms.get? prm with
    | none =>
      show Blind R (if step.conditions.has prm then _ else _)
      split_ifs
      · exact (Blind.ofExcept _).bind fun _ => (Blind.ofExcept _).bind fun _ => Blind.ofExcept _
      · exact Blind.throw _
    | some p =>
      cases p with
      | deg m => exact Blind.throw _
      | circ m =>
        exact (Blind.ofExcept _).bind fun _ => (Blind.ofExcept _).bind fun _ =>
          (((h.circ prm m hp).invoke _).bind fun _ => Blind.ofExcept _).bind fun _ => Blind.ofExcept _

end

section random
variable [PyNum V] [Rng W V]

/-- A random variable. -/
def BlindVar (R : W → W → Prop) (r : RVar V) : Prop := ∀ n, Blind R (r.sample n : M W (List V))

/-- The layers of a latent variable. -/
structure BlindLatent (R : W → W → Prop) (lv : LatentVar V) : Prop where
  lot : BlindVar R lv.lot
  chp : BlindVar R lv.chp
  dev : BlindVar R lv.dev

theorem BlindLatent.gen {lv : LatentVar V} (h : BlindLatent R lv) (D C L : Nat) :
    Blind R (lv.genLatentVals D C L : M W (Arr3 V)) := by
  refine (h.lot _).bind fun _ => (Blind.ofExcept _).bind fun _ => (h.chp _).bind fun _ => (Blind.ofExcept _).bind fun _ =>
    (h.dev _).bind fun _ => (Blind.ofExcept _).bind fun _ => ?_
  cases lv.deterVal with
  | none => exact (Blind.pure _).bind fun _ => (Blind.ofExcept _).bind fun _ => Blind.ofExcept _
  | some v => exact (Blind.ofExcept _).bind fun _ => (Blind.ofExcept _).bind fun _ => Blind.ofExcept _

theorem blind_latents {m : LatentMdl W V} (h : ∀ kv ∈ m.latentVars, BlindLatent R kv.2) (D C L : Nat) :
    Blind R (m.genLatentVals D C L) :=
  Blind.mapList fun kv hkv => ((h kv hkv).gen D C L).bind fun _ => Blind.pure _

/-- All latent variables of a device. -/
structure BlindLatents (R : W → W → Prop) (dev : DeviceMdl W V) : Prop where
  deg : ∀ kv ∈ dev.prms, ∀ m, kv.2 = .deg m → (∀ lv ∈ m.mdl.latentVars, BlindLatent R lv.2) ∧
    (∀ lv ∈ m.condMdl.latentVars, BlindLatent R lv.2) ∧ (∀ lv ∈ m.initMdl.latentVars, BlindLatent R lv.2) ∧
    (∀ mech ∈ m.mechs, ∀ lv ∈ mech.2.mdl.latentVars, BlindLatent R lv.2) ∧ BlindFun R m.initMdl.compute
  circ : ∀ kv ∈ dev.prms, ∀ m, kv.2 = .circ m → ∀ lv ∈ m.latentVars, BlindLatent R lv.2

theorem blind_devInit {dev : DeviceMdl W V} (h : BlindLatents R dev) (counts : Dict Nat) (C L : Nat) :
    Blind R (dev.genInitState counts C L) := by
  refine Blind.bind (Blind.forIn' (fun kv hkv acc => ?_) _) fun _ => Blind.pure _
  refine (Blind.ofExcept _).bind fun n => Blind.bind ?_ fun lat => ?_
  · unfold PrmMdl.genLatentVals
    rcases hp : kv.2 with m | m
    · obtain ⟨h1, h2, h3, h4, -⟩ := h.deg kv hkv m hp
      refine (blind_latents h2 _ _ _).bind fun c => Blind.bind (Blind.forIn' (fun mk hmk d => ?_) _) fun d =>
        (blind_latents h1 _ _ _).bind fun _ => Blind.pure _
      exact (blind_latents (h4 mk hmk) _ _ _).bind fun _ => Blind.pure _
    · exact (blind_latents (h.circ kv hkv m hp) _ _ _).bind fun _ => Blind.pure _
  · unfold PrmMdl.addInit
    rcases hp : kv.2 with m | m
    · obtain ⟨h1, h2, h3, h4, h5⟩ := h.deg kv hkv m hp
      exact (Blind.ofExcept _).bind fun _ =>
        ((blind_latents h3 _ _ _).bind fun _ => h5.invoke _).bind fun _ => Blind.pure _
    · exact Blind.pure _

theorem blind_genInit {dev : DeviceMdl W V} (h : BlindLatents R dev) (counts : Option (Dict Nat)) (C L : Nat)
    (info : Option Quantities) (e : TimeVal) : Blind R (genInitState dev counts C L info e) := by
  unfold genInitState
  have hf : ∀ d C L, Blind R (genInitFrom dev d C L e) := fun d C L => (blind_devInit h _ _ _).bind fun _ => Blind.pure _
  split
  · exact (hf _ _ _).bind fun _ => Blind.pure _
  · exact (hf _ _ _).bind fun _ => Blind.pure _
  · exact (hf _ _ _).bind fun _ => Blind.pure _
  · exact Blind.throw _

/-- A variation model. -/
structure BlindVrtn (R : W → W → Prop) (m : EnvVrtnMdl V) : Prop where
  batch : BlindVar R m.batch
  chp : BlindVar R m.chp
  dev : BlindVar R m.dev

theorem blind_ideal : BlindVrtn R (EnvVrtnMdl.ideal : EnvVrtnMdl V) :=
  ⟨fun _ => Blind.pure _, fun _ => Blind.pure _, fun _ => Blind.pure _⟩

theorem blind_vrtnMdl {env : PhysTestEnv V} (h : ∀ kv ∈ env.vars, BlindVrtn R kv.2) (k : String) :
    BlindVrtn R (env.vrtnMdl k) := by
  unfold PhysTestEnv.vrtnMdl
  cases hk : env.vars.get? k with
  | none => exact blind_ideal
  | some m => exact h (k, m) (Dict.mem_of_get? hk)

theorem BlindVrtn.genBatch {m : EnvVrtnMdl V} (h : BlindVrtn R m) (b : V) : Blind R (m.genBatch b : M W V) :=
  (h.batch _).bind fun _ => (Blind.ofExcept _).bind fun _ => Blind.pure _

theorem BlindVrtn.genChp {m : EnvVrtnMdl V} (h : BlindVrtn R m) (b : V) (C L : Nat) :
    Blind R (m.genChp b C L : M W (Arr3 V)) :=
  (h.chp _).bind fun _ => (Blind.ofExcept _).bind fun _ => Blind.pure _

theorem BlindVrtn.genDev {m : EnvVrtnMdl V} (h : BlindVrtn R m) (b : Arr3 V) (D : Nat) :
    Blind R (m.genDev b D : M W (Arr3 V)) :=
  (h.dev _).bind fun _ => (Blind.ofExcept _).bind fun _ => Blind.ofExcept _

theorem blind_conds {env : PhysTestEnv V} (h : ∀ kv ∈ env.vars, BlindVrtn R kv.2) (ord : SetOrder) (base : Dict V)
    (prms : PrmSel) (info : Option Quantities) (dev : Option (DeviceMdl W V)) (target : Target) (C L : Nat) :
    Blind R (env.genEnvCondVals ord base prms info dev target C L) := by
  refine Blind.bind (Blind.forIn' (fun kv _ acc => ?_) _) fun shared => (Blind.ofExcept _).bind fun counts =>
    Blind.forIn' (fun p _ acc => Blind.bind ?_ fun _ => Blind.pure _) _
  · exact ((blind_vrtnMdl h _).genBatch _).bind fun _ => ((blind_vrtnMdl h _).genChp _ _ _).bind fun _ => Blind.pure _
  · unfold PhysTestEnv.genPrmConds
    cases dev.bind fun d => d.prms.get? p with
    | none =>
      exact (Blind.ofExcept _).bind fun _ => (Blind.ofExcept _).bind fun _ => ((blind_vrtnMdl h _).genChp _ _ _).bind
        fun _ => ((blind_vrtnMdl h _).genDev _ _).bind fun _ => Blind.pure _
    | some pm =>
      refine Blind.forIn' (fun k _ d => ?_) _
      exact (Blind.ofExcept _).bind fun _ => (Blind.ofExcept _).bind fun _ => ((blind_vrtnMdl h _).genDev _ _).bind
        fun _ => Blind.pure _

theorem blind_stress {dev : DeviceMdl W V} {env : PhysTestEnv V} (he : ∀ kv ∈ env.vars, BlindVrtn R kv.2)
    (hd : ∀ kv ∈ dev.degPrms, BlindDeg R kv.2) (ord : SetOrder) (step : StrsSpec V) (i : Nat)
    (sr : SimState V × SimReport V) : Blind R (simStress ord dev env step i sr) := by
  refine (blind_conds he _ _ _ _ _ _ _ _).bind fun conds => Blind.bind (Blind.forIn' (fun kv hkv s => ?_) _) fun s =>
    (Blind.ofExcept _).bind fun _ => (Blind.ofExcept _).bind fun _ => Blind.pure _
  exact blind_stressPrm (hd kv hkv)

end random

end Gerabaldi
