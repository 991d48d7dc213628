import Verif.Lemmas.Blind
import Verif.Lemmas.Loop
import Verif.Spec.Streams

/-!
# Two programs in two worlds

`Same R p q`: from related worlds, `p` and `q` have the same result and leave related worlds.
-/

set_option linter.unusedSectionVars false

namespace Gerabaldi
open Gerabaldi Spec

variable {W V α β γ : Type} {R : W → W → Prop}

def Same (R : W → W → Prop) (p q : M W α) : Prop :=
  ∀ w w', R w w' → (p w).1 = (q w').1 ∧ R (p w).2 (q w').2

theorem Blind.same {p : M W α} (h : Blind R p) : Same R p p := h

theorem Same.pure (a : α) : Same R (Pure.pure a : M W α) (Pure.pure a) := fun _ _ h => ⟨rfl, h⟩

theorem Same.ofExcept (x : Except Err α) : Same R (M.ofExcept x : M W α) (M.ofExcept x) := fun _ _ h => ⟨rfl, h⟩

theorem Same.throw (e : Err) : Same R (M.throw e : M W α) (M.throw e) := fun _ _ h => ⟨rfl, h⟩

theorem Same.bind {p p' : M W α} {q q' : α → M W β} (hp : Same R p p') (hq : ∀ a, Same R (q a) (q' a)) :
    Same R (p >>= q) (p' >>= q') := by
  intro w w' h
  obtain ⟨h1, h2⟩ := hp w w' h
  rw [M.bind_run, M.bind_run]
  rcases e : p w with ⟨x, u⟩
  rcases e' : p' w' with ⟨x', u'⟩
  rw [e, e'] at h1 h2
  simp only at h1 h2
  subst h1
  cases x with
  | error e => exact ⟨rfl, h2⟩
  | ok a => exact hq a u u' h2

theorem Same.mapList {f : α → M W β} {f' : γ → M W β} {t : α → γ} {xs : List α}
    (h : ∀ a ∈ xs, Same R (f a) (f' (t a))) : Same R (M.mapList f xs) (M.mapList f' (xs.map t)) := by
  induction xs with
  | nil => exact Same.pure _
  | cons a xs ih =>
    exact (h a List.mem_cons_self).bind fun b =>
      (ih fun c hc => h c (List.mem_cons_of_mem _ hc)).bind fun bs => Same.pure _

theorem Same.forIn' {f : β → α → M W β} {f' : β → γ → M W β} {t : α → γ} {xs : List α}
    (h : ∀ a ∈ xs, ∀ b, Same R (f b a) (f' b (t a))) (b : β) :
    Same R (M.forIn' f xs b) (M.forIn' f' (xs.map t) b) := by
  induction xs generalizing b with
  | nil => exact Same.pure _
  | cons a xs ih =>
    exact (h a List.mem_cons_self b).bind fun b' => ih (fun c hc => h c (List.mem_cons_of_mem _ hc)) b'

theorem Same.forIn {f f' : β → α → M W β} {xs : List α}
    (h : ∀ a ∈ xs, ∀ b, Same R (f b a) (f' b a)) (b : β) :
    Same R (M.forIn' f xs b) (M.forIn' f' xs b) := by
  have := Same.forIn' (t := id) (f' := f') h b
  rwa [List.map_id] at this

theorem forIn'_mapped {f : β → α → M W β} {f' : β → γ → M W β} {t : α → γ} (xs : List α)
    (h : ∀ a ∈ xs, ∀ b, f' b (t a) = f b a) (b : β) : M.forIn' f' (xs.map t) b = M.forIn' f xs b := by
  induction xs generalizing b with
  | nil => rfl
  | cons a xs ih =>
    show (f' b (t a) >>= fun b' => M.forIn' f' (xs.map t) b') = (f b a >>= fun b' => M.forIn' f xs b')
    rw [h a List.mem_cons_self]
    exact congrArg _ (funext fun b' => ih (fun c hc => h c (List.mem_cons_of_mem _ hc)) b')

section over
variable [PyNum V] (g : Nat → Nat)

theorem over_get (dev : DeviceMdl W V) (p : String) : (overDevice g dev).prms.get? p = (dev.prms.get? p).map (overPrm g) :=
  Dict.get?_map (fun _ m => overPrm g m) dev.prms p

theorem over_keys (dev : DeviceMdl W V) : (overDevice g dev).prms.keys = dev.prms.keys := by
  show (dev.prms.map _).map _ = dev.prms.map _
  rw [List.map_map]
  rfl

theorem over_augment (dev : DeviceMdl W V) (devs : Dict Nat) : augment (overDevice g dev) devs = augment dev devs := by
  have : augmentPrm (overDevice g dev) = augmentPrm dev := by
    funext d p
    unfold augmentPrm
    rw [over_get, over_keys]
    cases dev.prms.get? p with
    | none => rfl
    | some m => cases m <;> rfl
  unfold augment
  rw [this]

theorem over_dependencies (ord : SetOrder) (m : PrmMdl W V) (conds : List String) (t : Target) :
    (overPrm g m).dependencies ord conds t = m.dependencies ord conds t := by
  cases m with
  | circ m => rfl
  | deg m =>
    cases t with
    | measure => rfl
    | stress =>
      show ord.order (_ ++ (m.mechs.map _).flatMap _) = ord.order (_ ++ m.mechs.flatMap _)
      rw [List.flatMap_map]
      rfl

theorem over_degPrms (dev : DeviceMdl W V) :
    (overDevice g dev).degPrms = dev.degPrms.map fun kv => (kv.1, overDeg g kv.2) := by
  show (dev.prms.map _).filterMap _ = (dev.prms.filterMap _).map _
  rw [List.filterMap_map, List.map_filterMap]
  congr 1
  funext kv
  obtain ⟨k, m⟩ := kv
  cases m <;> rfl

theorem over_mechs_get (m : DegPrmMdl W V) (k : String) :
    (overDeg g m).mechs.get? k = (m.mechs.get? k).map (overMech g) :=
  Dict.get?_map (fun _ m => overMech g m) m.mechs k

theorem over_stress (q : Quantities) (du : TimeVal) (conds : Dict (Dict (Arr3 V))) (s : SimState V)
    (kv : String × DegPrmMdl W V) : stressPrm q du conds s (kv.1, overDeg g kv.2) = stressPrm q du conds s kv := by
  obtain ⟨p, m⟩ := kv
  have h1 : ∀ L C D dv cs iv lat, (overDeg g m).calcEquivTimes L C D dv cs iv lat = m.calcEquivTimes L C D dv cs iv lat :=
    fun L C D dv cs iv lat => forIn'_mapped _ (fun _ _ _ => rfl) _
  have h2 : ∀ L C D ts cs iv lat dv, (overDeg g m).calcDegVals L C D ts cs iv lat dv = m.calcDegVals L C D ts cs iv lat dv := by
    intro L C D ts cs iv lat dv
    unfold DegPrmMdl.calcDegVals
    have : M.forIn' (DegPrmMdl.degStep ts cs lat dv L C D) (overDeg g m).mechs [] =
        M.forIn' (DegPrmMdl.degStep ts cs lat dv L C D) m.mechs [] := forIn'_mapped _ (fun _ _ _ => rfl) _
    rw [this]
    rfl
  have h3 : ∀ ts, addDurations du (overDeg g m).mechs ts = addDurations du m.mechs ts := by
    intro ts
    have : addDuration du (overDeg g m).mechs = addDuration (V := V) du m.mechs := by
      funext x
      unfold addDuration
      rw [over_mechs_get]
      cases m.mechs.get? x.1 <;> rfl
    unfold addDurations
    rw [this]
  simp only [stressPrm, h1, h2, h3]

theorem over_measure (q : Quantities) (dev : DeviceMdl W V) (step : MeasSpec V) (i : Nat) (s : SimState V)
    (conds : Dict (Dict (Arr3 V))) (prm : String) (n : Nat) :
    measureTrue q (overDevice g dev) step i s conds prm n = measureTrue q dev step i s conds prm n := by
  have hs : ∀ (m : DegPrmMdl W V) L C D cs cur lat,
      (overDeg g m).calcCondShifted L C D cs cur lat = m.calcCondShifted L C D cs cur lat := by
    intro m L C D cs cur lat
    have ha : ∀ a c l, (overDeg g m).shiftArgs a c l = m.shiftArgs a c l := by
      intro a c l
      unfold DegPrmMdl.shiftArgs
      have : ((overDeg g m).mechs.map fun kv => (kv.1, PyVal.scal kv.2.unitary)) =
          (m.mechs.map fun kv => (kv.1, PyVal.scal kv.2.unitary)) := by
        show ((m.mechs.map _).map _) = _
        rw [List.map_map]
        rfl
      rw [this]
      rfl
    unfold DegPrmMdl.calcCondShifted
    simp only [ha]
    rfl
  unfold measureTrue
  rw [over_get]
  cases s.currPrm.get? prm with
  | some cur =>
    cases dev.prms.get? prm with
    | none => rfl
    | some p =>
      cases p with
      | circ m => rfl
      | deg m =>
        simp only [Option.map_some, overPrm, hs]
  | none =>
    cases dev.prms.get? prm with
    | none => rfl
    | some p => cases p <;> rfl

end over

section random
variable [PyNum V] [Rng W V] {g : Nat → Nat}

/-- A random variable and its counterpart. -/
def SameVar (R : W → W → Prop) (g : Nat → Nat) (r : RVar V) : Prop :=
  ∀ n, Same R (r.sample n : M W (List V)) ((overVar g r).sample n)

structure SameLatent (R : W → W → Prop) (g : Nat → Nat) (lv : LatentVar V) : Prop where
  lot : SameVar R g lv.lot
  chp : SameVar R g lv.chp
  dev : SameVar R g lv.dev

theorem SameLatent.gen {lv : LatentVar V} (h : SameLatent R g lv) (D C L : Nat) :
    Same R (lv.genLatentVals D C L : M W (Arr3 V)) ((overLatent g lv).genLatentVals D C L) := by
  refine (h.lot _).bind fun _ => (Same.ofExcept _).bind fun _ => (h.chp _).bind fun _ => (Same.ofExcept _).bind fun _ =>
    (h.dev _).bind fun _ => (Same.ofExcept _).bind fun _ => ?_
  cases hv : lv.deterVal with
  | none =>
    have : (overLatent g lv).deterVal = none := hv
    rw [this]
    exact (Same.pure _).bind fun _ => (Same.ofExcept _).bind fun _ => Same.ofExcept _
  | some v =>
    have : (overLatent g lv).deterVal = some v := hv
    rw [this]
    exact (Same.ofExcept _).bind fun _ => (Same.ofExcept _).bind fun _ => Same.ofExcept _

theorem same_latents {m : LatentMdl W V} (h : ∀ kv ∈ m.latentVars, SameLatent R g kv.2) (D C L : Nat) :
    Same R (m.genLatentVals D C L) ((overModel g m).genLatentVals D C L) :=
  Same.mapList fun kv hkv => ((h kv hkv).gen D C L).bind fun _ => Same.pure _

structure TwinDevice (R : W → W → Prop) (g : Nat → Nat) (dev : DeviceMdl W V) : Prop where
  deg : ∀ kv ∈ dev.prms, ∀ m, kv.2 = .deg m → (∀ lv ∈ m.mdl.latentVars, SameLatent R g lv.2) ∧
    (∀ lv ∈ m.condMdl.latentVars, SameLatent R g lv.2) ∧ (∀ lv ∈ m.initMdl.latentVars, SameLatent R g lv.2) ∧
    (∀ mech ∈ m.mechs, ∀ lv ∈ mech.2.mdl.latentVars, SameLatent R g lv.2) ∧ BlindFun R m.initMdl.compute
  circ : ∀ kv ∈ dev.prms, ∀ m, kv.2 = .circ m → ∀ lv ∈ m.latentVars, SameLatent R g lv.2

theorem same_devInit {dev : DeviceMdl W V} (h : TwinDevice R g dev) (counts : Dict Nat) (C L : Nat) :
    Same R (dev.genInitState counts C L) ((overDevice g dev).genInitState counts C L) := by
  refine Same.bind (Same.forIn' (fun kv hkv acc => ?_) _) fun _ => Same.pure _
  refine (Same.ofExcept _).bind fun n => Same.bind ?_ fun lat => ?_
  · unfold PrmMdl.genLatentVals
    rcases hp : kv.2 with m | m
    · obtain ⟨h1, h2, h3, h4, -⟩ := h.deg kv hkv m hp
      refine (same_latents h2 _ _ _).bind fun c => Same.bind (Same.forIn' (fun mk hmk d => ?_) _) fun d =>
        (same_latents h1 _ _ _).bind fun _ => Same.pure _
      exact (same_latents (h4 mk hmk) _ _ _).bind fun _ => Same.pure _
    · exact (same_latents (h.circ kv hkv m hp) _ _ _).bind fun _ => Same.pure _
  · unfold PrmMdl.addInit
    rcases hp : kv.2 with m | m
    · obtain ⟨h1, h2, h3, h4, h5⟩ := h.deg kv hkv m hp
      refine (Same.ofExcept _).bind fun _ => ((same_latents h3 _ _ _).bind fun _ => (h5.invoke _).same).bind fun v => ?_
      have : (overDeg g m).genInitMechVals n C L = m.genInitMechVals n C L := by
        show ((m.mechs.map _).map _) = m.mechs.map _
        rw [List.map_map]
        rfl
      simp only [this]
      exact Same.pure _
    · exact Same.pure _

theorem same_genInit {dev : DeviceMdl W V} (h : TwinDevice R g dev) (counts : Option (Dict Nat)) (C L : Nat)
    (info : Option Quantities) (e : TimeVal) :
    Same R (genInitState dev counts C L info e) (genInitState (overDevice g dev) counts C L info e) := by
  unfold genInitState
  have hf : ∀ d C L, Same R (genInitFrom dev d C L e) (genInitFrom (overDevice g dev) d C L e) := by
    intro d C L
    unfold genInitFrom
    rw [over_augment]
    exact (same_devInit h _ _ _).bind fun _ => Same.pure _
  simp only [over_augment]
  split
  · exact (hf _ _ _).bind fun _ => Same.pure _
  · exact (hf _ _ _).bind fun _ => Same.pure _
  · exact (hf _ _ _).bind fun _ => Same.pure _
  · exact Same.throw _

structure SameVrtn (R : W → W → Prop) (g : Nat → Nat) (m : EnvVrtnMdl V) : Prop where
  batch : SameVar R g m.batch
  chp : SameVar R g m.chp
  dev : SameVar R g m.dev

theorem SameVrtn.genBatch {m : EnvVrtnMdl V} (h : SameVrtn R g m) (b : V) :
    Same R (m.genBatch b : M W V) ((overVrtn g m).genBatch b) :=
  (h.batch _).bind fun _ => (Same.ofExcept _).bind fun _ => Same.pure _

theorem SameVrtn.genChp {m : EnvVrtnMdl V} (h : SameVrtn R g m) (b : V) (C L : Nat) :
    Same R (m.genChp b C L : M W (Arr3 V)) ((overVrtn g m).genChp b C L) :=
  (h.chp _).bind fun _ => (Same.ofExcept _).bind fun _ => Same.pure _

theorem SameVrtn.genDev {m : EnvVrtnMdl V} (h : SameVrtn R g m) (b : Arr3 V) (D : Nat) :
    Same R (m.genDev b D : M W (Arr3 V)) ((overVrtn g m).genDev b D) :=
  (h.dev _).bind fun _ => (Same.ofExcept _).bind fun _ => Same.ofExcept _

/-- The model of a condition: given, or ideal. -/
theorem over_vrtnMdl {env : PhysTestEnv V} (h : ∀ kv ∈ env.vars, SameVrtn R g kv.2) (k : String) :
    ((overEnv g env).vrtnMdl k = overVrtn g (env.vrtnMdl k) ∧ SameVrtn R g (env.vrtnMdl k)) ∨
      ((overEnv g env).vrtnMdl k = EnvVrtnMdl.ideal ∧ env.vrtnMdl k = EnvVrtnMdl.ideal) := by
  have e : (overEnv g env).vars.get? k = (env.vars.get? k).map (overVrtn g) :=
    Dict.get?_map (fun _ m => overVrtn g m) env.vars k
  unfold PhysTestEnv.vrtnMdl
  rw [e]
  cases hk : env.vars.get? k with
  | none => exact .inr ⟨rfl, rfl⟩
  | some m => exact .inl ⟨rfl, h (k, m) (Dict.mem_of_get? hk)⟩

theorem same_batch {env : PhysTestEnv V} (h : ∀ kv ∈ env.vars, SameVrtn R g kv.2) (k : String) (b : V) :
    Same R ((env.vrtnMdl k).genBatch b : M W V) (((overEnv g env).vrtnMdl k).genBatch b) := by
  rcases over_vrtnMdl h k with ⟨e, s⟩ | ⟨e, e'⟩
  · rw [e]; exact s.genBatch b
  · rw [e, e']; exact (blind_ideal.genBatch b).same

theorem same_chp {env : PhysTestEnv V} (h : ∀ kv ∈ env.vars, SameVrtn R g kv.2) (k : String) (b : V) (C L : Nat) :
    Same R ((env.vrtnMdl k).genChp b C L : M W (Arr3 V)) (((overEnv g env).vrtnMdl k).genChp b C L) := by
  rcases over_vrtnMdl h k with ⟨e, s⟩ | ⟨e, e'⟩
  · rw [e]; exact s.genChp b C L
  · rw [e, e']; exact (blind_ideal.genChp b C L).same

theorem same_dev {env : PhysTestEnv V} (h : ∀ kv ∈ env.vars, SameVrtn R g kv.2) (k : String) (b : Arr3 V) (D : Nat) :
    Same R ((env.vrtnMdl k).genDev b D : M W (Arr3 V)) (((overEnv g env).vrtnMdl k).genDev b D) := by
  rcases over_vrtnMdl h k with ⟨e, s⟩ | ⟨e, e'⟩
  · rw [e]; exact s.genDev b D
  · rw [e, e']; exact (blind_ideal.genDev b D).same

theorem same_conds {env : PhysTestEnv V} (h : ∀ kv ∈ env.vars, SameVrtn R g kv.2) (ord : SetOrder) (base : Dict V)
    (prms : PrmSel) (info : Option Quantities) (dev : DeviceMdl W V) (target : Target) (C L : Nat) :
    Same R (env.genEnvCondVals ord base prms info (some dev) target C L)
      ((overEnv g env).genEnvCondVals ord base prms info (some (overDevice g dev)) target C L) := by
  refine Same.bind (Same.forIn (fun kv _ acc => ?_) _) fun shared => (Same.ofExcept _).bind fun counts =>
    Same.forIn (fun p _ acc => Same.bind ?_ fun _ => Same.pure _) _
  · exact (same_batch h _ _).bind fun _ => (same_chp h _ _ _ _).bind fun _ => Same.pure _
  · unfold PhysTestEnv.genPrmConds
    simp only [Option.bind_some, over_get]
    cases dev.prms.get? p with
    | none =>
      exact (Same.ofExcept _).bind fun _ => (Same.ofExcept _).bind fun _ => (same_chp h _ _ _ _).bind
        fun _ => (same_dev h _ _ _).bind fun _ => Same.pure _
    | some pm =>
      simp only [Option.map_some, over_dependencies]
      refine Same.forIn (fun k _ d => ?_) _
      exact (Same.ofExcept _).bind fun _ => (Same.ofExcept _).bind fun _ => (same_dev h _ _ _).bind
        fun _ => Same.pure _

theorem same_rows {ins : Instrument V} (h : ∀ r, ins.error = some r → SameVar R g r) (rows : List (MeasRow V)) :
    Same R (readRows ins rows : M W (List (MeasRow V))) (readRows (overInstm g ins) rows) := by
  obtain ⟨prec, err, range⟩ := ins
  refine Same.bind (Same.bind ?_ fun noisy => (Same.ofExcept _).bind fun _ => Same.pure _) fun ys => Same.pure _
  cases err with
  | none => exact Same.pure _
  | some r => exact (h r rfl _).bind fun _ => Same.pure _

theorem same_measInstm {env : PhysTestEnv V} (h : ∀ kv ∈ env.instms, ∀ r, kv.2.error = some r → SameVar R g r) (p : String) :
    (∃ e, env.measInstm p = .error e ∧ (overEnv g env).measInstm p = .error e) ∨
      ∃ ins, env.measInstm p = .ok ins ∧ (overEnv g env).measInstm p = .ok (overInstm g ins) ∧
        ∀ r, ins.error = some r → SameVar R g r := by
  have e : ∀ k, (overEnv g env).instms.get? k = (env.instms.get? k).map (overInstm g) :=
    Dict.get?_map (fun _ m => overInstm g m) env.instms
  have e' : (overEnv g env).instms.has "meas" = env.instms.has "meas" := by
    show ((overEnv g env).instms.get? "meas").isSome = (env.instms.get? "meas").isSome
    rw [e]
    cases env.instms.get? "meas" <;> rfl
  unfold PhysTestEnv.measInstm
  rw [e, e']
  cases env.instms.has "meas" with
  | true => exact .inl ⟨_, rfl, rfl⟩
  | false =>
    cases hp : env.instms.get? p with
    | some ins => exact .inr ⟨ins, rfl, rfl, h (p, ins) (Dict.mem_of_get? hp)⟩
    | none =>
      by_cases hm : p = "meas"
      · exact .inl ⟨_, if_pos hm, if_pos hm⟩
      · exact .inr ⟨{}, if_neg hm, if_neg hm, fun r hr => nomatch hr⟩

/-- Everything random in a set-up and its counterpart. -/
structure SameSetup (R : W → W → Prop) (g : Nat → Nat) (dev : DeviceMdl W V) (env : PhysTestEnv V) : Prop where
  device : TwinDevice R g dev
  stress : ∀ kv ∈ dev.degPrms, BlindDeg R kv.2
  equations : BlindEquations R dev
  vars : ∀ kv ∈ env.vars, SameVrtn R g kv.2
  errors : ∀ kv ∈ env.instms, ∀ r, kv.2.error = some r → SameVar R g r

variable {dev : DeviceMdl W V} {env : PhysTestEnv V}

theorem same_step (h : SameSetup R g dev env) (ord : SetOrder) (is : Nat × Step V) (sr : SimState V × SimReport V) :
    Same R (simStep ord dev env sr is) (simStep ord (overDevice g dev) (overEnv g env) sr is) := by
  obtain ⟨i, st⟩ := is
  cases st with
  | other d => exact Same.pure _
  | strs st =>
    show Same R (simStress ord dev env st i sr) (simStress ord (overDevice g dev) (overEnv g env) st i sr)
    unfold simStress
    have hk : (overDevice g dev).degPrms.map (·.1) = dev.degPrms.map (·.1) := by
      rw [over_degPrms, List.map_map]
      rfl
    rw [hk]
    refine (same_conds h.vars _ _ _ _ _ _ _ _).bind fun conds => Same.bind ?_ fun s =>
      (Same.ofExcept _).bind fun _ => (Same.ofExcept _).bind fun _ => Same.pure _
    rw [over_degPrms]
    refine Same.forIn' (fun kv hkv s => ?_) _
    rw [over_stress]
    exact (blind_stressPrm (h.stress kv hkv)).same
  | meas m =>
    refine (same_conds h.vars _ _ _ _ _ _ _ _).bind fun conds => Same.bind (Same.forIn (fun kv _ acc => ?_) _)
      fun rows => Same.pure _
    unfold measurePrm
    rw [over_measure]
    refine (blind_measureTrue h.equations _ _ _ _ _ _ _).same.bind fun rows => ?_
    rcases same_measInstm h.errors kv.1 with ⟨e, h1, h2⟩ | ⟨ins, h1, h2, h3⟩
    · rw [h1, h2]
      exact Same.throw _
    · rw [h1, h2]
      exact (same_rows h3 rows).bind fun _ => Same.pure _

/-- The whole simulation. -/
theorem same_simulate (h : SameSetup R g dev env) (ord : SetOrder) (test : TestSpec V) (init : Option (SimState V)) :
    Same R (simulate ord test dev env init) (simulate ord test (overDevice g dev) (overEnv g env) init) := by
  refine Same.bind (Same.bind ?_ fun sr => Same.forIn (fun is _ sr => same_step h ord is sr) _) fun _ => Same.pure _
  cases init with
  | some s => exact Same.pure _
  | none => exact (same_genInit h.device _ _ _ _ _).bind fun r => (Same.ofExcept _).bind fun _ => Same.pure _

end random

end Gerabaldi
