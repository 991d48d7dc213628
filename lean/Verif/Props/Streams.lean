import Verif.Lemmas.Streams
import Verif.Props.Seeds
import Verif.Spec.ExampleDevice

/-! # C98: a simulation depends on its own generators only, and seeds make it repeatable -/

set_option linter.unusedSectionVars false

namespace Gerabaldi.Props
open Gerabaldi Gerabaldi.Spec

variable {S V : Type} [PyNum V] [BitGen S V] {G : Set Nat} {g : Nat → Nat}

theorem within_function {W : Type} {R : W → W → Prop} {m : LatentMdl W V} (h : ModelWithin G m) : BlindFun R m.compute := by
  intro args
  obtain ⟨e, he⟩ := h.eqn args
  rw [he]
  exact Blind.ofExcept _

section setup
variable {W : Type} [Rng W V] {R : W → W → Prop} {dev : DeviceMdl W V} {env : PhysTestEnv V}

theorem within_latents (hv : ∀ r : RVar V, DrawsFrom G r → SameVar R g r) {m : LatentMdl W V} (h : ModelWithin G m) :
    ∀ lv ∈ m.latentVars, SameLatent R g lv.2 := fun lv hlv =>
  ⟨hv _ (h.latents lv hlv).1, hv _ (h.latents lv hlv).2.1, hv _ (h.latents lv hlv).2.2⟩

/-- If every variable within `G` has a counterpart, so has the set-up. -/
theorem within_setup (hv : ∀ r : RVar V, DrawsFrom G r → SameVar R g r) (h : SetupWithin G dev env) : SameSetup R g dev env := by
  have hdeg : ∀ kv ∈ dev.prms, ∀ m, kv.2 = .deg m → BlindDeg R m := fun kv hkv m hm => by
    obtain ⟨h1, h2, h3, h4⟩ := h.deg kv hkv m hm
    exact ⟨within_function h1, within_function h2, within_function h3, fun k hk => within_function (h4 k hk)⟩
  refine ⟨⟨fun kv hkv m hm => ?_, fun kv hkv m hm => within_latents hv (h.circ kv hkv m hm)⟩, fun kv hkv => ?_,
    ⟨fun p m hm => hdeg _ (Dict.mem_of_get? hm) m rfl, fun p m hm => within_function (h.circ _ (Dict.mem_of_get? hm) m rfl)⟩,
    fun kv hkv => ⟨hv _ (h.vars kv hkv).1, hv _ (h.vars kv hkv).2.1, hv _ (h.vars kv hkv).2.2⟩,
    fun kv hkv r hr => hv _ (h.errors kv hkv r hr)⟩
  · obtain ⟨h1, h2, h3, h4⟩ := h.deg kv hkv m hm
    exact ⟨within_latents hv h1, within_latents hv h2, within_latents hv h3, fun k hk => within_latents hv (h4 k hk),
      within_function h3⟩
  · obtain ⟨⟨k, m⟩, hm, he⟩ := List.mem_filterMap.1 hkv
    cases m with
    | circ m => cases he
    | deg m =>
      cases he
      exact hdeg _ hm m rfl

end setup

/-! ## Own generators -/

theorem sample_same (hg : Set.InjOn g G) (r : RVar V) (hr : DrawsFrom G r) :
    SameVar (SameStreams (S := S) G g) g r := by
  intro n w w' hw
  rcases hr with hr | ⟨v, hv⟩
  · obtain ⟨s, h1, h2⟩ := sample_own r n w
    obtain ⟨s', h1', h2'⟩ := sample_own (overVar g r) n w'
    have e : w'.states (overVar g r).id = w.states r.id := hw _ hr
    have e' : (overVar g r).dist = r.dist := rfl
    rw [e, e'] at h1' h2'
    rw [h2] at h2'
    cases h2'
    rw [h1, h1']
    refine ⟨rfl, fun i hi => ?_⟩
    show (if g i = g r.id then s else w'.states (g i)) = if i = r.id then s else w.states i
    by_cases hir : i = r.id
    · rw [if_pos hir, if_pos (congrArg g hir)]
    · rw [if_neg hir, if_neg fun h => hir (hg hi hr h)]
      exact hw i hi
  · obtain ⟨id, d, name⟩ := r
    cases hv
    exact ⟨rfl, hw⟩

variable {dev : DeviceMdl (Gens S) V} {env : PhysTestEnv V}

/-- **C98**: the report (or exception) depends on nothing but the states of the generators of the set-up's own random
variables. The same set-up made of other random variable objects, whose generators are in the same states, gives the
same report in any other world. -/
theorem C98_own (h : SetupWithin G dev env) (hg : Set.InjOn g G) {w w' : Gens S} (hw : SameStreams G g w w')
    (ord : SetOrder) (test : TestSpec V) (init : Option (SimState V)) :
    (simulate ord test dev env init w).1 = (simulate ord test (overDevice g dev) (overEnv g env) init w').1 ∧
    SameStreams G g (simulate ord test dev env init w).2
      (simulate ord test (overDevice g dev) (overEnv g env) init w').2 :=
  same_simulate (within_setup (sample_same hg) h) ord test init w w' hw

theorem over_var_id (r : RVar V) : overVar id r = r := rfl

theorem over_model_id {W : Type} (m : LatentMdl W V) : overModel id m = m := by
  obtain ⟨c, l, n⟩ := m
  have : (l.map fun kv => (kv.1, overLatent id kv.2)) = l := List.map_id _
  simp only [overModel, this]

theorem over_device_id {W : Type} (dev : DeviceMdl W V) : overDevice id dev = dev := by
  have hm : ∀ m : MechMdl W V, overMech id m = m := fun m => by
    obtain ⟨k, m, u, t, o⟩ := m
    simp only [overMech, over_model_id]
  have hd : ∀ m : DegPrmMdl W V, overDeg id m = m := fun m => by
    obtain ⟨i, c, u, ms, m, t⟩ := m
    have : (ms.map fun kv => (kv.1, overMech id kv.2)) = ms := by
      conv_rhs => rw [← List.map_id ms]
      exact List.map_congr_left fun kv _ => by rw [hm]; rfl
    simp only [overDeg, over_model_id, this]
  have hp : ∀ m : PrmMdl W V, overPrm id m = m := fun m => by
    cases m with
    | deg m => exact congrArg _ (hd m)
    | circ m => exact congrArg _ (over_model_id m)
  obtain ⟨ps, t⟩ := dev
  have : (ps.map fun kv => (kv.1, overPrm id kv.2)) = ps := by
    conv_rhs => rw [← List.map_id ps]
    exact List.map_congr_left fun kv _ => by rw [hp]; rfl
  simp only [overDevice, this]

theorem over_env_id (env : PhysTestEnv V) : overEnv id env = env := by
  obtain ⟨vs, is⟩ := env
  have h1 : (vs.map fun kv => (kv.1, overVrtn id kv.2)) = vs := List.map_id _
  have h2 : (is.map fun kv => (kv.1, overInstm id kv.2)) = is := by
    conv_rhs => rw [← List.map_id is]
    refine List.map_congr_left fun kv _ => ?_
    obtain ⟨k, p, e, r⟩ := kv
    cases e <;> rfl
  simp only [overEnv, h1, h2]

/-- The same objects in two worlds. -/
theorem C98_same (h : SetupWithin G dev env) {w w' : Gens S} (hw : ∀ i ∈ G, w.states i = w'.states i)
    (ord : SetOrder) (test : TestSpec V) (init : Option (SimState V)) :
    (simulate ord test dev env init w).1 = (simulate ord test dev env init w').1 := by
  have := (C98_own h (Set.injOn_id G) (fun i hi => (hw i hi).symm) ord test init).1
  rwa [over_device_id, over_env_id] at this

/-- **C98**: all other generators are left alone, and no generator is created. -/
theorem C98_others (h : SetupWithin G dev env) (w : Gens S) (ord : SetOrder) (test : TestSpec V)
    (init : Option (SimState V)) :
    (∀ i ∉ G, (simulate ord test dev env init w).2.states i = w.states i) ∧
    (simulate ord test dev env init w).2.count = w.count ∧ (simulate ord test dev env init w).2.used = w.used ∧
    (simulate ord test dev env init w).2.entropy = w.entropy := by
  let R : Gens S → Gens S → Prop := fun a b => a = b ∧ (∀ i ∉ G, b.states i = w.states i) ∧ b.count = w.count ∧
    b.used = w.used ∧ b.entropy = w.entropy
  have hv : ∀ r : RVar V, DrawsFrom G r → SameVar R id r := by
    rintro r hr n a b ⟨rfl, h1, h2⟩
    refine ⟨rfl, rfl, ?_⟩
    rw [over_var_id]
    rcases hr with hr | ⟨v, hv⟩
    · obtain ⟨s, e, -⟩ := sample_own r n a
      rw [e]
      refine ⟨fun i hi => ?_, h2⟩
      show (if i = r.id then s else a.states i) = _
      rw [if_neg fun e : i = r.id => hi (by rw [e]; exact hr)]
      exact h1 i hi
    · obtain ⟨rid, d, name⟩ := r
      cases hv
      exact ⟨h1, h2⟩
  have := (same_simulate (within_setup hv h) ord test init w w ⟨rfl, fun _ _ => rfl, rfl, rfl, rfl⟩).2.2
  rwa [over_device_id, over_env_id] at this

/-- **C98**: two simulations without a random variable in common give the same reports in either order. -/
theorem C98_order {G' : Set Nat} {dev' : DeviceMdl (Gens S) V} {env' : PhysTestEnv V} (h : SetupWithin G dev env)
    (h' : SetupWithin G' dev' env') (hd : Disjoint G G') (w : Gens S) (ord : SetOrder) (test test' : TestSpec V)
    (init init' : Option (SimState V)) :
    (simulate ord test' dev' env' init' (simulate ord test dev env init w).2).1 = (simulate ord test' dev' env' init' w).1 ∧
    (simulate ord test dev env init (simulate ord test' dev' env' init' w).2).1 = (simulate ord test dev env init w).1 :=
  ⟨C98_same h' (fun i hi => (C98_others h w ord test init).1 i fun hg => Set.disjoint_left.1 hd hg hi) ord test' init',
    C98_same h (fun i hi => (C98_others h' w ord test' init').1 i fun hg => Set.disjoint_left.1 hd hi hg) ord test init⟩

/-! ## Seeds -/

theorem seeds_created (seeds : List Int) (hs : ∀ k ∈ seeds, 0 < k) (w : Gens S) : ∃ v : Gens S,
    M.mapList (newGenerator V) (seeds.map some) w = (.ok ((List.range seeds.length).map (w.count + ·)), v) ∧
    v.count = w.count + seeds.length ∧ (∀ i (hi : i < seeds.length),
      v.states (w.count + i) = BitGen.ofSeed V (seeds[i]).toNat) ∧ ∀ j < w.count, v.states j = w.states j := by
  induction seeds generalizing w with
  | nil => exact ⟨w, rfl, rfl, fun i hi => absurd hi (Nat.not_lt_zero _), fun _ _ => rfl⟩
  | cons k ks ih =>
    have hk := hs k List.mem_cons_self
    let u : Gens S := { w with
      states := fun j => if j = w.count then BitGen.ofSeed V k.toNat else w.states j
      count := w.count + 1 }
    have h1 : newGenerator V (some k) w = (.ok w.count, u) := by
      have h0 : k ≠ 0 := Int.ne_of_gt hk
      have h2 : ¬ k < 0 := Int.not_lt.2 (Int.le_of_lt hk)
      simp only [newGenerator, newSeeded, if_neg h0, if_neg h2, u]
    obtain ⟨v, g1, g2, g3, g4⟩ := ih (fun j hj => hs j (List.mem_cons_of_mem _ hj)) u
    refine ⟨v, ?_, ?_, ?_, ?_⟩
    · show (newGenerator V (some k) >>= fun b => M.mapList (newGenerator V) (ks.map some) >>= fun bs =>
        Pure.pure (b :: bs)) w = _
      rw [M.bind_ok h1, M.bind_ok g1]
      show (Except.ok _, v) = _
      congr 2
      rw [List.length_cons, List.range_succ_eq_map, List.map_cons, List.map_map]
      refine congrArg₂ _ rfl (List.map_congr_left fun i _ => ?_)
      show w.count + 1 + i = w.count + (i + 1)
      omega
    · rw [g2]
      show w.count + 1 + ks.length = w.count + (ks.length + 1)
      omega
    · intro i hi
      cases i with
      | zero =>
        rw [g4 (w.count + 0) (Nat.lt_succ_self _)]
        exact if_pos rfl
      | succ i =>
        have := g3 i (Nat.lt_of_succ_lt_succ hi)
        have e : u.count + i = w.count + (i + 1) := by
          show w.count + 1 + i = _
          omega
        rw [e] at this
        exact this
    · intro j hj
      rw [g4 j (Nat.lt_succ_of_lt hj)]
      exact if_neg (Nat.ne_of_lt hj)

/-- **C98**: a script that gives every random variable a positive seed has one result, whatever has been created, sampled
or simulated before it and whatever entropy the system has. Seed 0 is missing (`C98_zero_violated`). -/
theorem C98_seeded_partial (seeds : List Int) (hs : ∀ k ∈ seeds, 0 < k) (h : SetupWithin {i | i < seeds.length} dev env)
    (ord : SetOrder) (test : TestSpec V) (init : Option (SimState V)) (w w' : Gens S) :
    (script (seeds.map some) ord test dev env init w).1 = (script (seeds.map some) ord test dev env init w').1 := by
  -- the set-up over its own numbers, in a world where generator `i` has the `i`-th seed
  have key : ∀ w : Gens S, (script (seeds.map some) ord test dev env init w).1 =
      (simulate ord test dev env init ⟨fun i => BitGen.ofSeed V (seeds.getD i 0).toNat, 0, fun i => BitGen.ofSeed V i, 0⟩).1 := by
    intro w
    obtain ⟨v, g1, g2, g3, g4⟩ := seeds_created (V := V) seeds hs w
    unfold script
    rw [M.bind_ok g1]
    have hid : ∀ i < seeds.length, ((List.range seeds.length).map (w.count + ·)).getD i 0 = w.count + i := by
      intro i hi
      rw [List.getD_eq_getElem _ _ (by simpa using hi), List.getElem_map, List.getElem_range]
    refine ((C98_own h (g := fun i => ((List.range seeds.length).map (w.count + ·)).getD i 0) ?_ ?_ ord test init).1).symm
    · intro i hi j hj e
      simp only [hid i hi, hid j hj] at e
      omega
    · intro i hi
      have hi' : i < seeds.length := hi
      show v.states (((List.range seeds.length).map (w.count + ·)).getD i 0) = BitGen.ofSeed V (seeds.getD i 0).toNat
      rw [hid i hi', g3 i hi', List.getD_eq_getElem _ _ hi']
  rw [key w, key w']

/-! ## Example -/

section example_
open Ex

/-- A toy generator of extended rationals. -/
local instance toyBits : BitGen Nat Q where
  ofSeed := fun s => s
  draw := fun s _ _ n => (.ok ((List.range n).map fun i => .fin (7 * (s + i) % 11 : Nat)), s + n)

/-- A delay that depends on the temperature and a random rate. -/
def bathDev : DeviceMdl (Gens Nat) Q where
  prms := [("delay", .circ {
    compute := {
      params := [("temp", false), ("rate", false)]
      call := fun args => M.ofExcept (do
        let x ← args.getE "temp"
        let y ← args.getE "rate"
        PyVal.bin PyArith.add x y) }
    latentVars := [("rate", { constLatent (.fin 7) with dev := ⟨0, .normal (.fin 0) (.fin 1), none⟩ })] })]

/-- A bath that is off at random, and a counter with errors. -/
def bathEnv : PhysTestEnv Q where
  vars := [("temp", { (EnvVrtnMdl.ideal : EnvVrtnMdl Q) with batch := ⟨1, .normal (.fin 0) (.fin 2), none⟩ })]
  instms := [("delay", { error := some ⟨2, .normal (.fin 0) (.fin 3), none⟩ })]

/-- Two measurements. -/
def bathTest : TestSpec Q where
  steps := [.meas ⟨[("delay", 2), ("temp", 1)], [("temp", .fin 300)], "warm"⟩,
    .meas ⟨[("delay", 1)], [("temp", .fin 310)], "hot"⟩]
  numLots := 1
  numChps := 2

/-- The set-up uses three random variables. -/
theorem bath_within : SetupWithin {i | i < 3} bathDev bathEnv := by
  refine ⟨?_, ?_, ?_, ?_⟩
  · intro kv hkv m hm
    rw [List.mem_singleton.1 hkv] at hm
    cases hm
  · intro kv hkv m hm
    rw [List.mem_singleton.1 hkv] at hm
    cases hm
    refine ⟨fun args => ⟨_, rfl⟩, fun kv hkv => ?_⟩
    rw [List.mem_singleton.1 hkv]
    exact ⟨.inr ⟨_, rfl⟩, .inr ⟨_, rfl⟩, .inl (by decide)⟩
  · intro kv hkv
    rw [List.mem_singleton.1 hkv]
    exact ⟨.inl (by decide), .inr ⟨_, rfl⟩, .inr ⟨_, rfl⟩⟩
  · intro kv hkv r hr
    rw [List.mem_singleton.1 hkv] at hr
    cases hr
    exact .inl (by decide)

/-- The values in a report. -/
def shown (r : Except Err (SimReport Q) × Gens Nat) : Option (List Q) :=
  match r.1 with
  | .ok r => some (r.measurements.map (·.measured))
  | .error _ => none

/-- A world at the start of the program, and one after other things have happened. -/
def freshWorld (entropy : Nat → Nat) : Gens Nat := ⟨fun _ => 0, 0, entropy, 0⟩

def laterWorld (entropy : Nat → Nat) : Gens Nat := ⟨fun i => 13 * i, 6, entropy, 4⟩

/-- The script runs. -/
example : shown (script [some 3, some 5, some 8] orderA bathTest bathDev bathEnv none (freshWorld fun k => k)) =
    some [.fin 373, .fin 352, .fin 320, .fin 365, .fin 302, .fin 396, .fin 364, .fin 343, .fin 388] := by
  decide +kernel

/-- After other things have happened, the same. -/
example (entropy entropy' : Nat → Nat) :
    (script [some 3, some 5, some 8] orderA bathTest bathDev bathEnv none (freshWorld entropy)).1 =
    (script [some 3, some 5, some 8] orderA bathTest bathDev bathEnv none (laterWorld entropy')).1 :=
  C98_seeded_partial [3, 5, 8] (by decide) bath_within _ _ _ _ _

/-- **C98** is violated for seed 0: every variable has a seed, but the numbers depend on the entropy. -/
theorem C98_zero_violated : ∃ entropy entropy' : Nat → Nat,
    (script [some 0, some 5, some 8] orderA bathTest bathDev bathEnv none (freshWorld entropy)).1 ≠
    (script [some 0, some 5, some 8] orderA bathTest bathDev bathEnv none (freshWorld entropy')).1 := by
  refine ⟨fun k => k, fun k => k + 1, fun h => ?_⟩
  have h1 : shown (script [some 0, some 5, some 8] orderA bathTest bathDev bathEnv none (freshWorld fun k => k)) ≠
      shown (script [some 0, some 5, some 8] orderA bathTest bathDev bathEnv none (freshWorld fun k => k + 1)) := by
    decide +kernel
  exact h1 (by unfold shown; rw [h])

/-- A second simulation with the same objects is not a repetition: the generators have moved on. -/
example : shown (simulate orderA bathTest bathDev bathEnv none (laterWorld fun k => k)) ≠
    shown (simulate orderA bathTest bathDev bathEnv none
      (simulate orderA bathTest bathDev bathEnv none (laterWorld fun k => k)).2) := by decide +kernel

/-- Two set-ups with different variables can be simulated in either order. -/
example (w : Gens Nat) :
    (simulate orderA bathTest (overDevice (· + 3) bathDev) (overEnv (· + 3) bathEnv) none
      (simulate orderA bathTest bathDev bathEnv none w).2).1 =
    (simulate orderA bathTest (overDevice (· + 3) bathDev) (overEnv (· + 3) bathEnv) none w).1 := by
  have h : SetupWithin {i | 3 ≤ i} (overDevice (· + 3) bathDev) (overEnv (· + 3) bathEnv) := by
    refine ⟨?_, ?_, ?_, ?_⟩
    · intro kv hkv m hm
      rw [List.mem_singleton.1 hkv] at hm
      cases hm
    · intro kv hkv m hm
      rw [List.mem_singleton.1 hkv] at hm
      cases hm
      refine ⟨fun args => ⟨_, rfl⟩, fun kv hkv => ?_⟩
      rw [List.mem_singleton.1 hkv]
      exact ⟨.inr ⟨_, rfl⟩, .inr ⟨_, rfl⟩, .inl (Nat.le_add_left _ _)⟩
    · intro kv hkv
      rw [List.mem_singleton.1 hkv]
      exact ⟨.inl (Nat.le_add_left _ _), .inr ⟨_, rfl⟩, .inr ⟨_, rfl⟩⟩
    · intro kv hkv r hr
      rw [List.mem_singleton.1 hkv] at hr
      cases hr
      exact .inl (Nat.le_add_left _ _)
  exact (C98_order bath_within h (Set.disjoint_left.2 fun i (hi : i < 3) (hj : 3 ≤ i) => by omega) w _ _ _ _ _).1

end example_

end Gerabaldi.Props
