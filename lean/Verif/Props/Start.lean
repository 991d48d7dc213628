import Verif.Spec.Start
import Verif.Props.CondShift

/-!
# C72: new devices
-/

set_option linter.unusedSectionVars false

namespace Gerabaldi.Props

open Gerabaldi Gerabaldi.Spec

section
variable {W V : Type} [PyNum V] [Rng W V]

theorem genLatent_drawn {m : LatentMdl W V} {n C L : Nat} {w w' : W} {d : Dict (Arr3 V)}
    (h : m.genLatentVals n C L w = (.ok d, w')) : Drawn m L C n d := by
  have hd := genLatent_dims h
  have hall := M.mapList_ok h
  clear h
  have key : ∀ (vs : Dict (LatentVar V)) (d : Dict (Arr3 V)),
      List.Forall₂ (fun x y => ∃ w1 w2 : W, genLatent n C L x w1 = (.ok y, w2)) vs d →
      (∀ k a, (k, a) ∈ d → a.HasDims L C n) →
      (∀ k lv, vs.get? k = some lv → ∃ a, ∃ u u' : W, d.get? k = some a ∧ a.HasDims L C n ∧
        lv.genLatentVals n C L u = (.ok a, u')) ∧ ∀ k, vs.get? k = none → d.get? k = none := by
    intro vs d hall hd
    induction hall with
    | nil => exact ⟨fun k lv h => (by cases h), fun _ _ => rfl⟩
    | @cons x y xs ys hxy _ ih =>
      obtain ⟨w1, w2, hxy⟩ := hxy
      obtain ⟨a, w3, h1, h2⟩ := M.bind_eq_ok.1 hxy
      cases h2
      obtain ⟨i1, i2⟩ := ih fun k a hk => hd k a (List.mem_cons_of_mem _ hk)
      obtain ⟨kx, lx⟩ := x
      refine ⟨fun k lv hk => ?_, fun k hk => ?_⟩
      · rw [Dict.get?_cons] at hk ⊢
        split at hk
        · rename_i e
          cases hk
          exact ⟨a, w1, _, if_pos e, hd _ _ List.mem_cons_self, h1⟩
        · rename_i e
          obtain ⟨b, u, u', j1, j2⟩ := i1 k lv hk
          exact ⟨b, u, u', (if_neg e).trans j1, j2⟩
      · rw [Dict.get?_cons] at hk ⊢
        split at hk
        · cases hk
        · rename_i e
          exact (if_neg e).trans (i2 k hk)
  exact key _ _ hall hd

theorem mechLatents_drawn {ms : Dict (MechMdl W V)} (hu : ms.Nodup) {n C L : Nat}
    {acc d : Dict (LatNode V)} {w w' : W}
    (h : M.forIn' (genMechLatents n C L) ms acc w = (.ok d, w')) :
    (∀ k m, ms.get? k = some m → ∃ sub, d.get? k = some (.sub sub) ∧ Drawn m.mdl L C n sub) ∧
    (∀ k, k ∉ ms.keys → d.get? k = acc.get? k) := by
  induction ms generalizing acc w with
  | nil => cases h; exact ⟨fun k m hk => (by cases hk), fun _ _ => rfl⟩
  | cons kv rest ih =>
    obtain ⟨acc1, w1, h1, h2⟩ := M.bind_eq_ok.1 h
    obtain ⟨a, w2, h3, h4⟩ := M.bind_eq_ok.1 h1
    cases h4
    obtain ⟨hu1, hu2⟩ := List.nodup_cons.1 hu
    obtain ⟨i1, i2⟩ := ih hu2 h2
    refine ⟨fun k m hk => ?_, fun k hk => ?_⟩
    · obtain ⟨k0, m0⟩ := kv
      rw [Dict.get?_cons] at hk
      split at hk
      · rename_i e
        cases hk
        subst e
        exact ⟨a, (i2 _ hu1).trans (Dict.get?_set_self ..), genLatent_drawn h3⟩
      · exact i1 k m hk
    · refine (i2 k fun h => hk (List.mem_cons_of_mem _ h)).trans (Dict.get?_set_ne _ _ ?_)
      rintro rfl
      exact hk List.mem_cons_self

/-- Mechanism values and latent values at the start of a simulation. -/
theorem start_mechs {dev : DeviceMdl W V} (hnd : dev.prms.Nodup) {test : TestSpec V} {s : SimState V}
    {r : SimReport V} {w w' : W} (h : simStart dev test none w = (.ok (s, r), w')) {prm : String}
    {m : DegPrmMdl W V} (hp : dev.prms.get? prm = some (.deg m)) (hn : OwnNames m) {n : Nat}
    (hq : r.devCounts.get? prm = some n) : NewMechs m s test.numLots test.numChps n prm := by
  obtain ⟨x, w1, h1, h2⟩ := M.bind_eq_ok.1 h
  obtain ⟨s1, w2, h3, h4⟩ := M.bind_eq_ok.1 h1
  cases h4
  cases h2
  obtain ⟨s0, w3, h5, h6⟩ := M.bind_eq_ok.1 h3
  cases h6
  obtain ⟨_, a2, a3, a4, a5⟩ := devInit_ok hnd h5
  obtain ⟨n', lat, b1, b2, ⟨u1, u2, b3⟩, b4, v, u, u', b5, b6⟩ := a4 prm _ hp
  have : n' = n := Option.some.inj (Eq.trans (Eq.symm b1) hq)
  subst this
  refine ⟨?_, ?_⟩
  · refine ⟨_, b4, ?_, ?_, fun k x hk => ?_⟩
    · show s0.initMech.get? prm = _
      rw [a3]
      exact b4
    · simp [DegPrmMdl.genInitMechVals, Dict.keys, Function.comp_def]
    · refine ⟨x.genInitVals n' test.numChps test.numLots, ?_, ?_, fun l hl c hc d hd => Arr3.at_full _ hl hc hd⟩
      · unfold DegPrmMdl.genInitMechVals
        refine (Dict.get?_map (fun _ (x : MechMdl W V) => x.genInitVals n' test.numChps test.numLots)
          m.mechs k).trans ?_
        rw [hk]
        rfl
      · exact ⟨rfl, rfl, rfl⟩
  · refine ⟨lat, b2, ?_⟩
    replace b3 : m.genLatentVals n' test.numChps test.numLots u1 = (.ok lat, u2) := b3
    unfold DegPrmMdl.genLatentVals at b3
    obtain ⟨c, v1, h1, g1⟩ := M.bind_eq_ok.1 b3
    obtain ⟨e, v2, h2, g2⟩ := M.bind_eq_ok.1 g1
    obtain ⟨own, v3, h3, g3⟩ := M.bind_eq_ok.1 g2
    cases g3
    obtain ⟨m1, m2⟩ := mechLatents_drawn hn.mechs h2
    have hk := latents_keys h3
    have hother : ∀ k, (k = "cond" ∨ k ∈ m.mechs.keys) → k ∉ own.keys := by
      intro k hk' hko
      rw [hk] at hko
      rcases hk' with h | h
      · exact (hn.own k hko).1 h
      · exact (hn.own k hko).2 h
    refine ⟨⟨c, ?_, genLatent_drawn h1⟩, fun k x hx => ?_, own, genLatent_drawn h3, fun k a hka => ?_⟩
    · rw [(updateArr_get own e "cond").2 (hother _ (.inl rfl)), m2 _ hn.cond]
      rfl
    · obtain ⟨sub, j1, j2⟩ := m1 k x hx
      refine ⟨sub, ?_, j2⟩
      rw [(updateArr_get own e k).2 (hother k (.inr (Dict.mem_keys_of_get? hx)))]
      exact j1
    · rw [Dict.get?_update]
      · rw [show Dict.get? (own.map fun kv => (kv.1, LatNode.arr kv.2)) k = some (LatNode.arr a) from
          (Dict.get?_map (fun _ (x : Arr3 V) => LatNode.arr x) own k).trans (by rw [hka]; rfl)]
        rfl
      · unfold Dict.Nodup
        have : Dict.keys (own.map fun kv => (kv.1, LatNode.arr kv.2)) = own.keys := by
          simp [Dict.keys, Function.comp_def]
        rw [this, hk]
        exact hn.latents

/-- **C72**: every simulation without a given state starts with new devices at time zero. -/
theorem C72_start {dev : DeviceMdl W V} (hnd : dev.prms.Nodup) {N : Nat → Prop}
    (hs : ∀ p d, dev.prms.get? p = some (.deg d) → DegShapes d N) {test : TestSpec V} {s : SimState V}
    {r : SimReport V} {w w' : W} (h : simStart dev test none w = (.ok (s, r), w')) {prm : String}
    {m : DegPrmMdl W V} (hp : dev.prms.get? prm = some (.deg m)) (hn : OwnNames m)
    (hil : m.initMdl.latentVars.Nodup) {gi : (String → V) → V} (hi : CircEquation m.initMdl.compute gi) {n : Nat}
    (hq : r.devCounts.get? prm = some n) (hN : N (test.numLots * test.numChps * n) := by trivial) :
    s.elapsed = .td 0 ∧ NewDevices m gi s test.numLots test.numChps n prm := by
  have hstart := start_mechs hnd h hp hn hq
  obtain ⟨x, w1, h1, h2⟩ := M.bind_eq_ok.1 h
  obtain ⟨s1, w2, h3, h4⟩ := M.bind_eq_ok.1 h1
  cases h4
  cases h2
  obtain ⟨s0, w3, h5, h6⟩ := M.bind_eq_ok.1 h3
  cases h6
  obtain ⟨_, a2, a3, a4, a5⟩ := devInit_ok hnd h5
  obtain ⟨n', lat, b1, b2, ⟨u1, u2, b3⟩, b4, v, u, u', b5, b6⟩ := a4 prm _ hp
  have : n' = n := Option.some.inj (Eq.trans (Eq.symm b1) hq)
  subst this
  obtain ⟨a, rfl, ha⟩ := genInitVals_arr (hs prm m hp).init (hs prm m hp).initLatents b5 hN
  refine ⟨rfl, ⟨hstart, ?_⟩⟩
  · obtain ⟨il, u3, c1, c2⟩ := M.bind_eq_ok.1 b5
    have hk : Dict.keys (il.map fun kv => (kv.1, PyVal.arr kv.2)) = il.keys := by
      simp [Dict.keys, Function.comp_def]
    have hu : uniformShape (il.map fun kv => (kv.1, PyVal.arr kv.2)) test.numLots test.numChps n' := by
      intro k a hk
      obtain ⟨kv, hkv, he⟩ := List.mem_map.1 hk
      cases he
      exact genLatent_dims c1 _ _ hkv
    refine ⟨a, il, ?_, b6, ha, genLatent_drawn c1, ?_⟩
    · show s0.initPrm.get? prm = _
      rw [a2]
      exact b6
    · intro l hl c hc d hd
      refine (hi _ _ _ _ _ _ _ ?_ hu c2).2 l hl c hc d hd _ fun k v hv => ?_
      · unfold Dict.Nodup
        rw [hk, latents_keys c1]
        exact hil
      · replace hv := (Dict.get?_map (fun _ (x : Arr3 V) => PyVal.arr x) il k).symm.trans hv
        unfold condAt
        cases hg : il.get? k with
        | none => rw [hg] at hv; cases hv
        | some b => rw [hg] at hv; cases hv; rfl

/-- A constant latent variable has that value everywhere. -/
theorem const_drawn [UnitLaws V] {v : V} {k : String} {n C L : Nat} {w w' : W} {a : Arr3 V}
    (h : ((constLatent v : LatentVar V).setName (some k)).genLatentVals n C L w = (.ok a, w')) {l c d : Nat}
    (hl : l < L) (hc : c < C) (hd : d < n) : a.at' l c d = v := by
  have hr := genLatentVals_run ((constLatent v : LatentVar V).setName (some k)) (L := L) (C := C) (D := n)
    (w := w) (lotS := List.replicate L (PyArith.ofRat 1)) rfl rfl rfl (by simp) (by simp) (by simp)
  cases hr.symm.trans h
  have i1 : l * C + c < L * C := by nlinarith
  have i2 : (l * C + c) * n + d < L * C * n := by nlinarith
  refine (Arr3.at_ofFn _ hl hc hd).trans ?_
  show PyArith.mul (PyArith.mul (PyArith.mul v ((List.replicate _ (PyArith.ofRat 1)).getD _ default))
    ((List.replicate _ (PyArith.ofRat 1)).getD _ default)) ((List.replicate _ (PyArith.ofRat 1)).getD _ default) = v
  rw [List.getD_eq_getElem _ _ (by simpa using i2), List.getD_eq_getElem _ _ (by simpa using i1),
    List.getD_eq_getElem _ _ (by simpa using hl), List.getElem_replicate, List.getElem_replicate,
    List.getElem_replicate, UnitLaws.mul_one, UnitLaws.mul_one, UnitLaws.mul_one]

/-- The default initial equation returns its argument. -/
theorem argEqn_value (arg : String) : CircEquation (argEqn arg : PyFun W V) fun env => env arg := by
  intro args L C n w w' a hnd hu h
  obtain ⟨hacc, hcall⟩ := invoke_ok h
  have h1 := Dict.getE_eq_ok.1 (M.ofExcept_eq_ok.1 hcall).1
  exact ⟨hu _ _ (Dict.mem_of_get? h1), fun l _ c _ d _ env henv => henv _ _ h1⟩

/-- **C72**, no initial model: a parameter built without one starts at 0 on every device. -/
theorem C72_default [UnitLaws V] {mechs : MechArg W V} {cond : Option (LatentMdl W V × V)} {eqn : Option (PyFun W V)}
    {name tu : Option String} {lats : Dict (LatentVar V)} {m : DegPrmMdl W V}
    (hm : DegPrmMdl.mk' mechs none cond eqn name tu lats = .ok m) {dev : DeviceMdl W V} (hnd : dev.prms.Nodup)
    {N : Nat → Prop} (hs : ∀ p d, dev.prms.get? p = some (.deg d) → DegShapes d N) {test : TestSpec V}
    {s : SimState V} {r : SimReport V} {w w' : W} (h : simStart dev test none w = (.ok (s, r), w')) {prm : String}
    (hp : dev.prms.get? prm = some (.deg m)) (hn : OwnNames m) {n : Nat}
    (hq : r.devCounts.get? prm = some n) (hN : N (test.numLots * test.numChps * n) := by trivial) :
    ∃ ia, s.initPrm.get? prm = some (.arr ia) ∧ s.currPrm.get? prm = some (.arr ia) ∧
      ia.HasDims test.numLots test.numChps n ∧
      ∀ l < test.numLots, ∀ c < test.numChps, ∀ d < n, ia.at' l c d = PyArith.ofRat 0 := by
  unfold DegPrmMdl.mk' at hm
  have hmi : m.initMdl = initValMk none none [("init_val", constLatent (PyArith.ofRat 0))] := by
    split at hm
    · cases hm
    · cases hm; rfl
  have hnl : m.initMdl.latentVars =
      [("init_val", (constLatent (PyArith.ofRat 0) : LatentVar V).setName (some "init_val"))] := by
    rw [hmi]; rfl
  have hcm : m.initMdl.compute = argEqn "init_val" := by rw [hmi]; rfl
  obtain ⟨-, -, ⟨ia, il, h1, h2, h3, h4, h5⟩⟩ := C72_start hnd hs h hp hn
    (by rw [hnl]; exact List.nodup_singleton _) (gi := fun env => env "init_val")
    (by rw [hcm]; exact argEqn_value _) hq hN
  refine ⟨ia, h1, h2, h3, fun l hl c hc d hd => ?_⟩
  obtain ⟨a, u, u', j1, j2, j3⟩ := h4.1 "init_val" ((constLatent (PyArith.ofRat 0)).setName (some "init_val"))
    (by rw [hnl]; rfl)
  rw [h5 l hl c hc d hd]
  simp only [condAt, j1]
  exact const_drawn j3 hl hc hd

end

section
open Ex

theorem ex_names : OwnNames (degPrm [("burn", burn)] (.fin 3)) where
  mechs := by decide
  cond := by decide
  latents := by decide
  own := by
    intro k hk
    cases hk

/-- The example device starts with four new devices on each of the three chips of each of the two lots. -/
example : ∃ s r w', simStart Ex.dev (sampleTest 4) none Counts.start = (.ok (s, r), w') ∧
    NewDevices (degPrm [("burn", burn)] (.fin 3)) (fun env => env "init_val") s 2 3 4 "vth" := by
  obtain ⟨x, hx, hc⟩ := exists_ok (x := (simStart Ex.dev (sampleTest 4) none Counts.start).1)
    (f := fun x => decide (x.2.devCounts.get? "vth" = some 4)) (by decide +kernel)
  have h : simStart Ex.dev (sampleTest 4) none Counts.start = (.ok (x.1, x.2), _) := Prod.ext hx rfl
  exact ⟨x.1, x.2, _, h, (C72_start (by decide) ex_shapes h rfl ex_names (by decide) (argEqn_value _)
    (of_decide_eq_true hc)).2⟩

/-- A parameter without an initial model. -/
example : ∃ m : DegPrmMdl Counts Q, DegPrmMdl.mk' (.many [("burn", burn)]) none none none none none [] = .ok m ∧
    OwnNames m ∧ DegShapes m := by
  refine ⟨_, rfl, ⟨by decide, by decide, by decide, fun k hk => (by cases hk)⟩, argEqn_shapes _, by decide,
    by simp [initValMk, nameLatents], constEqn_shapes _, ?_, basicSum_shapes⟩
  intro k m hk
  cases List.mem_singleton.1 hk
  exact eqn2_shapes _ _ _

end

end Gerabaldi.Props
