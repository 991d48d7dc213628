import Verif.Spec.Equation
import Verif.Props.Sum
import Verif.Props.Readings

/-!
# Parameters with any equation: C65
-/

set_option linter.unusedSectionVars false

namespace Gerabaldi.Props

open Gerabaldi Gerabaldi.Spec

section
variable {W V : Type} [PyNum V]

theorem fillMissing_nodup (src : String → Option (PyVal V)) (names : List String) {acc : Dict (PyVal V)}
    (h : acc.Nodup) : (fillMissing src names acc).Nodup := by
  induction names generalizing acc with
  | nil => exact h
  | cons a as ih =>
    simp only [fillMissing]
    refine ih ?_
    split
    · exact h
    · split
      · exact h.set _ _
      · exact h

theorem update_nodup {α : Type} {d : Dict α} (h : d.Nodup) (d' : Dict α) : (d.update d').Nodup := by
  unfold Dict.update
  induction d' generalizing d with
  | nil => exact h
  | cons kv rest ih => exact ih (h.set _ _)

theorem val_on {e : NumExpr V} {args : Dict (PyVal V)} {env : String → V} {l c d : Nat}
    (h : ∀ k ∈ e.uses, ∃ v, args.get? k = some v ∧ sampleVal v l c d = env k) :
    e.val (sampleArgs args l c d) = exprOn env e := by
  induction e with
  | arg a =>
    obtain ⟨v, h1, h2⟩ := h a (by simp [NumExpr.uses])
    unfold NumExpr.val exprOn
    rw [sampleArgs_get?, h1]
    exact h2
  | lit v => rfl
  | un f e ih => exact congrArg f (ih h)
  | bin f e₁ e₂ ih₁ ih₂ =>
    show f _ _ = f _ _
    rw [ih₁ fun k hk => h k (by simp [NumExpr.uses, hk]), ih₂ fun k hk => h k (by simp [NumExpr.uses, hk])]

/-- The arguments of a parameter equation. -/
theorem prmArgs_get? (lat : Dict (LatNode V)) (names : List String) (i c : PyVal V) {rest : Dict (PyVal V)}
    (hnd : rest.Nodup) (k : String) :
    (fillMissing (ownLatent lat) names (Dict.update [("init", i), ("cond", c)] rest)).get? k =
      (rest.get? k).or (if k = "init" then some i else if k = "cond" then some c
        else if k ∈ names then ownLatent lat k else none) := by
  rw [fillMissing_get?, Dict.get?_update _ _ _ hnd]
  cases rest.get? k with
  | some v => rfl
  | none =>
    simp only [Option.none_or, Dict.get?_cons, Dict.get?_nil]
    by_cases h1 : k = "init"
    · subst h1; rfl
    · by_cases h2 : k = "cond"
      · subst h2; rfl
      · simp [h1, h2, Ne.symm h1, Ne.symm h2]

variable [Rng W V]

/-- An arithmetic expression over the names. -/
theorem expr_equation {m : DegPrmMdl W V} {e : NumExpr V} {params : List String}
    (hm : m.mdl.compute = e.fn params) (he : e.Uses params) : HasEquation m fun env => exprOn env e where
  arr _ := trivial
  scal _ := trivial
  value := by
    intro args L C n w w' v _ hnd hu harr _ _ h
    rw [hm] at h
    have hacc : (e.fn params : PyFun W V).accepts args = true := by
      by_contra hn
      have : (e.fn params : PyFun W V).invoke args w = (.error .typeError, w) := by
        unfold PyFun.invoke
        rw [if_neg hn]
        rfl
      rw [computeOrLoop_typeError this] at h
      cases h
    obtain ⟨k, b, hb⟩ := harr
    obtain ⟨r, h1, h2, h3⟩ := (NumExpr.elementwise (W := W) he).onArrays _ L C n hnd hu
      ⟨k, b, Dict.mem_of_get? hb⟩ hacc w
    have h4 : (e.fn params : PyFun W V).invoke args w = (.ok (.arr r), w) := by
      unfold PyFun.invoke; rw [if_pos hacc]; exact h1
    rw [computeOrLoop_ok h4] at h
    cases h
    refine ⟨r, rfl, h2, fun l hl cc hc d hd env henv => (h3 l hl cc hc d hd).trans (val_on fun k hk => ?_)⟩
    obtain ⟨v, hv⟩ := fn_present he hacc k hk
    exact ⟨v, hv, henv k v hv⟩

/-- The value of a parameter equation whose arguments are known at every sample. -/
theorem prm_value {m : DegPrmMdl W V} {g : (String → V) → V} {N : Nat → Prop} {S : PyVal V → Prop}
    (he : HasEquation m g N S) {names : List String}
    {lat : Dict (LatNode V)} {i : Arr3 V} {c : PyVal V} {rest : Dict (PyVal V)} {L C n : Nat}
    (hN : N (L * C * n)) (hc : S c) (hr : ∀ k v, (k, v) ∈ rest → S v)
    (hnd : rest.Nodup) (hinit : "init" ∉ rest.keys) (hrk : ∀ k ∈ rest.keys, k ∈ m.mechs.keys)
    (hu : uniformShape (fillMissing (ownLatent lat) names
      (Dict.update [("init", .arr i), ("cond", c)] rest)) L C n) {v : PyVal V} {w w' : W}
    (h : computeOrLoop m.mdl.compute (fillMissing (ownLatent lat) names
      (Dict.update [("init", .arr i), ("cond", c)] rest)) L C n w = (.ok v, w')) :
    ∃ a, v = .arr a ∧ a.HasDims L C n ∧ ∀ l < L, ∀ cc < C, ∀ d < n, a.at' l cc d =
      g (prmNames (i.at' l cc d) (sampleVal c l cc d)
        (fun k => (rest.get? k).map (sampleVal · l cc d)) (ownAt lat l cc d)) := by
  have key := prmArgs_get? lat names (.arr i) c hnd
  have hnd' : (fillMissing (ownLatent lat) names
      (Dict.update [("init", .arr i), ("cond", c)] rest)).Nodup := by
    exact fillMissing_nodup _ _ (update_nodup (by simp [Dict.Nodup, Dict.keys]) _)
  have hri : rest.get? "init" = none := (Dict.get?_eq_none_iff _ _).2 hinit
  have hown : ∀ k v, ownLatent lat k = some v → S v := by
    intro k v hv
    unfold ownLatent at hv
    split at hv
    · cases hv; exact he.arr _
    · cases hv
  obtain ⟨a, rfl, ha, hv⟩ := he.value _ L C n w w' v hN hnd' hu ⟨"init", i, by rw [key, hri]; rfl⟩
    (fun k v hkv => by
      have hg := Dict.get?_of_mem hnd' hkv
      rw [key] at hg
      cases hx : rest.get? k with
      | some x =>
        rw [hx] at hg
        cases hg
        exact hr k _ (Dict.mem_of_get? hx)
      | none =>
        rw [hx, Option.none_or] at hg
        split at hg
        · cases hg; exact he.arr _
        · split at hg
          · cases hg; exact hc
          · split at hg
            · exact hown k v hg
            · cases hg) (ownArrays_args hrk _ _) h
  refine ⟨a, rfl, ha, fun l hl cc hcc d hd => hv l hl cc hcc d hd _ fun k v hv => ?_⟩
  rw [key] at hv
  unfold prmNames
  cases hg : rest.get? k with
  | some x =>
    rw [hg] at hv
    cases hv
    simp only [hg, Option.map_some]
  | none =>
    rw [hg, Option.none_or] at hv
    simp only [hg, Option.map_none]
    by_cases k1 : k = "init"
    · rw [if_pos k1] at hv ⊢; cases hv; rfl
    · by_cases k2 : k = "cond"
      · rw [if_neg k1, if_pos k2] at hv ⊢; cases hv; rfl
      · rw [if_neg k1, if_neg k2] at hv ⊢
        split at hv
        · unfold ownLatent at hv
          unfold ownAt
          split at hv
          · rename_i a ha
            rw [ha]; cases hv; rfl
          · cases hv
        · cases hv

theorem stressPrm_computed {q : Quantities} {dur : TimeVal} {conds : Dict (Dict (Arr3 V))}
    {s s' : SimState V} {prm : String} {m : DegPrmMdl W V} {w w' : W}
    (h : stressPrm q dur conds s (prm, m) w = (.ok s', w')) {g : (String → V) → V} {N : Nat → Prop}
    {S : PyVal V → Prop} (he : HasEquation m g N S) (hm : m.mechs.Nodup) (hi : "init" ∉ m.mechs.keys) {n : Nat}
    (hq : q.devCounts.get? prm = some n) (hN : N (q.numLots * q.numChps * n))
    (hlat : ∀ lat, s.latents.get? prm = some lat → LatDims lat q.numLots q.numChps n)
    (hold : DegHolds m s q.numLots q.numChps n prm)
    (hold' : DegHolds m s' q.numLots q.numChps n prm) : Computed m g s' q.numLots q.numChps n prm := by
  obtain ⟨n', cur, cs, im, lat, eq0, times, ip, p, mv, w1, w2, h1, h2, h3, h4, h5, h6, h7, h8, h9, h10,
    rfl⟩ := stressPrm_ok h
  simp only at h1 h2 h3 h4 h5 h6 h7 h8 h9 h10
  rw [hq] at h1
  cases h1
  obtain ⟨ia, hia, hid⟩ := hold.init
  rw [h8] at hia
  cases hia
  obtain ⟨mv', hmv', hk, hmd⟩ := hold'.mech
  have e' : mv' = mv := Option.some.inj (hmv'.symm.trans (Dict.get?_set_self ..))
  subst e'
  have hu := degArgs_uniform m (ip := .arr ia) (fun a ha => by cases ha; exact hid) hmd (hlat lat h5)
  have hkeys : Dict.keys (mv'.map fun kv => (kv.1, PyVal.arr kv.2)) = m.mechs.keys := by
    rw [← hk]; simp [Dict.keys]
  unfold DegPrmMdl.degArgs at h10 hu
  obtain ⟨a, rfl, ha, hv⟩ := prm_value he hN (he.scal _) (fun k v hk => by
    obtain ⟨kv, _, e⟩ := List.mem_map.1 hk
    cases e
    exact he.arr _) (by unfold Dict.Nodup; rw [hkeys]; exact hm)
    (by rw [hkeys]; exact hi) (fun k hk => hkeys ▸ hk) hu h10
  refine ⟨ia, a, mv', lat, h8, hid, Dict.get?_set_self .., ha, hmv', hk, h5, fun l hl c hc d hd => ?_⟩
  rw [hv l hl c hc d hd]
  congr 2
  funext k
  have := Dict.get?_map (fun _ (x : Arr3 V) => PyVal.arr x) mv' k
  rw [this]
  cases mv'.get? k <;> rfl

omit [Rng W V] in
theorem stressPrm_computed_other {q : Quantities} {dur : TimeVal} {conds : Dict (Dict (Arr3 V))}
    {s s' : SimState V} {kv : String × DegPrmMdl W V} {prm : String} {m : DegPrmMdl W V} {w w' : W}
    (h : stressPrm q dur conds s kv w = (.ok s', w')) (hne : kv.1 ≠ prm) {L C n : Nat} {g : (String → V) → V}
    (hs : Computed m g s L C n prm) : Computed m g s' L C n prm := by
  obtain ⟨_, _, _, _, _, _, _, _, _, _, _, _, -, -, -, -, -, -, -, -, -, -, rfl⟩ := stressPrm_ok h
  obtain ⟨ia, a, mv, lat, h1, h2, h3, h4, h5, h6⟩ := hs
  exact ⟨ia, a, mv, lat, h1, h2, (Dict.get?_set_ne _ _ hne).trans h3, h4,
    (Dict.get?_set_ne _ _ hne).trans h5, h6⟩

/-- **C65**, a stress step: afterwards the true value of every device of a parameter is the value of the
parameter's equation for its initial value, the neutral conditional shift, its mechanism values and its
latent values, whatever its true value was before. -/
theorem C65_stress {ord : SetOrder} {dev : DeviceMdl W V} {env : PhysTestEnv V}
    (hnd : dev.prms.Nodup) (hm : ∀ p d, dev.prms.get? p = some (.deg d) → d.mechs.Nodup)
    {N : Nat → Prop}
    (hs : ∀ p d, dev.prms.get? p = some (.deg d) → DegShapes d N) {step : StrsSpec V} {i : Nat}
    {s s' : SimState V} {r r' : SimReport V} {w w' : W} (hshape : StateShape dev r.info s)
    (h : simStress ord dev env step i (s, r) w = (.ok (s', r'), w'))
    {prm : String} {m : DegPrmMdl W V} (hp : dev.prms.get? prm = some (.deg m))
    {g : (String → V) → V} {S : PyVal V → Prop} (he : HasEquation m g N S) {n : Nat}
    (hq : r.info.devCounts.get? prm = some n) (hN : SizesIn N r.info := by intro _ _ _; trivial) :
    Computed m g s' r.info.numLots r.info.numChps n prm := by
  obtain ⟨conds, s1, x, st, w1, h1, h2, _, _, rfl, rfl⟩ := simStress_ok h
  have key := M.forIn'_ok_inv (P := fun pr s1 _ => StateShape dev r.info s1 ∧
    ((∃ kv ∈ pr, kv.1 = prm) → Computed m g s1 r.info.numLots r.info.numChps n prm)) h2
    ⟨hshape, fun ⟨kv, hkv, _⟩ => absurd hkv List.not_mem_nil⟩ ?_
  · exact key.2 ⟨_, Gerabaldi.mem_degPrms.2 (Dict.mem_of_get? hp), rfl⟩
  · rintro pr kv post s4 w4 s5 w5 hx ⟨b1, b3⟩ hstep
    have hkv : kv ∈ dev.degPrms := by rw [hx]; simp
    have hsh5 : StateShape dev r.info s5 := by
      refine stressPrm_shape hnd hm hs hkv (fun n cs hn hcs => ?_) b1 hstep hN
      refine conds_dims h1 rfl (List.mem_map_of_mem hkv) ?_ hn hcs
      exact List.mem_map_of_mem (Gerabaldi.mem_degPrms.1 hkv)
    refine ⟨hsh5, fun hpr => ?_⟩
    by_cases hk : kv.1 = prm
    · have hkv' : kv = (prm, m) := mem_degPrms hnd hp hkv hk
      rw [hkv'] at hstep
      refine stressPrm_computed hstep he (hm _ _ hp) (hs _ _ hp).noInit hq (hN _ _ hq) ?_ (b1.deg _ _ _ hp hq) (hsh5.deg _ _ _ hp hq)
      intro lat hlat
      obtain ⟨n', lat', c1, c2, c3⟩ := b1.count prm _ hp
      rw [hq] at c1
      cases c1
      rw [hlat] at c2
      cases c2
      exact c3
    · refine stressPrm_computed_other hstep hk (b3 ?_)
      obtain ⟨kv', hkv', he⟩ := hpr
      rcases List.mem_append.1 hkv' with h' | h'
      · exact ⟨kv', h', he⟩
      · rw [List.mem_singleton.1 h'] at he
        exact absurd he hk

/-- **C65**, a generated initial state, for an equation that returns the initial value when nothing has
degraded. -/
theorem C65_start {dev : DeviceMdl W V} (hnd : dev.prms.Nodup)
    {N : Nat → Prop}
    (hs : ∀ p d, dev.prms.get? p = some (.deg d) → DegShapes d N) {test : TestSpec V}
    {s : SimState V} {r : SimReport V} {w w' : W}
    (h : simStart dev test none w = (.ok (s, r), w'))
    {prm : String} {m : DegPrmMdl W V} (hp : dev.prms.get? prm = some (.deg m))
    {g : (String → V) → V} {n : Nat} (hq : r.info.devCounts.get? prm = some n)
    (hk : AllKept m g s r.info.numLots r.info.numChps n prm)
    (hN : SizesIn N r.info := by intro _ _ _; trivial) :
    Computed m g s r.info.numLots r.info.numChps n prm := by
  obtain ⟨x, w1, h1, h2⟩ := M.bind_eq_ok.1 h
  obtain ⟨s1, w2, h3, h4⟩ := M.bind_eq_ok.1 h1
  cases h4
  cases h2
  obtain ⟨s0, w3, h5, h6⟩ := M.bind_eq_ok.1 h3
  cases h6
  obtain ⟨_, a2, a3, a4, a5⟩ := devInit_ok hnd h5
  obtain ⟨n', lat, b1, b2, _, b4, v, u, u', b5, b6⟩ := a4 prm _ hp
  have : n' = n := Option.some.inj (Eq.trans (Eq.symm b1) hq)
  subst this
  obtain ⟨a, rfl, ha⟩ := genInitVals_arr (hs prm m hp).init (hs prm m hp).initLatents b5 (hN prm n' hq)
  have hkk : (m.genInitMechVals n' test.numChps test.numLots).keys = m.mechs.keys := by
    simp [DegPrmMdl.genInitMechVals, Dict.keys, Function.comp_def]
  refine ⟨a, a, _, lat, by show s0.initPrm.get? prm = _; rw [a2]; exact b6, ha, b6, ha, b4, hkk, b2, ?_⟩
  show ∀ l < test.numLots, ∀ c < test.numChps, ∀ d < n', a.at' l c d = _
  intro l hl c hc d hd
  refine (Eq.symm (hk a lat b6 b2 l hl c hc d hd)).trans ?_
  congr 2
  funext k
  have := Dict.get?_map (fun _ (x : MechMdl W V) => x.genInitVals n' test.numChps test.numLots)
    m.mechs k
  show _ = ((m.genInitMechVals n' test.numChps test.numLots).get? k).map _
  unfold DegPrmMdl.genInitMechVals
  rw [this]
  cases m.mechs.get? k with
  | none => rfl
  | some x => exact congrArg some (Arr3.at_full _ hl hc hd).symm

/-- **C65**, any run: the equation holds after every sequence of steps if it held before. -/
theorem C65_run {ord : SetOrder} {dev : DeviceMdl W V} {env : PhysTestEnv V}
    (hnd : dev.prms.Nodup) (hm : ∀ p d, dev.prms.get? p = some (.deg d) → d.mechs.Nodup)
    {N : Nat → Prop}
    (hs : ∀ p d, dev.prms.get? p = some (.deg d) → DegShapes d N) {steps : List (Step V)} {i : Nat}
    {s s' : SimState V} {r r' : SimReport V} {w w' : W} (hshape : StateShape dev r.info s)
    (h : runSteps ord dev env i steps (s, r) w = (.ok (s', r'), w'))
    {prm : String} {m : DegPrmMdl W V} (hp : dev.prms.get? prm = some (.deg m))
    {g : (String → V) → V} {S : PyVal V → Prop} (he : HasEquation m g N S) {n : Nat}
    (hq : r.info.devCounts.get? prm = some n)
    (hc : Computed m g s r.info.numLots r.info.numChps n prm)
    (hN : SizesIn N r.info := by intro _ _ _; trivial) :
    Computed m g s' r.info.numLots r.info.numChps n prm := by
  refine (M.forIn'_ok_inv (P := fun _ x _ => StateShape dev x.2.info x.1 ∧ x.2.info = r.info ∧
    Computed m g x.1 r.info.numLots r.info.numChps n prm) h ⟨hshape, rfl, hc⟩ ?_).2.2
  rintro pre ⟨j, st⟩ post ⟨s1, r1⟩ w1 ⟨s2, r2⟩ w2 - ⟨b1, b2, b4⟩ hf
  cases st with
  | strs st =>
    have hf' : simStress ord dev env st j (s1, r1) w1 = (.ok (s2, r2), w2) := hf
    have hsum2 := C65_stress hnd hm hs b1 hf' hp he (by simp only at b2; rw [b2]; exact hq)
      (by simp only at b2; rw [b2]; exact hN)
    simp only at b2
    rw [b2] at hsum2
    refine ⟨simStress_shape hnd hm hs b1 hf' (by rw [b2]; exact hN), ?_, hsum2⟩
    obtain ⟨_, _, _, _, _, _, _, _, _, _, rfl⟩ := simStress_ok hf'
    exact b2
  | meas st =>
    have hf' : simMeas ord dev env st j (s1, r1) w1 = (.ok (s2, r2), w2) := hf
    obtain ⟨_, _, _, _, _, rfl, rfl⟩ := simMeas_ok hf'
    exact ⟨b1, b2, b4⟩
  | other t =>
    cases hf
    exact ⟨b1, b2, b4⟩

omit [Rng W V] in
theorem ownAt_cut {lat : Dict (LatNode V)} {L C D n : Nat} (hl : LatDims lat L C D) (hn : n ≤ D)
    {l c d : Nat} (h1 : l < L) (h2 : c < C) (h3 : d < n) (k : String) :
    ownAt (reduceLatents lat n) l c d k = ownAt lat l c d k := by
  unfold ownAt
  rw [reduceLatents_get?]
  cases h : lat.get? k with
  | none => rfl
  | some x =>
    cases x with
    | sub x => rfl
    | arr a =>
      have ha := hl _ _ (Dict.mem_of_get? h)
      obtain ⟨rfl, rfl, rfl⟩ := ha
      exact congrArg some (Arr3.at_takeDev _ hn h1 h2 h3)

/-- **C65**, a measurement of `n` devices: at every sample the value of the equation for the true value,
the conditional shift, the neutral values of the mechanisms and the latent values of that sample. -/
theorem C65_measured {m : DegPrmMdl W V} {N : Nat → Prop} (hsh : DegShapes m N) (hm : m.mechs.Nodup)
    {g : (String → V) → V} {S : PyVal V → Prop} (he : HasEquation m g N S) {L C D n : Nat} {cur : Arr3 V}
    (hcur : cur.HasDims L C D) (hle : n ≤ D) {lat : Dict (LatNode V)} (hl : LatDims lat L C D)
    {conds : Dict (Arr3 V)} (hc : GetDims conds L C n) {v : PyVal V} {w w' : W}
    (h : m.calcCondShifted L C n conds (.arr cur) lat w = (.ok v, w'))
    (hS : ∀ clat (u u' : W) x, GetDims clat L C n →
      calcCondVals m.condMdl conds clat L C n u = (.ok x, u') → S x := by intro _ _ _ _ _ _; trivial)
    (hN : N (L * C * n) := by trivial) :
    ∃ clat shift a w1, subLatents (if n < D then reduceLatents lat n else lat) "cond" = .ok clat ∧
      calcCondVals m.condMdl conds clat L C n w = (.ok shift, w1) ∧ v = .arr a ∧ a.HasDims L C n ∧
      ∀ l < L, ∀ c < C, ∀ d < n, a.at' l c d =
        g (prmNames (cur.at' l c d) (sampleVal shift l c d)
          (fun k => (m.mechs.get? k).map (·.unitary)) (ownAt lat l c d)) := by
  unfold DegPrmMdl.calcCondShifted at h
  simp only at h
  obtain ⟨clat, h1, h2⟩ := M.ofExcept_bind_ok.1 h
  obtain ⟨shift, w1, h3, h4⟩ := M.bind_eq_ok.1 h2
  have hnd : cur.nd = D := hcur.2.2
  have hlat : LatDims (if n < cur.nd then reduceLatents lat n else lat) L C n := by
    split
    · exact reduceLatents_dims hl hle
    · have : n = D := by omega
      subst this
      exact hl
  have hcur' : (if n < cur.nd then cur.takeDev n else cur).HasDims L C n := by
    split
    · obtain ⟨rfl, rfl, rfl⟩ := hcur
      exact Arr3.takeDev_hasDims cur hle
    · have : n = D := by omega
      subst this
      exact hcur
  have hcv := (computeOrLoop_dims hsh.cond (fillArgs_uniform (fun k a h => by cases h)
    (lookup2_dims (subLatents_dims hlat h1) hc)) h3 hN).1
  have hu := shiftArgs_uniform m hcur' hcv hlat
  have hkeys : Dict.keys (m.mechs.map fun kv => (kv.1, (PyVal.scal kv.2.unitary : PyVal V))) =
      m.mechs.keys := by simp [Dict.keys]
  unfold DegPrmMdl.shiftArgs at h4 hu
  obtain ⟨a, rfl, ha, hv⟩ := prm_value he hN (hS _ _ _ _ (subLatents_dims hlat h1) h3) (fun k v hk => by
    obtain ⟨kv, _, e⟩ := List.mem_map.1 hk
    cases e
    exact he.scal _) (by unfold Dict.Nodup; rw [hkeys]; exact hm)
    (by rw [hkeys]; exact hsh.noInit) (fun k hk => hkeys ▸ hk) hu h4
  refine ⟨clat, shift, a, w1, by rw [← hnd]; exact h1, h3, rfl, ha, fun l hl' c hc' d hd => ?_⟩
  rw [hv l hl' c hc' d hd]
  have e1 : (if n < cur.nd then cur.takeDev n else cur).at' l c d = cur.at' l c d := by
    split
    · obtain ⟨rfl, rfl, rfl⟩ := hcur
      exact Arr3.at_takeDev _ hle hl' hc' hd
    · rfl
  have e2 : ownAt (if n < cur.nd then reduceLatents lat n else lat) l c d = ownAt lat l c d := by
    split
    · funext k
      exact ownAt_cut hl hle hl' hc' hd k
    · rfl
  have e3 : (fun k => (Dict.get? (m.mechs.map fun kv => (kv.1, (PyVal.scal kv.2.unitary : PyVal V))) k).map
      (sampleVal · l c d)) = fun k => (m.mechs.get? k).map (·.unitary) := by
    funext k
    have := Dict.get?_map (fun _ (x : MechMdl W V) => (PyVal.scal x.unitary : PyVal V)) m.mechs k
    rw [this]
    cases m.mechs.get? k <;> rfl
  rw [e1, e2, e3]

/-- Readings of a parameter without a conditional model whose equation keeps all values that occur. -/
theorem kept_reading [LawfulRng W V] {ord : SetOrder} {dev : DeviceMdl W V} {env : PhysTestEnv V}
    (hnd : dev.prms.Nodup) (hm : ∀ p d, dev.prms.get? p = some (.deg d) → d.mechs.Nodup)
    {N : Nat → Prop} (hs : ∀ p d, dev.prms.get? p = some (.deg d) → DegShapes d N) {test : TestSpec V}
    {r : SimReport V} {w w' : W} (h : simulate ord test dev env none w = (.ok r, w'))
    {pre post : List (Step V)} {step : MeasSpec V} (ht : test.steps = pre ++ .meas step :: post)
    (hnm : step.measurements.Nodup) {prm : String} {n : Nat} (hp : (prm, n) ∈ step.measurements)
    {m : DegPrmMdl W V} (hd : dev.prms.get? prm = some (.deg m)) {g : (String → V) → V}
    {S : PyVal V → Prop} (he : HasEquation m g N S) (hc : m.condMdl.compute = constEqn m.condUnitary)
    (hN : SizesIn N r.info) (hNn : N (test.numLots * test.numChps * n))
    (hstart : ∀ s0 r0 w0 k, simStart dev test none w = (.ok (s0, r0), w0) →
      r0.info.devCounts.get? prm = some k → AllKept m g s0 test.numLots test.numChps k prm)
    (hkeep : ∀ s0 r0 w0 s r1 w1 k, simStart dev test none w = (.ok (s0, r0), w0) →
      runSteps ord dev env 0 pre (s0, r0) w0 = (.ok (s, r1), w1) →
      Computed m g s test.numLots test.numChps k prm → AllKept m g s test.numLots test.numChps k prm) :
    ∃ s0 r0 s r1 cur k ys, ∃ w0 w1 u2 u3 : W, simStart dev test none w = (.ok (s0, r0), w0) ∧
      runSteps ord dev env 0 pre (s0, r0) w0 = (.ok (s, r1), w1) ∧
      s.currPrm.get? prm = some (.arr cur) ∧ n ≤ k ∧ Computed m g s test.numLots test.numChps k prm ∧
      (instrumentOf env prm).measureVals
        ((expectedRows test.numLots test.numChps n cur.at' prm s.elapsed pre.length).map (·.measured))
        u2 = (.ok ys, u3) ∧
      rowsAt r.measurements pre.length prm = List.zipWith (fun x y => { x with measured := y })
        (expectedRows test.numLots test.numChps n cur.at' prm s.elapsed pre.length) ys := by
  obtain ⟨s0, r0, s, r1, conds, t, ys, w0, w1, w2, u1, u2, u3, h1, h2, h3, h4, h5, h6, h7⟩ :=
    C57_instrument h ht hnm hp
  have hN0 : SizesIn N r0.info := by
    obtain ⟨⟨sf, rf⟩, w3, x1, x2⟩ := M.bind_eq_ok.1 h
    cases x2
    obtain ⟨⟨s0', r0'⟩, w4, x3, x4⟩ := M.bind_eq_ok.1 x1
    cases h1.symm.trans x3
    obtain ⟨rows, lines, _, e⟩ := runSteps_ok.1 x4
    subst e
    exact hN
  obtain ⟨g1, g2, g3, -, g5⟩ := simStart_shape hnd hs h1 hN0
  obtain ⟨g6, g7⟩ := runSteps_shape hnd hm hs (sr := (s0, r0)) (sr' := (s, r1)) g1 h2 hN0
  simp only at g6 g7
  obtain ⟨k, lat, b1, b2, b3⟩ := g6.count prm _ hd
  rw [g7] at b1
  have hle : n ≤ k := by
    cases hb : (calcSamplesNeeded test.steps).get? prm with
    | none =>
      refine absurd ⟨step, ?_, hp⟩ (((C08_max test.steps prm).2.1 hb) n)
      rw [ht]; simp
    | some j =>
      obtain ⟨k', hk', hkk⟩ := g5.keeps hb
      rw [show r0.devCounts.get? prm = some k from b1] at hk'
      cases hk'
      refine Nat.le_trans (((C08_max test.steps prm).1 j |>.1 hb).2 n ⟨step, ?_, hp⟩) hkk
      rw [ht]; simp
  have e1 : r0.info.numLots = test.numLots := g2
  have e2 : r0.info.numChps = test.numChps := g3
  have hsum := C65_run hnd hm hs g1 h2 hd he b1 (C65_start hnd hs h1 hd b1 (by
    rw [e1, e2]; exact hstart s0 r0 w0 k h1 b1) hN0) hN0
  rw [e1, e2] at hsum
  obtain ⟨ia, cur, mv, lat', k1, k2, k3, k4, k5⟩ := id hsum
  unfold measureTrue at h5
  rw [k3, hd] at h5
  simp only at h5
  obtain ⟨cs, c1, h8⟩ := M.getE_bind_ok.1 h5
  obtain ⟨lat', c2, h9⟩ := M.getE_bind_ok.1 h8
  rw [b2] at c2
  cases c2
  obtain ⟨v, w3, h10, h11⟩ := M.bind_eq_ok.1 h9
  have hcs := conds_dims h4 rfl (show prm ∈ Dict.keys _ from List.mem_map_of_mem hp)
    (Dict.mem_keys_of_get? hd) (Dict.get?_of_mem hnm hp) c1
  rw [g7, e1, e2] at b3
  rw [h3, e1, e2] at h10 hcs
  have hconst : ∀ clat (u u' : W) x, calcCondVals m.condMdl cs clat test.numLots test.numChps n u =
      (.ok x, u') → x = .scal m.condUnitary := by
    intro clat u u' x hx
    unfold calcCondVals at hx
    rw [hc] at hx
    cases hx
    rfl
  obtain ⟨clat, shift, a, w4, d1, d2, rfl, d3, d4⟩ := C65_measured (hs _ _ hd) (hm _ _ hd) he k4 hle b3 hcs
    h10 (fun clat u u' x _ hx => by rw [hconst clat u u' x hx]; exact he.scal _) hNn
  cases hconst _ _ _ _ d2
  have hval : ∀ l < test.numLots, ∀ c < test.numChps, ∀ d < n, a.at' l c d = cur.at' l c d :=
    fun l hl c hc d hd => (d4 l hl c hc d hd).trans
      (hkeep s0 r0 w0 s r1 w1 k h1 h2 hsum cur lat k3 b2 l hl c hc d (Nat.lt_of_lt_of_le hd hle))
  obtain ⟨f1, rfl⟩ := M.ofExcept_eq_ok.1 h11
  rw [C38_rows, d3.1, d3.2.1, d3.2.2, expectedRows_congr hval] at f1
  cases f1
  exact ⟨s0, r0, s, r1, cur, k, ys, w0, w1, _, u3, h1, h2, k3, hle, hsum, h6, h7⟩

/-- **C65**, readings: with a neutral equation and no conditional model, the rows of a measurement of `n`
devices show what the instrument of the parameter reads from the true values of its first `n` devices;
these are the values of the equation for the initial, mechanism and latent values of the state left by the
preceding steps. -/
theorem C65_reading [LawfulRng W V] {ord : SetOrder} {dev : DeviceMdl W V} {env : PhysTestEnv V}
    (hnd : dev.prms.Nodup) (hm : ∀ p d, dev.prms.get? p = some (.deg d) → d.mechs.Nodup)
    {N : Nat → Prop} (hs : ∀ p d, dev.prms.get? p = some (.deg d) → DegShapes d N) {test : TestSpec V}
    {r : SimReport V} {w w' : W} (h : simulate ord test dev env none w = (.ok r, w'))
    {pre post : List (Step V)} {step : MeasSpec V} (ht : test.steps = pre ++ .meas step :: post)
    (hnm : step.measurements.Nodup) {prm : String} {n : Nat} (hp : (prm, n) ∈ step.measurements)
    {m : DegPrmMdl W V} (hd : dev.prms.get? prm = some (.deg m)) {g : (String → V) → V}
    {S : PyVal V → Prop} (he : HasEquation m g N S) (hneu : Neutral m g)
    (hc : m.condMdl.compute = constEqn m.condUnitary)
    (hN : SizesIn N r.info := by intro _ _ _; trivial)
    (hNn : N (test.numLots * test.numChps * n) := by trivial) :
    ∃ s0 r0 s r1 cur k ys, ∃ w0 w1 u2 u3 : W, simStart dev test none w = (.ok (s0, r0), w0) ∧
      runSteps ord dev env 0 pre (s0, r0) w0 = (.ok (s, r1), w1) ∧
      s.currPrm.get? prm = some (.arr cur) ∧ n ≤ k ∧ Computed m g s test.numLots test.numChps k prm ∧
      (instrumentOf env prm).measureVals
        ((expectedRows test.numLots test.numChps n cur.at' prm s.elapsed pre.length).map (·.measured))
        u2 = (.ok ys, u3) ∧
      rowsAt r.measurements pre.length prm = List.zipWith (fun x y => { x with measured := y })
        (expectedRows test.numLots test.numChps n cur.at' prm s.elapsed pre.length) ys :=
  kept_reading hnd hm hs h ht hnm hp hd he hc hN hNn
    (fun _ _ _ _ _ _ _ _ _ _ _ _ _ _ _ _ => hneu _ _)
    (fun _ _ _ _ _ _ _ _ _ _ _ _ _ _ _ _ _ _ _ _ => hneu _ _)

end

/-! ### An equation that is not a sum -/

section
open Ex

/-- `init * gain`: a relative degradation, with neutral value 1. -/
def gainExpr : NumExpr Q := .bin PyArith.mul (.arg "init") (.bin PyArith.add (.arg "gain") (.arg "cond"))

/-- A parameter with it, for a given neutral value. -/
def gainPrm (u : ℚ) : DegPrmMdl Counts Q :=
  { degPrm [("gain", { burn with unitary := .fin u })] (.fin 3) with
    mdl := { compute := gainExpr.fn ["init", "gain", "cond"], name := some "p" } }

theorem gain_equation (u : ℚ) : HasEquation (gainPrm u) fun env => exprOn env gainExpr :=
  expr_equation (params := ["init", "gain", "cond"]) rfl (by
    intro k
    simp [gainExpr, NumExpr.uses])

/-- With neutral value 1 it meets the hypotheses of `C65_start` and `C65_reading`. -/
example : Neutral (gainPrm 1) (fun env => exprOn env gainExpr) ∧ (gainPrm 1).condMdl.compute = constEqn (gainPrm 1).condUnitary := by
  refine ⟨fun x lat => ?_, rfl⟩
  show PyArith.mul x (PyArith.add (PyArith.ofRat 1) (PyArith.ofRat 0)) = x
  rw [UnitLaws.add_zero, UnitLaws.mul_one]

/-- With the default neutral value 0 it does not: a measurement would show 0 for every true value. -/
example (x : ℚ) (hx : x ≠ 0) (lat : String → Option Q) :
    exprOn (prmNames (.fin x) (gainPrm 0).condUnitary (fun k => ((gainPrm 0).mechs.get? k).map (·.unitary)) lat)
      gainExpr ≠ .fin x := by
  show PyArith.mul (Ext.fin x) (PyArith.add (PyArith.ofRat 0) (PyArith.ofRat 0)) ≠ _
  rw [UnitLaws.add_zero]
  intro h
  have : x * 0 = x := by injection h
  exact hx (by simpa using this.symm)

end
end Gerabaldi.Props
