import Verif.Spec.Rows
import Verif.Lemmas.Shape
import Verif.Lemmas.Helpers
import Verif.Lemmas.Mech
import Verif.Lemmas.Sim
import Verif.Lemmas.Env
import Verif.Props.Env

/-! # Shapes of the values in a simulation -/

set_option linter.unusedSectionVars false

namespace Gerabaldi
open Spec

section
variable {W V : Type}

/-- All arrays found in the dictionary have the given dimensions. -/
def GetDims (d : Dict (Arr3 V)) (L C D : Nat) : Prop := ∀ k a, d.get? k = some a → a.HasDims L C D

theorem DictDims.get {d : Dict (Arr3 V)} {L C D : Nat} (h : DictDims d L C D) : GetDims d L C D :=
  fun k a hk => h k a (Dict.mem_of_get? hk)

theorem M.catchValueError_ok {α : Type} {m h : M W α} {w w' : W} {a : α}
    (hc : M.catchValueError m h w = (.ok a, w')) :
    m w = (.ok a, w') ∨ ∃ w1, m w = (.error .valueError, w1) ∧ h w1 = (.ok a, w') := by
  unfold M.catchValueError at hc
  split at hc
  · rename_i w1 he
    exact .inr ⟨w1, he, hc⟩
  · exact .inl hc

theorem M.throw_ne_ok {α : Type} {e : Err} {w w' : W} {a : α}
    (h : (M.throw e : M W α) w = (.ok a, w')) : False := by cases h

variable [Inhabited V]

theorem fillArgs_uniform {src : String → Option (PyVal V)} {names : List String}
    {acc : Dict (PyVal V)} {L C D : Nat} (ha : uniformShape acc L C D)
    (hs : ∀ k a, src k = some (.arr a) → a.HasDims L C D) :
    uniformShape (fillArgs src names acc) L C D := by
  induction names generalizing acc with
  | nil => exact ha
  | cons n rest ih =>
    refine ih ?_
    cases hn : src n with
    | none => exact ha
    | some v =>
      intro k a hk
      rcases Dict.mem_set hk with h | h
      · cases h
        exact hs _ _ hn
      · exact ha _ _ h

theorem fillMissing_uniform {src : String → Option (PyVal V)} {names : List String}
    {acc : Dict (PyVal V)} {L C D : Nat} (ha : uniformShape acc L C D)
    (hs : ∀ k a, src k = some (.arr a) → a.HasDims L C D) :
    uniformShape (fillMissing src names acc) L C D := by
  induction names generalizing acc with
  | nil => exact ha
  | cons n rest ih =>
    refine ih ?_
    split
    · exact ha
    · cases hn : src n with
      | none => exact ha
      | some v =>
        intro k a hk
        rcases Dict.mem_set hk with h | h
        · cases h
          exact hs _ _ hn
        · exact ha _ _ h

theorem lookup2_dims {lat conds : Dict (Arr3 V)} {L C D : Nat} (hl : GetDims lat L C D)
    (hc : GetDims conds L C D) (k : String) (a : Arr3 V) (h : lookup2 lat conds k = some (.arr a)) :
    a.HasDims L C D := by
  unfold lookup2 at h
  cases h1 : lat.get? k with
  | some b =>
    rw [h1] at h
    cases h
    exact hl _ _ h1
  | none =>
    rw [h1] at h
    cases h2 : conds.get? k with
    | none => simp [h2] at h
    | some b =>
      simp only [h2, Option.map_some, Option.some.injEq, PyVal.arr.injEq] at h
      subst h
      exact hc _ _ h2

end

section
variable {W V : Type} [PyNum V]

theorem ownLatent_dims {lat : Dict (LatNode V)} {L C D : Nat} (hl : LatDims lat L C D) (k : String)
    (a : Arr3 V) (h : ownLatent lat k = some (.arr a)) : a.HasDims L C D := by
  unfold ownLatent at h
  split at h
  · rename_i b hb
    cases h
    exact hl _ _ (Dict.mem_of_get? hb)
  · cases h

theorem subLatents_dims {lat : Dict (LatNode V)} {L C D : Nat} (hl : LatDims lat L C D) {k : String}
    {d : Dict (Arr3 V)} (h : subLatents lat k = .ok d) : GetDims d L C D := by
  unfold subLatents at h
  split at h
  · rename_i d' hd
    cases h
    exact DictDims.get (hl _ _ (Dict.mem_of_get? hd))
  · cases h
  · cases h

theorem invoke_dims {f : PyFun W V} {N : Nat → Prop} {A} (hf : ShapeSafe f N A) {args : Dict (PyVal V)}
    {L C D : Nat} (hu : uniformShape args L C D) {w w' : W} {v : PyVal V}
    (h : f.invoke args w = (.ok v, w')) (hN : N (L * C * D) := by trivial) (hA : A args := by trivial) :
    (∀ a, v = .arr a → a.HasDims L C D) ∧
      ((∃ k a, args.get? k = some (PyVal.arr a)) → ∃ a, v = .arr a) := by
  exact hf _ _ _ _ _ _ _ hN hA hu h

theorem computeOrLoop_dims {f : PyFun W V} {N : Nat → Prop} {A} (hf : ShapeSafe f N A)
    {args : Dict (PyVal V)} {L C D : Nat} (hu : uniformShape args L C D) {w w' : W} {v : PyVal V}
    (h : computeOrLoop f args L C D w = (.ok v, w')) (hN : N (L * C * D) := by trivial)
    (hA : A args := by trivial) : (∀ a, v = .arr a → a.HasDims L C D) ∧
      ((∃ k a, args.get? k = some (PyVal.arr a)) → ∃ a, v = .arr a) := by
  rcases M.catchValueError_ok h with h | ⟨w1, _, h⟩
  · exact invoke_dims hf hu h hN hA
  · obtain ⟨a, h1, rfl⟩ := M.bind_pure_ok.1 h
    refine ⟨fun b hb => ?_, fun _ => ⟨a, rfl⟩⟩
    cases hb
    exact (loopCompute_ok_inv h1).1

theorem computeOrLoop_arr {f : PyFun W V} {N : Nat → Prop} {A} (hf : ShapeSafe f N A)
    {args : Dict (PyVal V)} {L C D : Nat} (hu : uniformShape args L C D)
    (ha : ∃ k a, args.get? k = some (PyVal.arr a)) {w w' : W} {v : PyVal V}
    (h : computeOrLoop f args L C D w = (.ok v, w')) (hN : N (L * C * D) := by trivial)
    (hA : A args := by trivial) : ∃ a, v = .arr a ∧ a.HasDims L C D := by
  obtain ⟨h1, h2⟩ := computeOrLoop_dims hf hu h hN hA
  obtain ⟨a, rfl⟩ := h2 ha
  exact ⟨a, rfl, h1 a rfl⟩

theorem ownArrays_args {d : DegPrmMdl W V} {i : Arr3 V} {c : PyVal V} {rest : Dict (PyVal V)}
    (hr : ∀ k ∈ rest.keys, k ∈ d.mechs.keys) (lat : Dict (LatNode V)) (names : List String) :
    OwnArrays d (fillMissing (ownLatent lat) names (Dict.update [("init", .arr i), ("cond", c)] rest)) := by
  intro k v hk hc hm
  rw [fillMissing_get?] at hk
  cases hg : (Dict.update [("init", PyVal.arr i), ("cond", c)] rest).get? k with
  | some u =>
    rw [hg] at hk
    cases hk
    rcases Dict.mem_update (Dict.mem_of_get? hg) with h | h
    · exact absurd (hr k (List.mem_map.2 ⟨_, h, rfl⟩)) hm
    · rcases List.mem_cons.1 h with h | h
      · cases h
        exact ⟨i, rfl⟩
      · cases List.mem_singleton.1 h
        exact absurd rfl hc
  | none =>
    rw [hg, Option.none_or] at hk
    split at hk
    · unfold ownLatent at hk
      split at hk
      · cases hk
        exact ⟨_, rfl⟩
      · cases hk
    · cases hk

/-! ## Mechanisms -/

theorem mechArgs_uniform (m : MechMdl W V) {times : Arr3 V} {conds lat : Dict (Arr3 V)} {L C D : Nat}
    (ht : times.HasDims L C D) (hc : GetDims conds L C D) (hl : GetDims lat L C D) :
    uniformShape (m.args times conds lat) L C D := by
  refine fillArgs_uniform ?_ (lookup2_dims hl hc)
  intro k a hk
  cases List.mem_singleton.1 hk
  exact ht

theorem mechArgs_arr (m : MechMdl W V) (times : Arr3 V) (conds lat : Dict (Arr3 V)) :
    ∃ k a, (m.args times conds lat).get? k = some (PyVal.arr a) := by
  have h : (m.args times conds lat).has "time" = true := fillArgs_has _ _ rfl
  obtain ⟨v, hv⟩ := Option.isSome_iff_exists.1 h
  have hv2 := hv
  unfold MechMdl.args at hv2
  rw [fillArgs_get?] at hv2
  have : ∃ a, v = .arr a := by
    have hsrc : ∀ u, lookup2 lat conds "time" = some u → ∃ a, u = PyVal.arr a := by
      intro u hu
      unfold lookup2 at hu
      split at hu
      · cases hu; exact ⟨_, rfl⟩
      · obtain ⟨a, _, rfl⟩ := Option.map_eq_some_iff.1 hu
        exact ⟨a, rfl⟩
    split at hv2
    · cases hs : lookup2 lat conds "time" with
      | some u =>
        rw [hs] at hv2
        cases hv2
        exact hsrc _ hs
      | none =>
        rw [hs] at hv2
        simp only [Option.none_or, Dict.get?_cons, if_true] at hv2
        cases hv2
        exact ⟨_, rfl⟩
    · simp only [Dict.get?_cons, if_true] at hv2
      cases hv2
      exact ⟨_, rfl⟩
  obtain ⟨a, rfl⟩ := this
  exact ⟨_, a, hv⟩

theorem bcast2_same_dims {U T : Type} [Inhabited U] {f : V → U → T} {a : Arr3 V} {b : Arr3 U}
    {r : Arr3 T} {L C D : Nat} (ha : a.HasDims L C D) (hb : b.HasDims L C D)
    (h : Arr3.bcast2 f a b = .ok r) : r.HasDims L C D := by
  obtain ⟨a1, a2, a3⟩ := ha
  obtain ⟨b1, b2, b3⟩ := hb
  unfold Arr3.bcast2 at h
  rw [a1, a2, a3, b1, b2, b3, Arr3.bdim_self, Arr3.bdim_self, Arr3.bdim_self] at h
  cases h
  exact Arr3.ofFn_hasDims _ _ _ _

theorem calcDeg_dims {m : MechMdl W V} {N : Nat → Prop} (hf : ShapeSafe m.mdl.compute N)
    {times pre : Arr3 V}
    {conds lat : Dict (Arr3 V)} {L C D : Nat} (ht : times.HasDims L C D) (hp : pre.HasDims L C D)
    (hc : GetDims conds L C D) (hl : GetDims lat L C D) {w w' : W} {r : Arr3 V}
    (h : m.calcDegVals times pre conds lat L C D w = (.ok r, w'))
    (hN : N (L * C * D) := by trivial) : r.HasDims L C D := by
  have base : ∀ {r w'}, m.calcDegBase times pre conds lat L C D w = (.ok r, w') →
      r.HasDims L C D := by
    intro r w' h
    unfold MechMdl.calcDegBase at h
    obtain ⟨mask, h1, g⟩ := M.ofExcept_bind_ok.1 h
    obtain ⟨v, w1, h2, g2⟩ := M.bind_eq_ok.1 g
    obtain ⟨a, rfl, ha⟩ := computeOrLoop_arr hf (mechArgs_uniform m ht hc hl)
      (mechArgs_arr m times conds lat) h2 hN
    exact bcast2_same_dims (bcast2_same_dims ht hp h1) ha (M.ofExcept_eq_ok.1 g2).1
  by_cases hk : m.kind = .fail
  · rw [calcDegVals_fail hk] at h
    obtain ⟨r0, w1, h1, h2⟩ := M.bind_eq_ok.1 h
    exact bcast2_same_dims hp (base h1) (M.ofExcept_eq_ok.1 h2).1
  · rw [calcDegVals_other hk] at h
    exact base h

theorem calcEquiv_dims {m : MechMdl W V} {cur : Arr3 V} {conds lat : Dict (Arr3 V)} {L C D : Nat}
    {w w' : W} {r : Arr3 V} (h : m.calcEquiv cur conds lat L C D w = (.ok r, w')) :
    r.HasDims cur.nl cur.nc cur.nd := by
  unfold MechMdl.calcEquiv at h
  cases hk : m.kind <;> rw [hk] at h
  · replace h : m.calcEquivSearch cur conds lat L C D w = _ := h
    unfold MechMdl.calcEquivSearch at h
    obtain ⟨ts, w1, _, h2⟩ := M.bind_eq_ok.1 h
    obtain ⟨h3, h4, h5, _⟩ := Arr3.reshape_eq_ok.1 (M.ofExcept_eq_ok.1 h2).1
    exact ⟨h3, h4, h5⟩
  · cases h
    exact ⟨rfl, rfl, rfl⟩
  · cases h

theorem degLoop_dims {times conds : Dict (Arr3 V)} {lat : Dict (LatNode V)}
    {degVals mv : Dict (Arr3 V)} {L C D : Nat} {mechs : Dict (MechMdl W V)} {N : Nat → Prop}
    (hf : ∀ k m, (k, m) ∈ mechs → ShapeSafe m.mdl.compute N) (ht : GetDims times L C D)
    (hp : GetDims degVals L C D) (hc : GetDims conds L C D) (hl : LatDims lat L C D) {w w' : W}
    (h : M.forIn' (DegPrmMdl.degStep times conds lat degVals L C D) mechs [] w = (.ok mv, w'))
    (hN : N (L * C * D) := by trivial) : DictDims mv L C D := by
  refine M.forIn'_ok_inv (P := fun _ acc _ => DictDims acc L C D) h (fun k a hk => by cases hk) ?_
  intro pre kv post b1 w1 b2 w2 hx hb hs
  rw [degStep_eq] at hs
  obtain ⟨v, h1, rfl⟩ := M.bind_pure_ok.1 hs
  obtain ⟨t, p, sl, g1, g2, g3, g4⟩ := degOne_ok h1
  intro k a hk
  rcases Dict.mem_set hk with hk | hk
  · cases hk
    exact calcDeg_dims (hf kv.1 kv.2 (by rw [hx]; simp)) (ht _ _ g1) (hp _ _ g2) hc
      (subLatents_dims hl g3) g4 hN
  · exact hb k a hk

theorem equivLoop_dims {conds : Dict (Arr3 V)} {lat : Dict (LatNode V)}
    {initVals degVals eq0 : Dict (Arr3 V)} {L C D : Nat} {mechs : Dict (MechMdl W V)}
    (hp : GetDims degVals L C D) {w w' : W}
    (h : M.forIn' (DegPrmMdl.equivStep conds lat initVals degVals L C D) mechs [] w = (.ok eq0, w')) :
    DictDims eq0 L C D := by
  refine M.forIn'_ok_inv (P := fun _ acc _ => DictDims acc L C D) h (fun k a hk => by cases hk) ?_
  intro pre kv post b1 w1 b2 w2 hx hb hs
  rw [equivStep_eq] at hs
  obtain ⟨v, h1, rfl⟩ := M.bind_pure_ok.1 hs
  obtain ⟨cur, sl, g1, g2, g3⟩ := equivOne_ok h1
  intro k a hk
  rcases Dict.mem_set hk with hk | hk
  · cases hk
    obtain ⟨e1, e2, e3⟩ := calcEquiv_dims g3
    obtain ⟨d1, d2, d3⟩ := hp _ _ g1
    exact ⟨e1.trans d1, e2.trans d2, e3.trans d3⟩
  · exact hb k a hk

theorem addDurations_dims {t : TimeVal} {mechs : Dict (MechMdl W V)} {d r : Dict (Arr3 V)}
    {L C D : Nat} (hd : DictDims d L C D) (h : addDurations t mechs d = .ok r) : DictDims r L C D := by
  unfold addDurations at h
  induction d generalizing r with
  | nil => cases h; exact hd
  | cons kv rest ih =>
    rw [List.mapM_cons] at h
    cases h1 : addDuration t mechs kv with
    | error e => rw [h1] at h; cases h
    | ok y =>
      rw [h1] at h
      cases h2 : List.mapM (addDuration t mechs) rest with
      | error e => rw [h2] at h; cases h
      | ok ys =>
        rw [h2] at h
        cases h
        have hy : y.2.HasDims L C D := by
          have h0 := hd kv.1 kv.2 List.mem_cons_self
          unfold addDuration at h1
          split at h1
          · cases h1
          · split at h1
            · cases h1
            · cases h1
              exact h0
            · cases h1
        intro k a hk
        rcases List.mem_cons.1 hk with hk | hk
        · rw [← hk] at hy
          exact hy
        · exact ih (fun k a hk => hd k a (List.mem_cons_of_mem _ hk)) h2 k a hk

end

/-! ## Conditions -/

section
variable {W V : Type} [PyArith V] [Rng W V]

theorem shared_dims {env : PhysTestEnv V} {C L : Nat} {base : Dict V} {w w' : W}
    {shared : Dict (V × Arr3 V)}
    (h : M.forIn' (env.genShared C L) base [] w = (.ok shared, w')) {cond : String}
    {bc : V × Arr3 V} (hc : shared.get? cond = some bc) : bc.2.HasDims L C 1 := by
  rw [genShared_eq] at h
  obtain ⟨h1, _, _⟩ := M.forIn'_set h
  rcases h1 _ _ hc with ⟨hx, _⟩ | ⟨kv, hk, hkey, w1, w2, hg⟩
  · cases hx
  · unfold sharedOf at hg
    obtain ⟨b, w3, g1, hg1⟩ := M.bind_eq_ok.1 hg
    obtain ⟨c, g2, hg2⟩ := M.bind_pure_ok.1 hg1
    subst hg2
    exact genChp_dims g2

/-- The condition values of a device parameter. -/
theorem conds_dims {env : PhysTestEnv V} {ord : SetOrder} {base : Dict V} {prms : PrmSel}
    {q : Quantities} {dev : DeviceMdl W V} {t : Target} {nc nl : Nat} {w w' : W}
    {r : Dict (Dict (Arr3 V))}
    (h : env.genEnvCondVals ord base prms (some q) (some dev) t nc nl w = (.ok r, w'))
    {counts : Dict Nat} (hcnt : prms.devCounts (some q) = .ok counts) {prm : String}
    (hp : prm ∈ prms.toList) (hd : prm ∈ dev.prms.keys) {n : Nat} (hn : counts.get? prm = some n)
    {cs : Dict (Arr3 V)} (hcs : r.get? prm = some cs) : GetDims cs q.numLots q.numChps n := by
  obtain ⟨p, hp'⟩ := Dict.get?_isSome_of_mem_keys hd
  obtain ⟨shared, counts', w1, h1, h2, h3⟩ := genEnvCondVals_inv h
  rw [hcnt] at h2
  cases h2
  obtain ⟨d, w2, w3, h4, h5⟩ := result_get h3 hp
  rw [hcs] at h4
  cases h4
  obtain ⟨g1, g2⟩ := depend_get hp' h5
  intro c a ha
  obtain ⟨hc, hnc⟩ := g2 c a ha
  obtain ⟨a', bc, n', w4, w5, e1, e2, e3, e4⟩ := g1 c hc hnc
  rw [ha] at e1
  cases e1
  rw [hn] at e3
  cases e3
  obtain ⟨_, _, _, e5, _⟩ := Props.genDev_ok (shared_dims h1 e2) e4
  exact e5

end

/-! ## The state -/

section
variable {W V : Type} [PyNum V]

/-- What the state holds for a degraded parameter: arrays of `n` devices per chip. -/
structure DegHolds (d : DegPrmMdl W V) (s : SimState V) (L C n : Nat) (p : String) : Prop where
  prm : ∃ a, s.currPrm.get? p = some (.arr a) ∧ a.HasDims L C n
  init : ∃ a, s.initPrm.get? p = some (.arr a) ∧ a.HasDims L C n
  mech : ∃ m, s.currMech.get? p = some m ∧ m.keys = d.mechs.keys ∧ DictDims m L C n
  initMech : ∃ m, s.initMech.get? p = some m ∧ m.keys = d.mechs.keys ∧ DictDims m L C n

/-- Every value of the state has the dimensions of the test. -/
structure StateShape (dev : DeviceMdl W V) (q : Quantities) (s : SimState V) : Prop where
  count : ∀ p m, dev.prms.get? p = some m → ∃ n lat, q.devCounts.get? p = some n ∧
    s.latents.get? p = some lat ∧ LatDims lat q.numLots q.numChps n
  deg : ∀ p d n, dev.prms.get? p = some (.deg d) → q.devCounts.get? p = some n →
    DegHolds d s q.numLots q.numChps n p
  only : ∀ p, (∀ d, dev.prms.get? p ≠ some (.deg d)) → s.currPrm.get? p = none

theorem mem_degPrms {dev : DeviceMdl W V} {p : String} {d : DegPrmMdl W V} :
    (p, d) ∈ dev.degPrms ↔ (p, PrmMdl.deg d) ∈ dev.prms := by
  unfold DeviceMdl.degPrms
  rw [List.mem_filterMap]
  constructor
  · rintro ⟨⟨k, m⟩, hk, he⟩
    cases m with
    | deg d' => cases he; exact hk
    | circ c => cases he
  · exact fun h => ⟨_, h, rfl⟩

theorem degArgs_uniform (d : DegPrmMdl W V) {ip : PyVal V} {mv : Dict (Arr3 V)}
    {lat : Dict (LatNode V)} {L C n : Nat} (hi : ∀ a, ip = .arr a → a.HasDims L C n)
    (hm : DictDims mv L C n) (hl : LatDims lat L C n) : uniformShape (d.degArgs ip mv lat) L C n := by
  refine fillMissing_uniform ?_ (ownLatent_dims hl)
  intro k a hk
  rcases Dict.mem_update hk with hk | hk
  · obtain ⟨kv, hkv, he⟩ := List.mem_map.1 hk
    cases he
    exact hm _ _ hkv
  · rcases List.mem_cons.1 hk with hk | hk
    · cases hk
      exact hi _ rfl
    · cases List.mem_singleton.1 hk

/-- One of the arguments is an array. -/
theorem fillMissing_arr {src : String → Option (PyVal V)} {names : List String} {acc : Dict (PyVal V)}
    {k : String} {a : Arr3 V} (h : acc.get? k = some (.arr a)) :
    (fillMissing src names acc).get? k = some (PyVal.arr a) := by
  rw [fillMissing_get?, h]
  rfl

theorem update_arr {d d' : Dict (PyVal V)} {k : String} (h : ∃ a, d.get? k = some (.arr a))
    (h' : ∀ v, (k, v) ∈ d' → ∃ a, v = .arr a) : ∃ a, (d.update d').get? k = some (.arr a) := by
  unfold Dict.update
  induction d' generalizing d with
  | nil => exact h
  | cons kv rest ih =>
    refine ih ?_ (fun v hv => h' v (List.mem_cons_of_mem _ hv))
    simp only [Dict.get?_set]
    split
    · rename_i hk
      subst hk
      obtain ⟨a, ha⟩ := h' kv.2 List.mem_cons_self
      exact ⟨a, congrArg _ ha⟩
    · exact h

theorem degArgs_arr (d : DegPrmMdl W V) {a : Arr3 V} {mv : Dict (Arr3 V)}
    {lat : Dict (LatNode V)} : ∃ k b, (d.degArgs (.arr a) mv lat).get? k = some (PyVal.arr b) := by
  unfold DegPrmMdl.degArgs
  obtain ⟨b, hb⟩ := update_arr (d := [("init", PyVal.arr a), ("cond", .scal d.condUnitary)])
    (d' := mv.map fun kv => (kv.1, PyVal.arr kv.2)) (k := "init") ⟨a, rfl⟩ (by
      intro v hv
      obtain ⟨kv, _, he⟩ := List.mem_map.1 hv
      exact ⟨kv.2, (congrArg Prod.snd he).symm⟩)
  exact ⟨_, b, fillMissing_arr hb⟩

/-- Stress of one parameter keeps the shapes. -/
theorem stressPrm_shape {dev : DeviceMdl W V} (hnd : dev.prms.Nodup) (hm : ∀ p d,
      dev.prms.get? p = some (.deg d) → d.mechs.Nodup)
    {N : Nat → Prop}
    (hs : ∀ p d, dev.prms.get? p = some (.deg d) → DegShapes d N) {q : Quantities} {dur : TimeVal}
    {conds : Dict (Dict (Arr3 V))} {s s' : SimState V} {kv : String × DegPrmMdl W V} {w w' : W}
    (hkv : kv ∈ dev.degPrms)
    (hc : ∀ n cs, q.devCounts.get? kv.1 = some n → conds.get? kv.1 = some cs →
      GetDims cs q.numLots q.numChps n)
    (hshape : StateShape dev q s) (h : stressPrm q dur conds s kv w = (.ok s', w'))
    (hN : SizesIn N q := by intro _ _ _; trivial) : StateShape dev q s' := by
  obtain ⟨p, d⟩ := kv
  have hp : dev.prms.get? p = some (.deg d) := Dict.get?_of_mem hnd (mem_degPrms.1 hkv)
  obtain ⟨n, cur, cs, im, lat, eq0, times, ip, v, mv, w1, w2, h1, h2, h3, h4, h5, h6, h7, h8, h9, h10,
    rfl⟩ := stressPrm_ok h
  simp only at h1 h2 h3 h4 h5 h6 h7 h8 h9 h10
  have hd := hshape.deg p d n hp h1
  obtain ⟨n', lat', e1, e2, hlat⟩ := hshape.count p _ hp
  rw [h1] at e1
  cases e1
  rw [h5] at e2
  cases e2
  obtain ⟨ia, hia, hid⟩ := hd.init
  rw [h8] at hia
  cases hia
  obtain ⟨cur', hcur, hck, hcd⟩ := hd.mech
  rw [h2] at hcur
  cases hcur
  have hdev := hs p d hp
  have ht := addDurations_dims (equivLoop_dims hcd.get h6) h7
  have hmv := degLoop_dims hdev.mechs ht.get hcd.get (hc n cs h1 h3) hlat h9 (hN p n h1)
  have hk := degLoop_keys (hm p d hp) h9
  obtain ⟨a, rfl, ha⟩ := computeOrLoop_arr hdev.eqn (degArgs_uniform d (fun b hb => by
    cases hb; exact hid) hmv hlat) (degArgs_arr d) h10 (hN p n h1) (ownArrays_args (fun k hk' => by
      rw [← hk]
      simpa [Dict.keys, Function.comp_def] using hk') _ _)
  refine ⟨hshape.count, ?_, ?_⟩
  · intro p' d' n' hp' hn'
    have hd' := hshape.deg p' d' n' hp' hn'
    by_cases hpp : p = p'
    · subst hpp
      rw [hp] at hp'
      cases hp'
      rw [h1] at hn'
      cases hn'
      exact ⟨⟨a, Dict.get?_set_self .., ha⟩, hd'.init, ⟨mv, Dict.get?_set_self .., hk, hmv⟩,
        hd'.initMech⟩
    · refine ⟨?_, hd'.init, ?_, hd'.initMech⟩
      · obtain ⟨b, hb⟩ := hd'.prm
        exact ⟨b, (Dict.get?_set_ne _ _ hpp).trans hb.1, hb.2⟩
      · obtain ⟨b, hb⟩ := hd'.mech
        exact ⟨b, (Dict.get?_set_ne _ _ hpp).trans hb.1, hb.2⟩
  · intro p' hp'
    refine (Dict.get?_set_ne _ _ ?_).trans (hshape.only p' hp')
    rintro rfl
    exact hp' d hp

variable [Rng W V]

/-- A stress step keeps the shapes. -/
theorem simStress_shape {ord : SetOrder} {dev : DeviceMdl W V} {env : PhysTestEnv V}
    (hnd : dev.prms.Nodup) (hm : ∀ p d, dev.prms.get? p = some (.deg d) → d.mechs.Nodup)
    {N : Nat → Prop}
    (hs : ∀ p d, dev.prms.get? p = some (.deg d) → DegShapes d N) {step : StrsSpec V} {i : Nat}
    {s s' : SimState V} {r r' : SimReport V} {w w' : W} (hshape : StateShape dev r.info s)
    (h : simStress ord dev env step i (s, r) w = (.ok (s', r'), w'))
    (hN : SizesIn N r.info := by intro _ _ _; trivial) : StateShape dev r'.info s' := by
  obtain ⟨conds, s1, e, st, w1, h1, h2, _, _, rfl, rfl⟩ := simStress_ok h
  have : StateShape dev r.info s1 := by
    refine M.forIn'_ok_inv (P := fun _ s _ => StateShape dev r.info s) h2 hshape ?_
    intro pre kv post s2 w2 s3 w3 hx hb hstep
    have hkv : kv ∈ dev.degPrms := by rw [hx]; simp
    refine stressPrm_shape hnd hm hs hkv (fun n cs hn hcs => ?_) hb hstep hN
    refine conds_dims h1 rfl (List.mem_map_of_mem hkv) ?_ hn hcs
    exact List.mem_map_of_mem (mem_degPrms.1 hkv)
  exact ⟨this.count, fun p d n hp hn => ⟨(this.deg p d n hp hn).prm, (this.deg p d n hp hn).init,
    (this.deg p d n hp hn).mech, (this.deg p d n hp hn).initMech⟩, this.only⟩

/-- Every run keeps the shapes. -/
theorem runSteps_shape {ord : SetOrder} {dev : DeviceMdl W V} {env : PhysTestEnv V}
    (hnd : dev.prms.Nodup) (hm : ∀ p d, dev.prms.get? p = some (.deg d) → d.mechs.Nodup)
    {N : Nat → Prop}
    (hs : ∀ p d, dev.prms.get? p = some (.deg d) → DegShapes d N) {steps : List (Step V)} {i : Nat}
    {sr sr' : SimState V × SimReport V} {w w' : W} (hshape : StateShape dev sr.2.info sr.1)
    (h : runSteps ord dev env i steps sr w = (.ok sr', w'))
    (hN : SizesIn N sr.2.info := by intro _ _ _; trivial) :
    StateShape dev sr'.2.info sr'.1 ∧ sr'.2.info = sr.2.info := by
  refine M.forIn'_ok_inv (P := fun _ x _ => StateShape dev x.2.info x.1 ∧ x.2.info = sr.2.info) h
    ⟨hshape, rfl⟩ ?_
  intro pre is post b1 w1 b2 w2 _ hb hf
  obtain ⟨s1, r1⟩ := b1
  obtain ⟨s2, r2⟩ := b2
  obtain ⟨j, st⟩ := is
  cases st with
  | strs st =>
    refine ⟨simStress_shape hnd hm hs hb.1 hf (by rw [hb.2]; exact hN), ?_⟩
    obtain ⟨_, _, _, _, _, _, _, _, _, _, rfl⟩ := simStress_ok hf
    exact hb.2
  | meas st =>
    obtain ⟨_, _, _, _, _, rfl, rfl⟩ := simMeas_ok hf
    exact hb
  | other o =>
    cases hf
    exact hb

end

end Gerabaldi
