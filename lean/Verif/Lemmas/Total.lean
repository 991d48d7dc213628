import Verif.Spec.Total
import Verif.Lemmas.Works
import Verif.Lemmas.State
import Verif.Props.Samples
import Verif.Props.Compose

/-! # The parts of a simulation that never raise -/

set_option linter.unusedSectionVars false

namespace Gerabaldi
open Spec

section
variable {W V : Type} [PyNum V]

/-! ## Equations -/

theorem accepts_of {f : PyFun W V} {args : Dict (PyVal V)}
    (h1 : ∀ p, (p, false) ∈ f.params → args.has p = true) (h2 : ∀ k ∈ args.keys, Takes f k) :
    f.accepts args = true := by
  unfold PyFun.accepts
  rw [Bool.and_eq_true]
  constructor
  · rw [List.all_eq_true]
    rintro ⟨p, b⟩ hp
    cases b with
    | true => rfl
    | false => simpa using h1 p hp
  · cases hk : f.kwName with
    | some k => rfl
    | none =>
      simp only [Option.isSome_none, Bool.false_or]
      rw [List.all_eq_true]
      intro kv hkv
      rcases h2 kv.1 (List.mem_map_of_mem hkv) with h | ⟨b, h⟩
      · rw [hk] at h; cases h
      · rw [List.any_eq_true]
        exact ⟨_, h, by simp⟩

theorem takes_of_argNames {f : PyFun W V} {k : String} (h : k ∈ f.argNames) : Takes f k := by
  unfold PyFun.argNames at h
  rcases List.mem_append.1 h with h | h
  · obtain ⟨⟨a, b⟩, hp, rfl⟩ := List.mem_map.1 h
    exact .inr ⟨b, hp⟩
  · cases hk : f.kwName with
    | none => rw [hk] at h; cases h
    | some k => exact .inl (by rw [hk]; rfl)

theorem mem_argNames {f : PyFun W V} {p : String} {b : Bool} (h : (p, b) ∈ f.params) :
    p ∈ f.argNames := List.mem_append_left _ (List.mem_map_of_mem (f := (·.1)) h)

theorem fillArgs_keys {src : String → Option (PyVal V)} {names : List String} {acc : Dict (PyVal V)}
    {k : String} (h : k ∈ (fillArgs src names acc).keys) : k ∈ acc.keys ∨ k ∈ names := by
  obtain ⟨v, hv⟩ := Dict.get?_isSome_of_mem_keys h
  rw [fillArgs_get?] at hv
  split at hv
  · exact .inr (by assumption)
  · exact .inl (Dict.mem_keys_of_get? hv)

theorem fillArgs_found {src : String → Option (PyVal V)} {names : List String} {acc : Dict (PyVal V)}
    {k : String} (h : k ∈ names) (hs : (src k).isSome = true) :
    (fillArgs src names acc).has k = true := by
  unfold Dict.has
  rw [fillArgs_get?, if_pos h]
  cases hk : src k with
  | none => rw [hk] at hs; cases hs
  | some v => rfl

theorem fillMissing_keys {src : String → Option (PyVal V)} {names : List String}
    {acc : Dict (PyVal V)} {k : String} (h : k ∈ (fillMissing src names acc).keys) :
    k ∈ acc.keys ∨ k ∈ names := by
  obtain ⟨v, hv⟩ := Dict.get?_isSome_of_mem_keys h
  rw [fillMissing_get?] at hv
  by_cases hk : k ∈ names
  · exact .inr hk
  · left
    cases ha : acc.get? k with
    | some x => exact Dict.mem_keys_of_get? ha
    | none => simp [ha, hk] at hv

theorem computeOrLoop_works {f : PyFun W V} (hf : EqnWorks f) {args : Dict (PyVal V)} {L C D : Nat}
    (hu : uniformShape args L C D) (hpl : plainScalars args) (ha : f.accepts args = true) (w : W) :
    ∃ v w', computeOrLoop f args L C D w = (.ok v, w') := by
  have hi : f.invoke args = f.call args := by unfold PyFun.invoke; rw [if_pos ha]
  unfold computeOrLoop M.catchValueError
  rw [hi]
  rcases hf args L C D w hu hpl ha with ⟨v, w', h⟩ | ⟨w1, a, w', h, h2⟩
  · rw [h]
    exact ⟨v, w', rfl⟩
  · rw [h]
    exact ⟨.arr a, w', M.bind_ok h2⟩

/-! ## Arguments are Python numbers and arrays -/

theorem fillArgs_plain {src : String → Option (PyVal V)} {names : List String}
    {acc : Dict (PyVal V)} (ha : plainScalars acc) (hs : ∀ k v, src k ≠ some (.npscal v)) :
    plainScalars (fillArgs src names acc) := by
  induction names generalizing acc with
  | nil => exact ha
  | cons n rest ih =>
    refine ih ?_
    cases hn : src n with
    | none => exact ha
    | some v =>
      intro k a hk
      rcases Dict.mem_set hk with h | h
      · cases h
        exact hs _ _ hn
      · exact ha _ _ h

theorem fillMissing_plain {src : String → Option (PyVal V)} {names : List String}
    {acc : Dict (PyVal V)} (ha : plainScalars acc) (hs : ∀ k v, src k ≠ some (.npscal v)) :
    plainScalars (fillMissing src names acc) := by
  induction names generalizing acc with
  | nil => exact ha
  | cons n rest ih =>
    refine ih ?_
    split
    · exact ha
    · cases hn : src n with
      | none => exact ha
      | some v =>
        intro k a hk
        rcases Dict.mem_set hk with h | h
        · cases h
          exact hs _ _ hn
        · exact ha _ _ h

theorem lookup2_plain (lat conds : Dict (Arr3 V)) (k : String) (v : V) :
    lookup2 lat conds k ≠ some (.npscal v) := by
  unfold lookup2
  split
  · simp
  · cases conds.get? k <;> simp

theorem ownLatent_plain (lat : Dict (LatNode V)) (k : String) (v : V) :
    ownLatent lat k ≠ some (.npscal v) := by
  unfold ownLatent
  split <;> simp

theorem mechArgs_plain (m : MechMdl W V) (times : Arr3 V) (conds lat : Dict (Arr3 V)) :
    plainScalars (m.args times conds lat) :=
  fillArgs_plain (fun k v h => by cases List.mem_singleton.1 h) (lookup2_plain lat conds)

theorem degArgs_plain (d : DegPrmMdl W V) (ia : Arr3 V) (mv : Dict (Arr3 V)) (lat : Dict (LatNode V)) :
    plainScalars (d.degArgs (.arr ia) mv lat) := by
  refine fillMissing_plain ?_ (ownLatent_plain lat)
  intro k a hk
  rcases Dict.mem_update hk with hk | hk
  · obtain ⟨kv, hkv, he⟩ := List.mem_map.1 hk
    cases he
  · rcases List.mem_cons.1 hk with hk | hk
    · cases hk
    · cases List.mem_singleton.1 hk

theorem shiftArgs_plain (d : DegPrmMdl W V) (cur : Arr3 V) {c : PyVal V} (lat : Dict (LatNode V))
    (hc : ∀ v, c ≠ .npscal v) : plainScalars (d.shiftArgs cur c lat) := by
  refine fillMissing_plain ?_ (ownLatent_plain lat)
  intro k a hk
  rcases Dict.mem_update hk with hk | hk
  · obtain ⟨kv, hkv, he⟩ := List.mem_map.1 hk
    cases he
  · rcases List.mem_cons.1 hk with hk | hk
    · cases hk
    · cases List.mem_singleton.1 hk
      exact hc _ rfl

theorem computeOrLoop_plain {f : PyFun W V} {args : Dict (PyVal V)}
    (hf : ∀ args (w w' : W) v, f.invoke args w ≠ (.ok (.npscal v), w')) {L C D : Nat} {w w' : W} {v : V}
    (h : computeOrLoop f args L C D w = (.ok (.npscal v), w')) : False := by
  unfold computeOrLoop M.catchValueError at h
  split at h
  · obtain ⟨a, w1, _, h2⟩ := M.bind_eq_ok.1 h
    cases h2
  · exact hf _ _ _ _ h

/-! ## Mechanisms -/

theorem lookup2_found {lat conds : Dict (Arr3 V)} {p : String}
    (h : lat.has p = true ∨ conds.has p = true) : (lookup2 lat conds p).isSome = true := by
  unfold lookup2
  rcases h with h | h
  · obtain ⟨a, ha⟩ := Option.isSome_iff_exists.1 h
    rw [ha]
    rfl
  · cases lat.get? p with
    | some a => rfl
    | none =>
      obtain ⟨a, ha⟩ := Option.isSome_iff_exists.1 h
      rw [ha]
      rfl

/-- The arguments of the mechanism's equation are there. -/
def MechArgs (m : MechMdl W V) (conds lat : Dict (Arr3 V)) : Prop :=
  ∀ p, (p, false) ∈ m.mdl.compute.params → p = "time" ∨ lat.has p = true ∨ conds.has p = true

theorem mechArgs_accepts {m : MechMdl W V} (ht : Takes m.mdl.compute "time")
    {conds lat : Dict (Arr3 V)} (ha : MechArgs m conds lat) (times : Arr3 V) :
    m.mdl.compute.accepts (m.args times conds lat) = true := by
  refine accepts_of (fun p hp => ?_) (fun k hk => ?_)
  · rcases ha p hp with rfl | h
    · exact fillArgs_has _ _ rfl
    · exact fillArgs_found (mem_argNames hp) (lookup2_found h)
  · rcases fillArgs_keys hk with h | h
    · cases List.mem_singleton.1 h
      exact ht
    · exact takes_of_argNames h

theorem absDiff_ok {cur a : Arr3 V} {L C D : Nat} (hc : cur.HasDims L C D) (ha : a.HasDims L C D) :
    ∃ r, absDiff cur (.arr a) = .ok r ∧ r.HasDims L C D := by
  unfold absDiff PyVal.toArr
  obtain ⟨h1, h2, h3⟩ := hc
  obtain ⟨g1, g2, g3⟩ := ha
  unfold Arr3.bcast2
  rw [h1, h2, h3, g1, g2, g3, Arr3.bdim_self, Arr3.bdim_self, Arr3.bdim_self]
  exact ⟨_, rfl, rfl, rfl, rfl⟩

theorem bcast2_works {U T : Type} [Inhabited U] (f : V → U → T) {a : Arr3 V} {b : Arr3 U}
    {L C D : Nat} (ha : a.HasDims L C D) (hb : b.HasDims L C D) :
    ∃ r, Arr3.bcast2 f a b = .ok r ∧ r.HasDims L C D := by
  obtain ⟨h1, h2, h3⟩ := ha
  obtain ⟨g1, g2, g3⟩ := hb
  unfold Arr3.bcast2
  rw [h1, h2, h3, g1, g2, g3, Arr3.bdim_self, Arr3.bdim_self, Arr3.bdim_self]
  exact ⟨_, rfl, rfl, rfl, rfl⟩

theorem residueArr_works {m : MechMdl W V} (hf : EqnWorks m.mdl.compute)
    {N : Nat → Prop} (hs : ShapeSafe m.mdl.compute N) (ht : Takes m.mdl.compute "time") {cur times : Arr3 V}
    {conds lat : Dict (Arr3 V)} (ha : MechArgs m conds lat) {L C D : Nat} (hcur : cur.HasDims L C D)
    (htm : times.HasDims L C D) (hc : GetDims conds L C D) (hl : GetDims lat L C D) (w : W)
    (hN : N (L * C * D) := by trivial) :
    ∃ r w', m.residueArr cur conds lat L C D times w = (.ok r, w') ∧ r.HasDims L C D := by
  have hu := mechArgs_uniform m htm hc hl
  have hacc := mechArgs_accepts ht ha times
  have hi : m.mdl.compute.invoke (m.args times conds lat) = m.mdl.compute.call (m.args times conds lat) :=
    by unfold PyFun.invoke; rw [if_pos hacc]
  unfold MechMdl.residueArr M.catchValueError
  rcases hf _ L C D w hu (mechArgs_plain m times conds lat) hacc with ⟨v, w', h⟩ | ⟨w1, a, w', h, h2⟩
  · rw [← hi] at h
    obtain ⟨g1, g2⟩ := invoke_dims hs hu h hN
    obtain ⟨a, rfl⟩ := g2 (mechArgs_arr m times conds lat)
    obtain ⟨r, hr, hd⟩ := absDiff_ok hcur (g1 a rfl)
    rw [M.bind_ok h, M.ofExcept_run, hr]
    exact ⟨r, w', rfl, hd⟩
  · rw [← hi] at h
    obtain ⟨r, hr, hd⟩ := absDiff_ok hcur (loopCompute_ok_inv h2).1
    rw [M.bind_error h]
    refine ⟨r, w', ?_, hd⟩
    show (loopCompute _ _ _ _ _ >>= _) w1 = _
    rw [M.bind_ok h2, M.ofExcept_run, hr]

theorem minLoop_total {c : MinCfg V} {f : List V → M W (List V)} {n : Nat}
    (hf : ∀ xs : List V, xs.length = n → ∀ w, ∃ ys w', f xs w = (.ok ys, w') ∧ ys.length = n) (k : Nat)
    (ss : List (BState V)) (hs : ss.length = n) (w : W) :
    ∃ r w', minLoop c f k ss w = (.ok r, w') ∧ r.length = n := by
  induction k generalizing ss w with
  | zero => exact ⟨ss, w, rfl, hs⟩
  | succ k ih =>
    unfold minLoop
    split
    · exact ⟨ss, w, rfl, hs⟩
    · obtain ⟨ys, w1, h1, hl⟩ := hf (nextPoints c ss) (by simp [nextPoints, hs]) w
      rw [M.bind_ok h1, if_pos (hl.trans hs.symm)]
      exact ih _ (by simp [updateAll, hl, hs]) w1

theorem minimize_total {c : MinCfg V} {f : List V → M W (List V)} {n : Nat}
    (hf : ∀ xs : List V, xs.length = n → ∀ w, ∃ ys w', f xs w = (.ok ys, w') ∧ ys.length = n) (w : W) :
    ∃ r w', minimize c f n w = (.ok r, w') ∧ r.length = n := by
  unfold minimize
  obtain ⟨ys, w1, h1, hl⟩ := hf (List.replicate n (c.xf c.x0)) (by simp) w
  rw [M.bind_ok h1, if_pos hl]
  obtain ⟨r, w2, h2, hr⟩ := minLoop_total hf c.maxiter (ys.map c.init) (by simp [hl]) w1
  rw [M.bind_ok h2]
  exact ⟨_, w2, rfl, by simp [hr]⟩

/-- The search returns times for every sample. -/
theorem calcEquiv_works {m : MechMdl W V} (hk : m.kind ≠ .base) (hf : EqnWorks m.mdl.compute)
    {N : Nat → Prop} (hs : ShapeSafe m.mdl.compute N) (ht : Takes m.mdl.compute "time") {cur : Arr3 V}
    {conds lat : Dict (Arr3 V)} (ha : MechArgs m conds lat) {L C D : Nat} (hcur : cur.HasDims L C D)
    (hc : GetDims conds L C D) (hl : GetDims lat L C D) (w : W)
    (hN : N (L * C * D) := by trivial) :
    ∃ r w', m.calcEquiv cur conds lat L C D w = (.ok r, w') := by
  unfold MechMdl.calcEquiv
  cases hkk : m.kind with
  | base => exact absurd hkk hk
  | fail => exact ⟨_, w, rfl⟩
  | deg =>
    simp only
    unfold MechMdl.calcEquivSearch
    have hlen : cur.data.length = cur.nl * cur.nc * cur.nd := cur.wf
    obtain ⟨r, w1, h1, hr⟩ := minimize_total (c := equivTimeCfg V) (n := cur.data.length)
      (f := m.residue cur conds lat L C D) (fun xs hx w => by
        obtain ⟨h1, h2, h3⟩ := hcur
        unfold MechMdl.residue
        simp only [M.bind_run, M.ofExcept_run, Arr3.reshape_ok (hx.trans hlen)]
        obtain ⟨r, w', hr, hd⟩ := residueArr_works hf hs ht ha (cur := cur)
          (times := ⟨cur.nl, cur.nc, cur.nd, xs, hx.trans hlen⟩) ⟨h1, h2, h3⟩ ⟨h1, h2, h3⟩ hc hl w hN
        rw [hr]
        refine ⟨r.data, w', rfl, ?_⟩
        rw [r.wf, hlen, h1, h2, h3, hd.1, hd.2.1, hd.2.2]) w
    rw [M.bind_ok h1, M.ofExcept_run, Arr3.reshape_ok (hr.trans hlen)]
    exact ⟨_, w1, rfl⟩

/-- The new values of a mechanism. -/
theorem calcDeg_works {m : MechMdl W V} (hf : EqnWorks m.mdl.compute)
    {N : Nat → Prop} (hs : ShapeSafe m.mdl.compute N) (ht : Takes m.mdl.compute "time") {times pre : Arr3 V}
    {conds lat : Dict (Arr3 V)} (ha : MechArgs m conds lat) {L C D : Nat} (htm : times.HasDims L C D)
    (hp : pre.HasDims L C D) (hc : GetDims conds L C D) (hl : GetDims lat L C D) (w : W)
    (hN : N (L * C * D) := by trivial) :
    ∃ r w', m.calcDegVals times pre conds lat L C D w = (.ok r, w') := by
  have base : ∃ r w', m.calcDegBase times pre conds lat L C D w = (.ok r, w') ∧ r.HasDims L C D := by
    unfold MechMdl.calcDegBase
    obtain ⟨mask, h1, hm⟩ := bcast2_works (fun t p => if pastLimit t then p else PyNum.inf) htm hp
    have hu := mechArgs_uniform m htm hc hl
    obtain ⟨v, w1, h2⟩ := computeOrLoop_works hf hu (mechArgs_plain m times conds lat) (mechArgs_accepts ht ha times) w
    obtain ⟨a, rfl, had⟩ := computeOrLoop_arr hs hu (mechArgs_arr m times conds lat) h2 hN
    obtain ⟨r, h3, hr⟩ := bcast2_works
      (fun k v => if PyArith.eq k PyNum.inf then v else k) hm had
    refine ⟨r, w1, ?_, hr⟩
    rw [h1]
    refine (M.bind_ok (a := mask) (w' := w) rfl).trans ((M.bind_ok h2).trans ?_)
    show (M.ofExcept _ : M W _) w1 = _
    rw [M.ofExcept_run, PyVal.toArr, h3]
  obtain ⟨r, w1, h1, hr⟩ := base
  by_cases hk : m.kind = .fail
  · rw [calcDegVals_fail hk, M.bind_ok h1, M.ofExcept_run]
    obtain ⟨r2, h2, _⟩ := bcast2_works (fun p v => if !(PyArith.eq p m.unitary) then p else v) hp hr
    rw [h2]
    exact ⟨_, _, rfl⟩
  · rw [calcDegVals_other hk]
    exact ⟨r, w1, h1⟩

/-! ## Parameters under stress -/

/-- The latent values the mechanisms of a parameter read. -/
def MechReads (d : DegPrmMdl W V) (conds : Dict (Arr3 V)) (lat : Dict (LatNode V)) : Prop :=
  ∀ k m, (k, m) ∈ d.mechs → ∃ sl, subLatents lat k = .ok sl ∧ MechArgs m conds sl

theorem equivLoop_works {mechs : Dict (MechMdl W V)} {N : Nat → Prop}
    (hw : ∀ k m, (k, m) ∈ mechs → m.kind ≠ .base ∧ EqnWorks m.mdl.compute ∧ ShapeSafe m.mdl.compute N ∧
      Takes m.mdl.compute "time")
    {conds initVals degVals : Dict (Arr3 V)} {lat : Dict (LatNode V)} {L C D : Nat}
    (hr : ∀ k m, (k, m) ∈ mechs → ∃ sl, subLatents lat k = .ok sl ∧ MechArgs m conds sl)
    (hp : GetDims degVals L C D) (hc : GetDims conds L C D) (hl : LatDims lat L C D)
    (hk : ∀ k ∈ mechs.keys, k ∈ degVals.keys) (hi : ∀ k ∈ mechs.keys, k ∈ initVals.keys) (w : W)
    (hN : N (L * C * D) := by trivial) :
    ∃ r w', M.forIn' (DegPrmMdl.equivStep conds lat initVals degVals L C D) mechs [] w = (.ok r, w') ∧
      ∀ k ∈ r.keys, k ∈ mechs.keys := by
  refine M.forIn'_total (fun (acc : Dict (Arr3 V)) => ∀ k ∈ acc.keys, k ∈ mechs.keys) ?_ ?_ w
  · rintro ⟨k, m⟩ hkm acc hacc w
    have hkk : k ∈ mechs.keys := List.mem_map_of_mem (f := (·.1)) hkm
    obtain ⟨cur, h1⟩ := Dict.get?_isSome_of_mem_keys (hk k hkk)
    obtain ⟨iv, h2⟩ := Dict.get?_isSome_of_mem_keys (hi k hkk)
    obtain ⟨sl, h3, h4⟩ := hr k m hkm
    obtain ⟨a1, a2, a3, a4⟩ := hw k m hkm
    obtain ⟨t, w1, h5⟩ := calcEquiv_works a1 a2 a3 a4 h4 (hp k cur h1) hc (subLatents_dims hl h3) w
    refine ⟨acc.set k t, w1, ?_, ?_⟩
    · unfold DegPrmMdl.equivStep
      simp only [M.bind_run, M.ofExcept_run, Dict.getE_eq_ok.2 h1, Dict.getE_eq_ok.2 h2, h3, h5]
      rfl
    · intro j hj
      obtain ⟨v, hv⟩ := Dict.get?_isSome_of_mem_keys hj
      rw [Dict.get?_set] at hv
      split at hv
      · rename_i hjk
        subst hjk
        exact hkk
      · exact hacc j (Dict.mem_keys_of_get? hv)
  · intro k hk
    cases hk

theorem addDurations_works {us : Int} {mechs : Dict (MechMdl W V)}
    (hu : ∀ k m, (k, m) ∈ mechs → timeUnitMap m.timeUnit ≠ none) {times : Dict (Arr3 V)}
    (hk : ∀ k ∈ times.keys, k ∈ mechs.keys) :
    ∃ r, addDurations (.td us) mechs times = .ok r ∧ r.keys = times.keys := by
  unfold addDurations
  induction times with
  | nil => exact ⟨[], rfl, rfl⟩
  | cons kv rest ih =>
    obtain ⟨r, h1, h2⟩ := ih fun k hk' => hk k (List.mem_cons_of_mem _ hk')
    obtain ⟨m, hm⟩ := Dict.get?_isSome_of_mem_keys (hk kv.1 List.mem_cons_self)
    have hu' := hu kv.1 m (Dict.mem_of_get? hm)
    obtain ⟨u, hu''⟩ := Option.ne_none_iff_exists'.1 hu'
    have : ∃ a, addDuration (.td us) mechs kv = .ok (kv.1, a) := by
      unfold addDuration
      rw [hm]
      simp only [convertTime, hu'']
      exact ⟨_, rfl⟩
    obtain ⟨a, ha⟩ := this
    rw [List.mapM_cons, ha]
    have h1' : List.mapM (addDuration (V := V) (W := W) (.td us) mechs) rest = .ok r := h1
    rw [h1']
    refine ⟨(kv.1, a) :: r, rfl, ?_⟩
    show kv.1 :: Dict.keys r = kv.1 :: Dict.keys rest
    rw [h2]

theorem degLoop_works {mechs : Dict (MechMdl W V)} {N : Nat → Prop}
    (hw : ∀ k m, (k, m) ∈ mechs → m.kind ≠ .base ∧ EqnWorks m.mdl.compute ∧ ShapeSafe m.mdl.compute N ∧
      Takes m.mdl.compute "time")
    {times conds degVals : Dict (Arr3 V)} {lat : Dict (LatNode V)} {L C D : Nat}
    (hr : ∀ k m, (k, m) ∈ mechs → ∃ sl, subLatents lat k = .ok sl ∧ MechArgs m conds sl)
    (ht : GetDims times L C D) (hp : GetDims degVals L C D) (hc : GetDims conds L C D)
    (hl : LatDims lat L C D) (hk : ∀ k ∈ mechs.keys, k ∈ degVals.keys)
    (hi : ∀ k ∈ mechs.keys, k ∈ times.keys) (w : W)
    (hN : N (L * C * D) := by trivial) :
    ∃ r w', M.forIn' (DegPrmMdl.degStep times conds lat degVals L C D) mechs [] w = (.ok r, w') := by
  obtain ⟨r, w', h, _⟩ := M.forIn'_total (f := DegPrmMdl.degStep times conds lat degVals L C D)
    (xs := mechs) (W := W) (b := []) (fun _ => True) (by
    rintro ⟨k, m⟩ hkm acc _ w
    have hkk : k ∈ mechs.keys := List.mem_map_of_mem (f := (·.1)) hkm
    obtain ⟨cur, h1⟩ := Dict.get?_isSome_of_mem_keys (hk k hkk)
    obtain ⟨tm, h2⟩ := Dict.get?_isSome_of_mem_keys (hi k hkk)
    obtain ⟨sl, h3, h4⟩ := hr k m hkm
    obtain ⟨a1, a2, a3, a4⟩ := hw k m hkm
    obtain ⟨t, w1, h5⟩ := calcDeg_works a2 a3 a4 h4 (ht k tm h2) (hp k cur h1) hc
      (subLatents_dims hl h3) w hN
    refine ⟨acc.set k t, w1, ?_, trivial⟩
    unfold DegPrmMdl.degStep
    simp only [M.bind_run, M.ofExcept_run, Dict.getE_eq_ok.2 h1, Dict.getE_eq_ok.2 h2, h3, h5]
    rfl) trivial w
  exact ⟨r, w', h⟩

theorem update_keys {α : Type} {d d' : Dict α} {k : String} (h : k ∈ (d.update d').keys) :
    k ∈ d.keys ∨ k ∈ d'.keys := by
  obtain ⟨kv, hkv, rfl⟩ := List.mem_map.1 h
  rcases Dict.mem_update hkv with h | h
  · exact .inr (List.mem_map_of_mem h)
  · exact .inl (List.mem_map_of_mem h)

theorem update_has {α : Type} {d d' : Dict α} {k : String} (h : k ∈ d.keys ∨ k ∈ d'.keys) :
    (d.update d').has k = true := by
  rw [Dict.has_iff_mem_keys]
  unfold Dict.update
  induction d' generalizing d with
  | nil => exact h.resolve_right (by simp [Dict.keys])
  | cons kv rest ih =>
    refine ih ?_
    rcases h with h | h
    · left
      rw [← Dict.has_iff_mem_keys] at h ⊢
      unfold Dict.has at *
      rw [Dict.get?_set]
      split
      · rfl
      · exact h
    · rcases List.mem_cons.1 h with h | h
      · left
        rw [← Dict.has_iff_mem_keys]
        unfold Dict.has
        rw [h, Dict.get?_set_self]
        rfl
      · exact .inr h

/-- The arguments of a parameter's equation fit its signature. -/
theorem prmArgs_accepts {f : PyFun W V} {mechs own : List String} {lat : Dict (LatNode V)}
    {acc : Dict (PyVal V)} (hacc : ∀ k, k ∈ acc.keys ↔ k ∈ "init" :: "cond" :: mechs)
    (hown : ∀ j ∈ own, ∃ a, lat.get? j = some (.arr a))
    (hargs : Provided f ("init" :: "cond" :: mechs ++ own))
    (htakes : ∀ k ∈ "init" :: "cond" :: mechs, Takes f k) :
    f.accepts (fillMissing (ownLatent lat) f.argNames acc) = true := by
  refine accepts_of (fun p hp => ?_) (fun k hk => ?_)
  · unfold Dict.has
    rw [fillMissing_get?, if_pos (mem_argNames hp)]
    rcases List.mem_append.1 (hargs p hp) with h | h
    · obtain ⟨v, hv⟩ := Dict.get?_isSome_of_mem_keys ((hacc p).2 h)
      rw [hv]
      rfl
    · obtain ⟨a, ha⟩ := hown p h
      have : ownLatent lat p = some (.arr a) := by unfold ownLatent; rw [ha]
      rw [this]
      cases acc.get? p <;> rfl
  · rcases fillMissing_keys hk with h | h
    · exact htakes k ((hacc k).1 h)
    · exact takes_of_argNames h

theorem args_keys {a b : PyVal V} {d : Dict (PyVal V)} {ms : List String} (hd : d.keys = ms) (k : String) :
    k ∈ (Dict.update [("init", a), ("cond", b)] d).keys ↔ k ∈ "init" :: "cond" :: ms := by
  have e : Dict.keys [("init", a), ("cond", b)] = ["init", "cond"] := rfl
  constructor
  · intro h
    rcases update_keys h with h | h
    · rw [e] at h
      have : k = "init" ∨ k = "cond" := by simpa using h
      rcases this with rfl | rfl <;> simp
    · rw [hd] at h
      simp [h]
  · intro h
    rw [← Dict.has_iff_mem_keys]
    refine update_has ?_
    rw [e, hd]
    simp only [List.mem_cons, List.not_mem_nil, or_false] at h ⊢
    tauto

variable [Rng W V]

theorem subLatents_sub {lat : Dict (LatNode V)} {k : String} {d : Dict (Arr3 V)}
    (h : lat.get? k = some (.sub d)) : subLatents lat k = .ok d := by
  unfold subLatents
  rw [h]

/-- Stress of one parameter works. -/
theorem stressPrm_works {dev : DeviceMdl W V} {N : Nat → Prop} (hdev : DeviceWorks dev N) {q : Quantities} {us : Int}
    {conds : Dict (Dict (Arr3 V))} {s : SimState V} {p : String} {d : DegPrmMdl W V}
    (hp : dev.prms.get? p = some (.deg d)) {cs : Dict (Arr3 V)} (hcs : conds.get? p = some cs)
    (hcd : ∀ n, q.devCounts.get? p = some n → GetDims cs q.numLots q.numChps n)
    (hargs : ∀ k m, (k, m) ∈ d.mechs → ∀ a, (a, false) ∈ m.mdl.compute.params →
      a = "time" ∨ a ∈ m.mdl.latentVars.keys ∨ a ∈ cs.keys)
    (hs : StateShape dev q s) (hl : LatentsThere dev s) (w : W)
    (hN : SizesIn N q := by intro _ _ _; trivial) :
    ∃ s' w', stressPrm q (.td us) conds s (p, d) w = (.ok s', w') ∧ s'.latents = s.latents ∧
      s'.elapsed = s.elapsed := by
  have hd := hdev.deg p d hp
  obtain ⟨n, lat, hn, hlat, hld⟩ := hs.count p _ hp
  obtain ⟨lat', hlat', hlt⟩ := hl.deg p d hp
  rw [hlat] at hlat'
  cases hlat'
  obtain ⟨⟨ca, hca, _⟩, ⟨ia, hia, hid⟩, ⟨cur, hcur, hck, hcurd⟩, ⟨im, him, himk, _⟩⟩ := hs.deg p d n hp hn
  have hcsd := hcd n hn
  have hw : ∀ k m, (k, m) ∈ d.mechs → m.kind ≠ .base ∧ EqnWorks m.mdl.compute ∧
      ShapeSafe m.mdl.compute N ∧ Takes m.mdl.compute "time" := fun k m hk =>
    ⟨(hd.mechs k m hk).kind, (hd.mechs k m hk).eqn, hd.shapes.mechs k m hk, (hd.mechs k m hk).time⟩
  have hr : ∀ k m, (k, m) ∈ d.mechs → ∃ sl, subLatents lat k = .ok sl ∧ MechArgs m cs sl := by
    intro k m hk
    obtain ⟨sub, h1, h2⟩ := hlt.mechs k m hk
    refine ⟨sub, subLatents_sub h1, fun a ha => ?_⟩
    rcases hargs k m hk a ha with h | h | h
    · exact .inl h
    · exact .inr (.inl ((Dict.has_iff_mem_keys _ _).2 (h2 a h)))
    · exact .inr (.inr ((Dict.has_iff_mem_keys _ _).2 h))
  obtain ⟨eq0, w1, h1, hek⟩ := equivLoop_works hw hr hcurd.get hcsd hld (initVals := im)
    (fun k hk => hck ▸ hk) (fun k hk => himk ▸ hk) w (hN p n hn)
  have hek' : ∀ k ∈ d.mechs.keys, k ∈ eq0.keys := by
    intro k hk
    have h1' := h1
    rw [equivStep_eq] at h1'
    obtain ⟨kv, hkv, rfl⟩ := List.mem_map.1 hk
    obtain ⟨_, g2, _⟩ := M.forIn'_set h1'
    obtain ⟨v, hv⟩ := g2 kv hkv
    exact Dict.mem_keys_of_get? hv
  obtain ⟨times, h2, htk⟩ := addDurations_works (us := us)
    (fun k m hk => (hd.mechs k m hk).unit) hek
  have htd := addDurations_dims (equivLoop_dims hcurd.get h1) h2
  obtain ⟨mv, w2, h3⟩ := degLoop_works hw hr htd.get hcurd.get hcsd hld (fun k hk => hck ▸ hk)
    (fun k hk => htk ▸ hek' k hk) w1 (hN p n hn)
  have hmvk := degLoop_keys hd.unique h3
  have hmvd := degLoop_dims hd.shapes.mechs htd.get hcurd.get hcsd hld h3 (hN p n hn)
  obtain ⟨v, w3, h4⟩ := computeOrLoop_works hd.eqn (L := q.numLots) (C := q.numChps) (D := n)
    (degArgs_uniform d (ip := .arr ia) (mv := mv) (lat := lat) (fun a ha => by cases ha; exact hid)
      hmvd hld) (degArgs_plain d ia mv lat) (prmArgs_accepts (mechs := d.mechs.keys) (fun k => args_keys (by
        rw [← hmvk]
        simp [Dict.keys, Function.comp_def]) k) hlt.own hd.args hd.takes) w2
  refine ⟨{ s with currPrm := s.currPrm.set p v, currMech := s.currMech.set p mv }, w3, ?_, rfl, rfl⟩
  unfold stressPrm DegPrmMdl.calcEquivTimes DegPrmMdl.calcDegVals
  simp only [M.bind_run, M.ofExcept_run, Dict.getE_eq_ok.2 hn, Dict.getE_eq_ok.2 hcur,
    Dict.getE_eq_ok.2 hcs, Dict.getE_eq_ok.2 him, Dict.getE_eq_ok.2 hlat, Dict.getE_eq_ok.2 hia, h1, h2,
    h3]
  unfold DegPrmMdl.degArgs at h4 ⊢
  rw [h4]
  rfl

/-- The conditions generated for a parameter: those of the step that it needs. -/
theorem conds_there {env : PhysTestEnv V} {ord : SetOrder} {base : Dict V} {prms : PrmSel}
    {q : Quantities} {dev : DeviceMdl W V} {t : Target} {nc nl : Nat} {w w' : W}
    {r : Dict (Dict (Arr3 V))}
    (h : env.genEnvCondVals ord base prms (some q) (some dev) t nc nl w = (.ok r, w')) {prm : String}
    (hp : prm ∈ prms.toList) {m : PrmMdl W V} (hd : dev.prms.get? prm = some m) :
    ∃ cs, r.get? prm = some cs ∧ ∀ c ∈ base.keys, NeedsCond m t c → c ∈ cs.keys := by
  obtain ⟨shared, counts, w1, _, _, h3⟩ := genEnvCondVals_inv h
  obtain ⟨d, w2, w3, h4, h5⟩ := result_get h3 hp
  refine ⟨d, h4, fun c hc hn => ?_⟩
  obtain ⟨a, bc, n, w4, w5, e1, _⟩ := (depend_get hd h5).1 c hc hn
  exact Dict.mem_keys_of_get? e1

variable [LawfulRng W V]

/-- A stress step works, and keeps the state fit for the next step. -/
theorem simStress_works {ord : SetOrder} {dev : DeviceMdl W V} {N : Nat → Prop} (hdev : DeviceWorks dev N)
    {env : PhysTestEnv V} (he : EnvDraws W env) {st : StrsSpec V} (hst : StressOk dev st) {t us : Int}
    (hus : st.duration = .td us) (ht : tdValid t) (ht' : tdValid (t + us)) {s : SimState V}
    {r : SimReport V} (hs : StateShape dev r.info s) (hl : LatentsThere dev s) (hel : s.elapsed = .td t)
    (i : Nat) (w : W) (hN : SizesIn N r.info := by intro _ _ _; trivial) :
    ∃ s' r' w', simStress ord dev env st i (s, r) w = (.ok (s', r'), w') ∧ StateShape dev r'.info s' ∧
      LatentsThere dev s' ∧ s'.elapsed = .td (t + us) ∧ r'.info = r.info := by
  have hmem : ∀ kv ∈ dev.degPrms, dev.prms.get? kv.1 = some (.deg kv.2) := fun kv hkv =>
    Dict.get?_of_mem hdev.unique (mem_degPrms.1 hkv)
  have hnames : ∀ p ∈ (PrmSel.names (dev.degPrms.map (·.1))).toList, ∃ d,
      dev.prms.get? p = some (.deg d) := by
    intro p hp
    obtain ⟨kv, hkv, rfl⟩ := List.mem_map.1 (show p ∈ dev.degPrms.map (·.1) from hp)
    exact ⟨_, hmem kv hkv⟩
  obtain ⟨conds, w1, h1⟩ := genEnvCondVals_total he (ord := ord) (dev := dev) (base := st.conditions)
    (prms := .names (dev.degPrms.map (·.1))) (q := r.info) (counts := r.info.devCounts) rfl
    (fun p hp => by
      obtain ⟨d, hd⟩ := hnames p hp
      obtain ⟨n, _, hn, _⟩ := hs.count p _ hd
      simp [Dict.has, hn])
    (fun p hp => by
      obtain ⟨d, hd⟩ := hnames p hp
      exact .inl (Dict.mem_keys_of_get? hd)) (t := .stress) (nc := 1) (nl := 1) w
  have hm : ∀ p d, dev.prms.get? p = some (.deg d) → d.mechs.Nodup := fun p d h =>
    (hdev.deg p d h).unique
  have hsh : ∀ p d, dev.prms.get? p = some (.deg d) → DegShapes d N := fun p d h =>
    (hdev.deg p d h).shapes
  obtain ⟨s1, w2, h2, g1, g2, g3⟩ := M.forIn'_total (f := stressPrm r.info st.duration conds)
    (xs := dev.degPrms) (fun s1 : SimState V => StateShape dev r.info s1 ∧ LatentsThere dev s1 ∧
      s1.elapsed = .td t) (by
      rintro ⟨p, d⟩ hkv s1 ⟨hs1, hl1, he1⟩ w
      have hp := hmem _ hkv
      have hpn : p ∈ (PrmSel.names (dev.degPrms.map (·.1))).toList :=
        List.mem_map_of_mem (f := (·.1)) hkv
      obtain ⟨cs, hcs, hck⟩ := conds_there h1 hpn hp
      have hcd : ∀ n cs', r.info.devCounts.get? p = some n → conds.get? p = some cs' →
          GetDims cs' r.info.numLots r.info.numChps n := fun n cs' hn hcs' =>
        conds_dims h1 rfl hpn (Dict.mem_keys_of_get? hp) hn hcs'
      obtain ⟨s2, w', h, hlat, hela⟩ := stressPrm_works hdev (q := r.info) (us := us) hp hcs
        (fun n hn => hcd n cs hn hcs) (fun k m hk a ha => by
          rcases List.mem_append.1 (hst p d k m hp hk a ha) with h | h
          · rcases List.mem_cons.1 h with h | h
            · exact .inl h
            · exact .inr (.inl h)
          · exact .inr (.inr (hck a h (.inr ⟨_, hk, mem_argNames ha⟩)))) hs1 hl1 w hN
      rw [← hus] at h
      refine ⟨s2, w', h, stressPrm_shape hdev.unique hm hsh hkv hcd hs1 h hN, ?_, hela.trans he1⟩
      exact ⟨fun p d hp => by rw [hlat]; exact hl1.deg p d hp,
        fun p c hp => by rw [hlat]; exact hl1.circ p c hp⟩)
    ⟨hs, hl, hel⟩ w1
  have e1 : s1.elapsed.add st.duration = .ok (.td (t + us)) := by
    rw [g3, hus]
    show (match tdAdd t us with | .ok c => _ | .error e => _) = _
    unfold tdAdd tdMk
    rw [if_pos ht']
  have e2 : (TimeVal.td (t + us)).sub st.duration = .ok (.td t) := by
    rw [hus]
    show (match tdMk (t + us - us) with | .ok c => _ | .error e => _) = _
    unfold tdMk
    rw [show t + us - us = t by ring, if_pos ht]
  have hrun : simStress ord dev env st i (s, r) w = (.ok ({ s1 with elapsed := .td (t + us) },
      r.addSummary (summaryRow st.name "stress" i st.duration (.td t) (.td (t + us)) st.conditions)),
      w2) := by
    unfold simStress
    rw [M.bind_ok h1, M.bind_ok h2]
    simp only [M.bind_run, M.ofExcept_run, e1, e2]
    rfl
  exact ⟨_, _, w2, hrun, simStress_shape hdev.unique hm hsh hs hrun hN,
    ⟨fun p d hp => g2.deg p d hp, fun p c hp => g2.circ p c hp⟩, rfl, rfl⟩

/-! ## Measurements -/

theorem reduceLatents_get (lat : Dict (LatNode V)) (n : Nat) :
    (∀ k sub, lat.get? k = some (.sub sub) → ∃ sub', (reduceLatents lat n).get? k = some (.sub sub') ∧
      sub'.keys = sub.keys) ∧
    ∀ k a, lat.get? k = some (.arr a) → ∃ a', (reduceLatents lat n).get? k = some (.arr a') := by
  constructor
  · intro k sub h
    rw [Props.reduceLatents_get?, h]
    exact ⟨_, rfl, by simp [Dict.keys, Function.comp_def]⟩
  · intro k a h
    rw [Props.reduceLatents_get?, h]
    exact ⟨_, rfl⟩

/-- Reading a degraded parameter works. -/
theorem condShifted_works {d : DegPrmMdl W V} {N : Nat → Prop} (hd : DegWorks d N) {L C D n : Nat} {a : Arr3 V}
    (ha : a.HasDims L C D) (hn : n ≤ D) {lat : Dict (LatNode V)} (hl : LatDims lat L C D)
    (hlt : DegLatents d lat) {cs : Dict (Arr3 V)} (hc : GetDims cs L C n)
    (hargs : ∀ p, (p, false) ∈ d.condMdl.compute.params → p ∈ d.condMdl.latentVars.keys ∨ p ∈ cs.keys)
    (w : W) (hN : N (L * C * n) := by trivial) :
    ∃ b w', d.calcCondShifted L C n cs (.arr a) lat w = (.ok (.arr b), w') ∧ b.HasDims L C n := by
  have key : ∃ v w', d.calcCondShifted L C n cs (.arr a) lat w = (.ok v, w') := by
    unfold DegPrmMdl.calcCondShifted
    simp only
    have hlat : LatDims (if n < a.nd then reduceLatents lat n else lat) L C n := by
      split
      · exact Props.reduceLatents_dims hl hn
      · have : n = D := by have := ha.2.2; omega
        subst this
        exact hl
    have hcur : (if n < a.nd then a.takeDev n else a).HasDims L C n := by
      split
      · obtain ⟨rfl, rfl, rfl⟩ := ha
        exact Arr3.takeDev_hasDims a hn
      · have : n = D := by have := ha.2.2; omega
        subst this
        exact ha
    have hlt' : (∃ sub, (if n < a.nd then reduceLatents lat n else lat).get? "cond" = some (.sub sub) ∧
        ∀ j ∈ d.condMdl.latentVars.keys, j ∈ sub.keys) ∧
        ∀ j ∈ d.mdl.latentVars.keys, ∃ a',
          (if n < a.nd then reduceLatents lat n else lat).get? j = some (.arr a') := by
      obtain ⟨sub, h1, h2⟩ := hlt.cond
      split
      · obtain ⟨sub', h3, h4⟩ := (reduceLatents_get lat n).1 _ _ h1
        refine ⟨⟨sub', h3, fun j hj => h4 ▸ h2 j hj⟩, fun j hj => ?_⟩
        obtain ⟨b, hb⟩ := hlt.own j hj
        exact (reduceLatents_get lat n).2 _ _ hb
      · exact ⟨⟨sub, h1, h2⟩, hlt.own⟩
    generalize (if n < a.nd then reduceLatents lat n else lat) = lat' at hlat hlt'
    generalize (if n < a.nd then a.takeDev n else a) = a' at hcur
    obtain ⟨⟨sub, h1, h2⟩, hown⟩ := hlt'
    have hsub := subLatents_sub h1
    have hu := fillArgs_uniform (names := d.condMdl.compute.argNames) (acc := [])
      (fun k a h => by cases h) (lookup2_dims (subLatents_dims hlat hsub) hc)
    obtain ⟨c, w1, h3⟩ := computeOrLoop_works hd.condEqn hu
      (fillArgs_plain (fun k v h => by cases h) (lookup2_plain sub cs)) (accepts_of (fun p hp => by
        refine fillArgs_found (mem_argNames hp) (lookup2_found ?_)
        rw [Dict.has_iff_mem_keys, Dict.has_iff_mem_keys]
        exact (hargs p hp).imp (h2 p) id) (fun k hk => by
        rcases fillArgs_keys hk with h | h
        · cases h
        · exact takes_of_argNames h)) w
    have hcv := (computeOrLoop_dims hd.shapes.cond hu h3 hN).1
    obtain ⟨v, w2, h4⟩ := computeOrLoop_works hd.eqn (Props.shiftArgs_uniform d hcur hcv hlat)
      (shiftArgs_plain d a' lat' fun v hv => by
        subst hv
        exact computeOrLoop_plain hd.condPlain h3)
      (prmArgs_accepts (mechs := d.mechs.keys) (fun k => args_keys (by
        simp [Dict.keys, Function.comp_def]) k) hown hd.args hd.takes) w1
    refine ⟨v, w2, ?_⟩
    rw [hsub]
    refine (M.bind_ok (a := sub) (w' := w) rfl).trans ((M.bind_ok h3).trans ?_)
    exact h4
  obtain ⟨v, w', h⟩ := key
  obtain ⟨b, rfl, hb⟩ := Props.condShifted_dims hd.shapes ha hn hl hc h hN
  exact ⟨b, w', h, hb⟩

/-- Where a circuit parameter finds an argument. -/
theorem circ_found {c : LatentMdl W V} {dev : DeviceMdl W V} {q : Quantities} {s : SimState V}
    (hs : StateShape dev q s) (hu : dev.prms.Nodup) {lat : Dict (LatNode V)}
    (hlat : ∀ j ∈ c.latentVars.keys, ∃ a, lat.get? j = some (.arr a)) {base : List String}
    {conds : Dict (Arr3 V)} (hconds : ∀ k ∈ base, k ∈ c.compute.argNames → k ∈ conds.keys) {p : String}
    (hp : p ∈ c.compute.argNames)
    (h : p ∈ c.latentVars.keys ++ base ++ dev.degPrms.map (·.1)) :
    ∃ a, (match ownLatent lat p with
      | some v => some v
      | none => match conds.get? p with
        | some a => some (PyVal.arr a)
        | none => s.currPrm.get? p) = some (PyVal.arr a) := by
  have hown : ∀ v, ownLatent lat p = some v → ∃ a, v = PyVal.arr a := by
    intro v hv
    unfold ownLatent at hv
    split at hv
    · cases hv; exact ⟨_, rfl⟩
    · cases hv
  cases ho : ownLatent lat p with
  | some v =>
    obtain ⟨a, rfl⟩ := hown v ho
    exact ⟨a, rfl⟩
  | none =>
    cases hc : conds.get? p with
    | some a => exact ⟨a, rfl⟩
    | none =>
      simp only
      rcases List.mem_append.1 h with h | h
      · exfalso
        rcases List.mem_append.1 h with h | h
        · obtain ⟨a, ha⟩ := hlat p h
          unfold ownLatent at ho
          rw [ha] at ho
          cases ho
        · exact (Dict.get?_eq_none_iff _ _).1 hc (hconds p h hp)
      · obtain ⟨kv, hkv, rfl⟩ := List.mem_map.1 h
        have hd := Dict.get?_of_mem hu (mem_degPrms.1 hkv)
        obtain ⟨n, _, hn, _⟩ := hs.count _ _ hd
        obtain ⟨a, ha, _⟩ := (hs.deg _ _ n hd hn).prm
        exact ⟨a, ha⟩

/-- Reading a circuit parameter works. -/
theorem calcCirc_works {dev : DeviceMdl W V} (hu : dev.prms.Nodup) {q : Quantities} {s : SimState V}
    (hs : StateShape dev q s) {p : String} {c : LatentMdl W V} (hp : dev.prms.get? p = some (.circ c))
    {N : Nat → Prop} (hw : CircWorks c N) {lat : Dict (LatNode V)} {n : Nat} (hld : LatDims lat q.numLots q.numChps n)
    (hlat : ∀ j ∈ c.latentVars.keys, ∃ a, lat.get? j = some (.arr a)) {base : List String}
    {conds : Dict (Arr3 V)} (hconds : ∀ k ∈ base, k ∈ c.compute.argNames → k ∈ conds.keys)
    (hcd : GetDims conds q.numLots q.numChps n)
    (hargs : Provided c.compute (c.latentVars.keys ++ base ++ dev.degPrms.map (·.1)))
    (hsome : ∃ a ∈ c.compute.argNames, a ∈ c.latentVars.keys ++ base ++ dev.degPrms.map (·.1))
    (hcount : ∀ p', Needs dev p p' → q.devCounts.get? p' = some n) (w : W)
    (hN : N (q.numLots * q.numChps * n) := by trivial) :
    ∃ a w', calcCircVals c n conds s.currPrm lat w = (.ok (.arr a), w') := by
  have huni : uniformShape (circArgs c conds s.currPrm lat) q.numLots q.numChps n := by
    unfold circArgs
    have key : ∀ (src : String → Option (PyVal V)) (names : List String) (acc : Dict (PyVal V)),
        uniformShape acc q.numLots q.numChps n → (∀ k ∈ names, ∀ a, src k = some (.arr a) →
          a.HasDims q.numLots q.numChps n) →
        uniformShape (fillArgs src names acc) q.numLots q.numChps n := by
      intro src names
      induction names with
      | nil => exact fun acc h _ => h
      | cons k rest ih =>
        intro acc h hsrc
        refine ih _ ?_ (fun k' hk' => hsrc k' (List.mem_cons_of_mem _ hk'))
        cases hk : src k with
        | none => exact h
        | some v =>
          intro j a hj
          rcases Dict.mem_set hj with hj | hj
          · cases hj
            exact hsrc k List.mem_cons_self a hk
          · exact h j a hj
    refine key _ _ _ (fun k a h => by cases h) ?_
    intro k hk a ha
    cases ho : ownLatent lat k with
    | some v =>
      rw [ho] at ha
      cases ha
      exact ownLatent_dims hld k a ho
    | none =>
      rw [ho] at ha
      cases hc : conds.get? k with
      | some b =>
        simp only [hc] at ha
        cases ha
        exact hcd k _ hc
      | none =>
        simp only [hc] at ha
        have : ∃ d, dev.prms.get? k = some (.deg d) := by
          by_contra hno
          rw [hs.only k fun d hd => hno ⟨d, hd⟩] at ha
          cases ha
        obtain ⟨d, hd⟩ := this
        have hn := hcount k ⟨c, hp, Dict.mem_keys_of_get? hd, hk⟩
        obtain ⟨b, hb, hbd⟩ := (hs.deg k d n hd hn).prm
        rw [hb] at ha
        cases ha
        exact hbd
  have hfound : ∀ a ∈ c.compute.argNames,
      a ∈ c.latentVars.keys ++ base ++ dev.degPrms.map (·.1) →
      ∃ b, (circArgs c conds s.currPrm lat).get? a = some (PyVal.arr b) := by
    intro a ha hm
    obtain ⟨b, hb⟩ := circ_found hs hu hlat hconds ha hm
    refine ⟨b, ?_⟩
    unfold circArgs
    rw [fillArgs_get?, if_pos ha]
    exact congrArg (fun x => Option.or x _) hb
  have hacc : c.compute.accepts (circArgs c conds s.currPrm lat) = true := by
    refine accepts_of (fun a ha => ?_) (fun k hk => ?_)
    · obtain ⟨b, hb⟩ := hfound a (mem_argNames ha) (hargs a ha)
      simp [Dict.has, hb]
    · unfold circArgs at hk
      rcases fillArgs_keys hk with h | h
      · cases h
      · exact takes_of_argNames h
  have hi : c.compute.invoke (circArgs c conds s.currPrm lat) =
      c.compute.call (circArgs c conds s.currPrm lat) := by unfold PyFun.invoke; rw [if_pos hacc]
  obtain ⟨v, w', h⟩ := hw.eqn _ _ _ _ w huni hacc
  rw [← hi] at h
  obtain ⟨a0, ha0, hm0⟩ := hsome
  obtain ⟨b, hb⟩ := hfound a0 ha0 hm0
  obtain ⟨a, rfl⟩ := (invoke_dims hw.shape huni h hN).2 ⟨_, b, hb⟩
  refine ⟨a.takeLot n, w', ?_⟩
  unfold calcCircVals
  rw [M.bind_ok h]
  rfl

/-- Measuring one name works. -/
theorem measurePrm_works {ord : SetOrder} {dev : DeviceMdl W V} {N : Nat → Prop} (hdev : DeviceWorks dev N)
    {env : PhysTestEnv V} {q : Quantities} {step : MeasSpec V} {P : String → V → Prop}
    (hok : MeasureOk dev env q.devCounts step P) {s : SimState V} (hs : StateShape dev q s)
    (hl : LatentsThere dev s) {conds : Dict (Dict (Arr3 V))} {u u' : W}
    (hconds : env.genEnvCondVals ord step.conditions (.counts step.measurements) (some q) (some dev)
      .measure 1 1 u = (.ok conds, u')) {p : String} {n : Nat} (hp : (p, n) ∈ step.measurements) (i : Nat)
    (hP : ∀ w rows w', measureTrue q dev step i s conds p n w = (.ok rows, w') →
      ∀ x ∈ rows, P p x.measured) (acc : List (MeasRow V)) (w : W)
    (hN : SizesIn N q := by intro _ _ _; trivial)
    (hNn : ∀ d, dev.prms.get? p = some (.deg d) → N (q.numLots * q.numChps * n) := by
      intro _ _; trivial) :
    ∃ rows w', measurePrm q dev env step i s conds acc (p, n) w = (.ok rows, w') := by
  have hpk : p ∈ step.measurements.keys := List.mem_map_of_mem (f := (·.1)) hp
  have hpl : p ∈ (PrmSel.counts step.measurements).toList := hpk
  have hgn : step.measurements.get? p = some n := Dict.get?_of_mem hok.unique hp
  have htrue : ∃ rows w', measureTrue q dev step i s conds p n w = (.ok rows, w') := by
    unfold measureTrue
    cases hm : dev.prms.get? p with
    | none =>
      rw [hs.only p (fun d => by rw [hm]; simp)]
      have hb := (hok.known p hpk).resolve_left ((Dict.get?_eq_none_iff _ _).1 hm)
      simp only
      rw [if_pos ((Dict.has_iff_mem_keys _ _).2 hb)]
      obtain ⟨shared, counts, w1, h1, h2, h3⟩ := genEnvCondVals_inv hconds
      obtain ⟨d, w2, w3, h4, h5⟩ := result_get h3 hpl
      obtain ⟨bc, n', s', a, w7, h6, h7⟩ := sensor_get (by simpa using hm) h5
      have hb' : d.get? p = some a := by
        rw [h7.2.2.2, Dict.get?_cons, if_pos rfl]
      simp only [M.bind_run, M.ofExcept_run, Dict.getE_eq_ok.2 h4, Dict.getE_eq_ok.2 hb']
      exact ⟨_, _, rfl⟩
    | some m =>
      obtain ⟨cs, hcs, hck⟩ := conds_there hconds hpl hm
      have hcd : GetDims cs q.numLots q.numChps n :=
        conds_dims hconds rfl hpl (Dict.mem_keys_of_get? hm) hgn hcs
      cases m with
      | deg d =>
        obtain ⟨D, lat, hD, hlat, hld⟩ := hs.count p _ hm
        obtain ⟨lat', hlat', hlt⟩ := hl.deg p d hm
        rw [hlat] at hlat'
        cases hlat'
        obtain ⟨k, hk, hnk⟩ := hok.degCount p d n hp hm
        rw [hD] at hk
        cases hk
        obtain ⟨a, ha, had⟩ := (hs.deg p d D hm hD).prm
        obtain ⟨b, w1, h1, _⟩ := condShifted_works (hdev.deg p d hm) had hnk hld hlt hcd
          (fun x hx => by
            rcases List.mem_append.1 (hok.degConds p d hpk hm x hx) with h | h
            · exact .inl h
            · exact .inr (hck x h (.inr (mem_argNames hx)))) w (hNn d hm)
        rw [ha]
        simp only [M.bind_run, M.ofExcept_run, Dict.getE_eq_ok.2 hcs, Dict.getE_eq_ok.2 hlat, h1]
        exact ⟨_, _, rfl⟩
      | circ c =>
        rw [hs.only p (fun d => by rw [hm]; simp)]
        obtain ⟨D, lat, hD, hlat, hld⟩ := hs.count p _ hm
        obtain ⟨lat', hlat', hlt⟩ := hl.circ p c hm
        rw [hlat] at hlat'
        cases hlat'
        obtain ⟨hc1, hc2⟩ := hok.circCount p n hp c hm
        rw [hD] at hc1
        cases hc1
        obtain ⟨b, w1, h1⟩ := calcCirc_works hdev.unique hs hm (hdev.circ p c hm) hld hlt hck hcd
          (hok.circArgs p c hpk hm) (hok.circSome p c hpk hm) hc2 w (hN p _ hD)
        simp only [M.bind_run, M.ofExcept_run, Dict.getE_eq_ok.2 hcs, Dict.getE_eq_ok.2 hlat, h1]
        exact ⟨_, _, rfl⟩
  obtain ⟨rows, w1, h1⟩ := htrue
  obtain ⟨ins, hins, hread⟩ := hok.instms p hpk
  obtain ⟨ys, w2, h2⟩ := hread (rows.map (·.measured)) w1 (fun x hx => by
    obtain ⟨y, hy, rfl⟩ := List.mem_map.1 hx
    exact hP _ _ _ h1 y hy)
  unfold measurePrm readRows
  simp only [M.bind_run, M.ofExcept_run, h1, hins, h2]
  exact ⟨_, _, rfl⟩

/-- A measurement step works. -/
theorem simMeas_works {ord : SetOrder} {dev : DeviceMdl W V} {N : Nat → Prop} (hdev : DeviceWorks dev N)
    {env : PhysTestEnv V} (he : EnvDraws W env) {step : MeasSpec V} {s : SimState V} {r : SimReport V}
    {P : String → V → Prop} (hok : MeasureOk dev env r.info.devCounts step P)
    (hs : StateShape dev r.info s) (hl : LatentsThere dev s) (i : Nat)
    (hP : ∀ u conds u', env.genEnvCondVals ord step.conditions (.counts step.measurements) (some r.info)
      (some dev) .measure 1 1 u = (.ok conds, u') → ∀ p n, (p, n) ∈ step.measurements →
      ∀ w rows w', measureTrue r.info dev step i s conds p n w = (.ok rows, w') →
      ∀ x ∈ rows, P p x.measured) (w : W)
    (hN : SizesIn N r.info := by intro _ _ _; trivial)
    (hNn : MeasSizes dev N r.info step := by intro _ _ _ _ _; trivial) :
    ∃ r' w', simMeas ord dev env step i (s, r) w = (.ok (s, r'), w') ∧ r'.info = r.info := by
  obtain ⟨conds, w1, h1⟩ := genEnvCondVals_total he (ord := ord) (dev := dev)
    (base := step.conditions) (prms := .counts step.measurements) (q := r.info)
    (counts := step.measurements) rfl (fun p hp => (Dict.has_iff_mem_keys _ _).2 hp)
    (fun p hp => hok.known p hp) (t := .measure) (nc := 1) (nl := 1) w
  obtain ⟨rows, w2, h2, _⟩ := M.forIn'_total
    (f := measurePrm r.info dev env step i s conds) (xs := step.measurements) (fun _ => True)
    (fun kv hkv acc _ w => by
      obtain ⟨rows, w', h⟩ := measurePrm_works hdev hok hs hl h1 hkv i
        (hP _ _ _ h1 _ _ hkv) acc w hN (fun d hd => hNn _ d _ hkv hd)
      exact ⟨rows, w', h, trivial⟩) (b := []) trivial w1
  refine ⟨(r.addMeasurements rows).addSummary
    (summaryRow step.name "measure" i (.td 0) s.elapsed s.elapsed step.conditions), w2, ?_, rfl⟩
  unfold simMeas
  rw [M.bind_ok h1, M.bind_ok h2]
  rfl

theorem timesFit_valid {t : Int} {steps : List (Step V)} (h : TimesFit t steps) : tdValid t := by
  induction steps with
  | nil => exact h
  | cons st rest ih =>
    cases st with
    | strs s => exact h.1
    | meas m => exact ih h
    | other o => exact ih h

/-- All steps work, if the true values of the measurements are always in the ranges of the instruments. -/
theorem runSteps_works_inv {ord : SetOrder} {dev : DeviceMdl W V} {N : Nat → Prop} (hdev : DeviceWorks dev N)
    {env : PhysTestEnv V} (he : EnvDraws W env) {steps : List (Step V)} {s : SimState V}
    {r : SimReport V} {P : String → V → Prop} (hok : StepsOk dev env r.info.devCounts steps P)
    (hs : StateShape dev r.info s) (hl : LatentsThere dev s) (Inv : SimState V → Prop)
    (hstr : ∀ st, .strs st ∈ steps → ∀ i s r w s' r' w', Inv s →
      simStress ord dev env st i (s, r) w = (.ok (s', r'), w') → Inv s')
    (hmea : ∀ m, .meas m ∈ steps → ∀ q i s, Inv s → ∀ u conds u',
      env.genEnvCondVals ord m.conditions (.counts m.measurements) (some q) (some dev) .measure 1 1 u =
        (.ok conds, u') → ∀ p n, (p, n) ∈ m.measurements →
      ∀ w rows w', measureTrue q dev m i s conds p n w = (.ok rows, w') → ∀ x ∈ rows, P p x.measured)
    (hinv : Inv s) {t : Int} (hel : s.elapsed = .td t) (ht : TimesFit t steps) (i : Nat)
    (w : W) (hN : SizesIn N r.info := by intro _ _ _; trivial)
    (hNn : ∀ m, .meas m ∈ steps → MeasSizes dev N r.info m := by intro _ _ _ _ _ _ _; trivial) :
    ∃ sr w', runSteps ord dev env i steps (s, r) w = (.ok sr, w') := by
  induction steps generalizing s r t i w with
  | nil => exact ⟨_, _, rfl⟩
  | cons st rest ih =>
    have hrest : ∀ r' : SimReport V, r'.info = r.info → StepsOk dev env r'.info.devCounts rest P := by
      intro r' hr'
      rw [hr']
      exact ⟨fun st h => hok.stress st (List.mem_cons_of_mem _ h),
        fun m h => hok.measure m (List.mem_cons_of_mem _ h)⟩
    have step : ∃ s' r' t' w', simStep ord dev env (s, r) (i, st) w = (.ok (s', r'), w') ∧
        r'.info = r.info ∧ StateShape dev r'.info s' ∧ LatentsThere dev s' ∧ s'.elapsed = .td t' ∧
        TimesFit t' rest ∧ Inv s' := by
      cases st with
      | strs st =>
        obtain ⟨h0, us, hus, ht'⟩ := ht
        obtain ⟨s', r', w', h, h1, h2, h3, h4⟩ := simStress_works hdev he
          (hok.stress st List.mem_cons_self) hus h0 (timesFit_valid ht') hs hl hel i w hN (ord := ord)
        exact ⟨s', r', _, w', h, h4, h1, h2, h3, ht', hstr st List.mem_cons_self _ _ _ _ _ _ _ hinv h⟩
      | meas m =>
        obtain ⟨r', w', h, h1⟩ := simMeas_works hdev he (hok.measure m List.mem_cons_self) hs hl i
          (hmea m List.mem_cons_self _ i s hinv) w hN (hNn m List.mem_cons_self) (ord := ord)
        exact ⟨s, r', t, w', h, h1, h1 ▸ hs, hl, hel, ht, hinv⟩
      | other o => exact ⟨s, r, t, w, rfl, rfl, hs, hl, hel, ht, hinv⟩
    obtain ⟨s', r', t', w', h, h1, h2, h3, h4, h5, h7⟩ := step
    obtain ⟨sr, w2, h6⟩ := ih (hrest r' h1) h2 h3 (fun st h => hstr st (List.mem_cons_of_mem _ h))
      (fun m h => hmea m (List.mem_cons_of_mem _ h)) h7 h4 h5 (i + 1) w' (by rw [h1]; exact hN)
      (fun m h => by rw [h1]; exact hNn m (List.mem_cons_of_mem _ h))
    exact ⟨sr, w2, (M.bind_ok h).trans h6⟩

/-- All steps work. -/
theorem runSteps_works {ord : SetOrder} {dev : DeviceMdl W V} {N : Nat → Prop} (hdev : DeviceWorks dev N)
    {env : PhysTestEnv V} (he : EnvDraws W env) {steps : List (Step V)} {s : SimState V}
    {r : SimReport V} (hok : StepsOk dev env r.info.devCounts steps) (hs : StateShape dev r.info s)
    (hl : LatentsThere dev s) {t : Int} (hel : s.elapsed = .td t) (ht : TimesFit t steps) (i : Nat)
    (w : W) (hN : SizesIn N r.info := by intro _ _ _; trivial)
    (hNn : ∀ m, .meas m ∈ steps → MeasSizes dev N r.info m := by intro _ _ _ _ _ _ _; trivial) :
    ∃ sr w', runSteps ord dev env i steps (s, r) w = (.ok sr, w') :=
  runSteps_works_inv hdev he hok hs hl (fun _ => True) (fun _ _ _ _ _ _ _ _ _ _ _ => trivial)
    (fun _ _ _ _ _ _ _ _ _ _ _ _ _ _ _ _ _ _ _ => trivial) trivial hel ht i w hN hNn

end

end Gerabaldi
