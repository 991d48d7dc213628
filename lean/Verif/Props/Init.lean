import Verif.Spec.Init
import Verif.Spec.ExampleDevice
import Verif.Lemmas.Loop
import Verif.Model.Sim
import Verif.Lemmas.Shape
import Verif.Props.Run

/-! # Properties of initial states: C41, C42, C45 -/

namespace Gerabaldi.Props
open Spec

variable {W V : Type}

/-! ## C41: enough devices -/

/-- The counts only grow. -/
def CountsLe (d d' : Dict Nat) : Prop :=
  ∀ p n, d.get? p = some n → ∃ n', d'.get? p = some n' ∧ n ≤ n'

theorem CountsLe.refl (d : Dict Nat) : CountsLe d d := fun _ _ h => ⟨_, h, Nat.le_refl _⟩

theorem CountsLe.trans {a b c : Dict Nat} (h : CountsLe a b) (h' : CountsLe b c) : CountsLe a c := by
  intro p n hp
  obtain ⟨k, hk, hn⟩ := h _ _ hp
  obtain ⟨j, hj, hk'⟩ := h' _ _ hk
  exact ⟨j, hj, Nat.le_trans hn hk'⟩

theorem augmentReq_le (prm : String) (devs : Dict Nat) (req : String) :
    CountsLe devs (augmentReq prm devs req) := by
  intro p n hp
  unfold augmentReq
  cases h1 : devs.get? prm with
  | none => exact ⟨n, hp, Nat.le_refl _⟩
  | some a =>
    cases h2 : devs.get? req with
    | none =>
      refine ⟨n, ?_, Nat.le_refl _⟩
      show (devs.set req a).get? p = _
      rw [Dict.get?_set_ne]
      · exact hp
      · rintro rfl
        rw [hp] at h2
        cases h2
    | some b =>
      show ∃ n', (if b < a then devs.set req a else devs).get? p = some n' ∧ n ≤ n'
      split
      · rename_i hlt
        by_cases hpr : p = req
        · subst hpr
          rw [hp] at h2
          cases h2
          exact ⟨a, Dict.get?_set_self .., Nat.le_of_lt hlt⟩
        · rw [Dict.get?_set_ne _ _ (Ne.symm hpr)]
          exact ⟨n, hp, Nat.le_refl _⟩
      · exact ⟨n, hp, Nat.le_refl _⟩

theorem augmentReq_enough {prm : String} {devs : Dict Nat} {n : Nat} (h : devs.get? prm = some n)
    (req : String) : ∃ k, (augmentReq prm devs req).get? req = some k ∧ n ≤ k := by
  unfold augmentReq
  rw [h]
  cases h2 : devs.get? req with
  | none => exact ⟨n, Dict.get?_set_self .., Nat.le_refl _⟩
  | some b =>
    show ∃ k, (if b < n then devs.set req n else devs).get? req = some k ∧ n ≤ k
    split
    · exact ⟨n, Dict.get?_set_self .., Nat.le_refl _⟩
    · exact ⟨b, h2, by omega⟩

theorem augmentReq_other {prm : String} {devs : Dict Nat} {req p : String} (h : p ≠ req) :
    (augmentReq prm devs req).get? p = devs.get? p := by
  unfold augmentReq
  cases h1 : devs.get? prm with
  | none => rfl
  | some a =>
    cases h2 : devs.get? req with
    | none => exact Dict.get?_set_ne _ _ (Ne.symm h)
    | some b =>
      show (if b < a then devs.set req a else devs).get? p = _
      split
      · exact Dict.get?_set_ne _ _ (Ne.symm h)
      · rfl

theorem augmentReqs_le (prm : String) (reqs : List String) (devs : Dict Nat) :
    CountsLe devs (reqs.foldl (augmentReq prm) devs) := by
  induction reqs generalizing devs with
  | nil => exact CountsLe.refl _
  | cons r rest ih => exact (augmentReq_le prm devs r).trans (ih _)

theorem augmentReqs_enough {prm : String} {reqs : List String} {devs : Dict Nat} {n : Nat}
    (h : devs.get? prm = some n) {p : String} (hp : p ∈ reqs) :
    ∃ k, (reqs.foldl (augmentReq prm) devs).get? p = some k ∧ n ≤ k := by
  induction reqs generalizing devs n with
  | nil => cases hp
  | cons r rest ih =>
    rcases List.mem_cons.1 hp with rfl | hp
    · obtain ⟨k, hk, hn⟩ := augmentReq_enough h p
      obtain ⟨j, hj, hk'⟩ := augmentReqs_le prm rest _ _ _ hk
      exact ⟨j, hj, Nat.le_trans hn hk'⟩
    · obtain ⟨k, hk, hn⟩ := augmentReq_le prm devs r _ _ h
      obtain ⟨j, hj, hk'⟩ := ih hk hp
      exact ⟨j, hj, Nat.le_trans hn hk'⟩

theorem augmentReqs_other {prm : String} {reqs : List String} {devs : Dict Nat} {p : String}
    (hp : p ∉ reqs) : (reqs.foldl (augmentReq prm) devs).get? p = devs.get? p := by
  induction reqs generalizing devs with
  | nil => rfl
  | cons r rest ih =>
    rw [List.foldl_cons, ih fun h => hp (List.mem_cons_of_mem _ h),
      augmentReq_other fun h => hp (by rw [h]; exact List.mem_cons_self)]

theorem mem_requiredPrms {m : LatentMdl W V} {ks : List String} {p : String} :
    p ∈ requiredPrms m ks ↔ p ∈ ks ∧ p ∈ m.compute.argNames := by
  simp [requiredPrms]

theorem augmentPrm_le (dev : DeviceMdl W V) (devs : Dict Nat) (prm : String) :
    CountsLe devs (augmentPrm dev devs prm) := by
  unfold augmentPrm
  split
  · exact augmentReqs_le _ _ _
  · exact CountsLe.refl _

theorem augmentPrm_enough {dev : DeviceMdl W V} {devs : Dict Nat} {c p : String} {n : Nat}
    (h : devs.get? c = some n) (hn : Needs dev c p) :
    ∃ k, (augmentPrm dev devs c).get? p = some k ∧ n ≤ k := by
  obtain ⟨m, hm, hp, ha⟩ := hn
  unfold augmentPrm
  rw [hm]
  exact augmentReqs_enough h (mem_requiredPrms.2 ⟨hp, ha⟩)

theorem augmentPrm_other {dev : DeviceMdl W V} {devs : Dict Nat} {c p : String}
    (hn : ¬ Needs dev c p) : (augmentPrm dev devs c).get? p = devs.get? p := by
  unfold augmentPrm
  split
  · rename_i m hm
    refine augmentReqs_other fun h => hn ?_
    obtain ⟨h1, h2⟩ := mem_requiredPrms.1 h
    exact ⟨m, hm, h1, h2⟩
  · rfl

theorem augment_enough (dev : DeviceMdl W V) (devs : Dict Nat) :
    EnoughDevices dev devs (augment dev devs) := by
  have hle : ∀ (ks : List String) (d : Dict Nat), CountsLe d (ks.foldl (augmentPrm dev) d) := by
    intro ks
    induction ks with
    | nil => exact fun d => CountsLe.refl _
    | cons k rest ih => exact fun d => (augmentPrm_le dev d k).trans (ih _)
  refine ⟨fun h => hle _ _ _ _ h, ?_, ?_⟩
  · have : ∀ (ks : List String) (d : Dict Nat) {c p n}, c ∈ ks → d.get? c = some n → Needs dev c p →
        ∃ k, (ks.foldl (augmentPrm dev) d).get? p = some k ∧ n ≤ k := by
      intro ks
      induction ks with
      | nil => intro d c p n h; cases h
      | cons k rest ih =>
        intro d c p n hc hd hn
        rcases List.mem_cons.1 hc with rfl | hc
        · obtain ⟨k, hk, hle'⟩ := augmentPrm_enough hd hn
          obtain ⟨j, hj, hk'⟩ := hle rest _ _ _ hk
          exact ⟨j, hj, Nat.le_trans hle' hk'⟩
        · obtain ⟨k, hk, hle'⟩ := augmentPrm_le dev d k _ _ hd
          obtain ⟨j, hj, hk'⟩ := ih _ hc hk hn
          exact ⟨j, hj, Nat.le_trans hle' hk'⟩
    intro c p n hc hn
    refine this _ _ ?_ hc hn
    exact List.mem_map_of_mem (Dict.mem_of_get? hc)
  · have : ∀ (ks : List String) (d : Dict Nat) {p}, (∀ c ∈ ks, ¬ Needs dev c p) →
        (ks.foldl (augmentPrm dev) d).get? p = d.get? p := by
      intro ks
      induction ks with
      | nil => intros; rfl
      | cons k rest ih =>
        intro d p h
        rw [List.foldl_cons, ih _ fun c hc => h c (List.mem_cons_of_mem _ hc),
          augmentPrm_other (h k List.mem_cons_self)]
    intro p h
    refine this _ _ fun c hc => ?_
    obtain ⟨n, hn⟩ := Option.isSome_iff_exists.1 ((Dict.has_iff_mem_keys _ _).2 hc)
    exact h c n hn

/-! ### The generated state -/

section state
variable [PyNum V] [Rng W V]

/-- What the initial state holds for parameter `p`. -/
def InitHolds (counts : Dict Nat) (C L : Nat) (latents : Dict (Dict (LatNode V)))
    (mech : Dict (Dict (Arr3 V))) (prm : Dict (PyVal V)) (p : String) (m : PrmMdl W V) : Prop :=
  ∃ n lat, counts.get? p = some n ∧ latents.get? p = some lat ∧
    (∃ w w' : W, m.genLatentVals n C L w = (.ok lat, w')) ∧
    match m with
    | .deg d => mech.get? p = some (d.genInitMechVals n C L) ∧
        ∃ (v : PyVal V) (w w' : W), genInitVals d.initMdl n C L w = (.ok v, w') ∧ prm.get? p = some v
    | .circ _ => True

theorem initStep_ok {C L : Nat} {acc acc' : InitAcc V} {kv : String × PrmMdl W V} {w w' : W}
    (h : initStep C L acc kv w = (.ok acc', w')) :
    acc'.counts = acc.counts ∧
      InitHolds acc'.counts C L acc'.latents acc'.mech acc'.prm kv.1 kv.2 ∧
      (∀ q, q ≠ kv.1 → acc'.latents.get? q = acc.latents.get? q ∧
        acc'.mech.get? q = acc.mech.get? q ∧ acc'.prm.get? q = acc.prm.get? q) ∧
      (∀ c, kv.2 = .circ c → acc'.mech = acc.mech ∧ acc'.prm = acc.prm) := by
  obtain ⟨p, m⟩ := kv
  unfold initStep at h
  obtain ⟨n, hn, g1⟩ := M.ofExcept_bind_ok.1 h
  obtain ⟨lat, w2, h2, g2⟩ := M.bind_eq_ok.1 g1
  clear h g1
  have hn' := Dict.getE_eq_ok.1 hn
  have hcnt : addMissingCount acc.counts p = acc.counts := by
    unfold addMissingCount
    rw [if_pos]
    simp only at hn'
    simp [Dict.has, hn']
  cases m with
  | circ c =>
    cases g2
    refine ⟨hcnt, ?_, ?_, ?_⟩
    · exact ⟨n, lat, by rw [hcnt]; exact hn', Dict.get?_set_self .., ⟨_, _, h2⟩, trivial⟩
    · intro q hq
      exact ⟨Dict.get?_set_ne _ _ (Ne.symm hq), rfl, rfl⟩
    · exact fun _ _ => ⟨rfl, rfl⟩
  | deg d =>
    simp only [PrmMdl.addInit] at g2
    rw [hcnt] at g2
    obtain ⟨k, hk, g3⟩ := M.ofExcept_bind_ok.1 g2
    have hkn : k = n := by
      rw [Dict.getE_eq_ok.1 hk] at hn'
      exact Option.some.inj hn'
    subst hkn
    obtain ⟨v, w4, h4, g4⟩ := M.bind_eq_ok.1 g3
    cases g4
    refine ⟨rfl, ?_, ?_, fun _ h => by cases h⟩
    · exact ⟨k, lat, hn', Dict.get?_set_self .., ⟨_, _, h2⟩, Dict.get?_set_self .., v, _, _, h4,
        Dict.get?_set_self ..⟩
    · intro q hq
      exact ⟨Dict.get?_set_ne _ _ (Ne.symm hq), Dict.get?_set_ne _ _ (Ne.symm hq),
        Dict.get?_set_ne _ _ (Ne.symm hq)⟩

theorem initLoop_ok {C L : Nat} {prms : Dict (PrmMdl W V)} (hnd : prms.Nodup) {acc acc' : InitAcc V}
    {w w' : W} (h : M.forIn' (initStep C L) prms acc w = (.ok acc', w')) :
    acc'.counts = acc.counts ∧
      (∀ p m, prms.get? p = some m →
        InitHolds acc'.counts C L acc'.latents acc'.mech acc'.prm p m) ∧
      (∀ p, prms.get? p = none → acc'.latents.get? p = acc.latents.get? p ∧
        acc'.mech.get? p = acc.mech.get? p ∧ acc'.prm.get? p = acc.prm.get? p) ∧
      (∀ p c, prms.get? p = some (.circ c) → acc'.mech.get? p = acc.mech.get? p ∧
        acc'.prm.get? p = acc.prm.get? p) := by
  induction prms generalizing acc w with
  | nil =>
    cases h
    exact ⟨rfl, fun p m hp => by simp [Dict.get?] at hp, fun _ _ => ⟨rfl, rfl, rfl⟩,
      fun p m hp => by simp [Dict.get?] at hp⟩
  | cons kv rest ih =>
    obtain ⟨q, m⟩ := kv
    obtain ⟨acc1, w1, h1, h2⟩ := M.bind_eq_ok.1 h
    obtain ⟨a1, a2, a3, a4⟩ := initStep_ok h1
    have hnd' := List.nodup_cons.1 hnd
    obtain ⟨b1, b2, b3, b4⟩ := ih hnd'.2 h2
    have hq : Dict.get? rest q = none := (Dict.get?_eq_none_iff _ _).2 hnd'.1
    obtain ⟨c1, c2, c3⟩ := b3 q hq
    refine ⟨b1.trans a1, ?_, ?_, ?_⟩
    · intro p m' hp
      rw [Dict.get?_cons] at hp
      split at hp
      · rename_i hqp
        cases hp
        subst hqp
        unfold InitHolds at a2 ⊢
        rw [b1, c1, c2, c3]
        exact a2
      · exact b2 p m' hp
    · intro p hp
      rw [Dict.get?_cons] at hp
      split at hp
      · cases hp
      · rename_i hqp
        obtain ⟨d1, d2, d3⟩ := b3 p hp
        obtain ⟨e1, e2, e3⟩ := a3 p (Ne.symm hqp)
        exact ⟨d1.trans e1, d2.trans e2, d3.trans e3⟩
    · intro p c hp
      rw [Dict.get?_cons] at hp
      split at hp
      · rename_i hqp
        cases hp
        subst hqp
        obtain ⟨e1, e2⟩ := a4 c rfl
        rw [c2, c3, e1, e2]
        exact ⟨rfl, rfl⟩
      · rename_i hqp
        obtain ⟨d2, d3⟩ := b4 p c hp
        obtain ⟨_, e2, e3⟩ := a3 p (Ne.symm hqp)
        exact ⟨d2.trans e2, d3.trans e3⟩

theorem devInit_ok {dev : DeviceMdl W V} (hnd : dev.prms.Nodup) {counts : Dict Nat} {C L : Nat}
    {s : SimState V} {w w' : W} (h : dev.genInitState counts C L w = (.ok s, w')) :
    s.elapsed = .td 0 ∧ s.initPrm = s.currPrm ∧ s.initMech = s.currMech ∧
      (∀ p m, dev.prms.get? p = some m →
        InitHolds counts C L s.latents s.currMech s.currPrm p m) ∧
      (∀ p, (∀ d, dev.prms.get? p ≠ some (.deg d)) → s.currPrm.get? p = none) := by
  unfold DeviceMdl.genInitState at h
  obtain ⟨acc, w1, h1, h⟩ := M.bind_eq_ok.1 h
  cases h
  obtain ⟨a1, a2, a3, a4⟩ := initLoop_ok hnd h1
  refine ⟨rfl, rfl, rfl, ?_, ?_⟩
  · intro p m hp
    have := a2 p m hp
    rw [a1] at this
    exact this
  · intro p hp
    cases hg : dev.prms.get? p with
    | none => exact (a3 p hg).2.2
    | some m =>
      cases m with
      | deg d => exact absurd hg (hp d)
      | circ c => exact (a4 p c hg).2

/-- The state holds `n` devices of every degraded parameter, `n` being its count: its mechanism values
and its latent variables are lot x chip x `n` arrays. -/
def HoldsDevices (dev : DeviceMdl W V) (counts : Dict Nat) (L C : Nat) (s : SimState V) : Prop :=
  ∀ p d, dev.prms.get? p = some (.deg d) → ∃ n mechs lat, counts.get? p = some n ∧
    s.currMech.get? p = some mechs ∧ mechs.keys = d.mechs.keys ∧
    (∀ k a, (k, a) ∈ mechs → a.HasDims L C n) ∧
    s.latents.get? p = some lat ∧
    (∀ k a, (k, LatNode.arr a) ∈ lat → a.HasDims L C n) ∧
    ∀ k sub, (k, LatNode.sub sub) ∈ lat → ∀ j a, (j, a) ∈ sub → a.HasDims L C n

theorem genInitFrom_ok {dev : DeviceMdl W V} (hnd : dev.prms.Nodup) {devs : Dict Nat} {C L : Nat}
    {t : TimeVal} {s : SimState V} {w w' : W} (h : genInitFrom dev devs C L t w = (.ok s, w')) :
    HoldsDevices dev (augment dev devs) L C s := by
  unfold genInitFrom at h
  obtain ⟨s0, w1, h1, h2⟩ := M.bind_eq_ok.1 h
  cases h2
  obtain ⟨_, _, _, a4, _⟩ := devInit_ok hnd h1
  intro p d hp
  obtain ⟨n, lat, b1, b2, ⟨u, u', b3⟩, b4, _⟩ := a4 p _ hp
  have hl := prmLatents_dims b3
  have hw : ∀ t : TimeVal, (withElapsed s0 t).currMech = s0.currMech ∧
      (withElapsed s0 t).latents = s0.latents := by
    intro t
    unfold withElapsed
    split <;> exact ⟨rfl, rfl⟩
  refine ⟨n, _, lat, b1, by rw [(hw t).1]; exact b4, ?_, ?_, by rw [(hw t).2]; exact b2, ?_, ?_⟩
  · simp [DegPrmMdl.genInitMechVals, Dict.keys, Function.comp_def]
  · exact initMech_dims d n C L
  · exact fun k a ha => hl k _ ha
  · exact fun k sub hs => hl k _ hs

/-- C41: with the quantities of a report, the counts of the report become enough for its circuit
parameters, and the state has that many devices. -/
theorem C41_report {dev : DeviceMdl W V} (hnd : dev.prms.Nodup) {counts : Option (Dict Nat)}
    (hc : counts = none ∨ counts = some []) {chps lots : Nat} {q : Quantities} {t : TimeVal}
    {r : InitResult V} {w w' : W}
    (h : genInitState dev counts chps lots (some q) t w = (.ok r, w')) :
    ∃ after, r.info = some { q with devCounts := after } ∧ r.counts = counts ∧
      EnoughDevices dev q.devCounts after ∧ HoldsDevices dev after q.numLots q.numChps r.state := by
  have h' : (genInitFrom dev q.devCounts q.numChps q.numLots t >>= fun s =>
      (pure ⟨s, counts, some { q with devCounts := augment dev q.devCounts }⟩ :
        M W (InitResult V))) w = (.ok r, w') := by
    rcases hc with rfl | rfl <;> exact h
  obtain ⟨s, w1, h1, h2⟩ := M.bind_eq_ok.1 h'
  cases h2
  exact ⟨_, rfl, rfl, augment_enough .., genInitFrom_ok hnd h1⟩

/-- C41: with the quantities in a dictionary, its counts become enough for its circuit parameters, and
the state has that many devices. -/
theorem C41_counts {dev : DeviceMdl W V} (hnd : dev.prms.Nodup) {d : Dict Nat} (hd : d ≠ [])
    {chps lots : Nat} {info : Option Quantities} {t : TimeVal} {r : InitResult V} {w w' : W}
    (h : genInitState dev (some d) chps lots info t w = (.ok r, w')) :
    ∃ after, r.counts = some after ∧ EnoughDevices dev d after ∧
      HoldsDevices dev after lots chps r.state := by
  have hf : (some d).filter (fun d => !d.isEmpty) = some d := by
    cases d with
    | nil => exact absurd rfl hd
    | cons => rfl
  unfold genInitState at h
  rw [hf] at h
  cases info with
  | none =>
    obtain ⟨s, w1, h1, h2⟩ := M.bind_eq_ok.1 h
    cases h2
    exact ⟨_, rfl, augment_enough .., genInitFrom_ok hnd h1⟩
  | some q =>
    obtain ⟨s, w1, h1, h2⟩ := M.bind_eq_ok.1 h
    cases h2
    exact ⟨_, rfl, augment_enough .., genInitFrom_ok hnd h1⟩

omit [PyNum V] [Rng W V] in
/-- C41: in a device whose circuit parameters do not take measured circuit parameters as arguments, the
final counts fit as well. -/
theorem C41_final {dev : DeviceMdl W V} {before after : Dict Nat} (h : EnoughDevices dev before after)
    (hc : ∀ c c' p n, before.get? c = some n → Needs dev c c' → ¬ Needs dev c' p)
    {c p : String} {n : Nat} (hb : before.has c = true) (hn : after.get? c = some n)
    (hnd : Needs dev c p) : ∃ k, after.get? p = some k ∧ n ≤ k := by
  obtain ⟨b, hb⟩ := Option.isSome_iff_exists.1 hb
  have : after.get? c = before.get? c := h.same fun c' n' h1 h2 => hc c' c p n' h1 h2 hnd
  exact h.enough (this ▸ hn) hnd

/-! ## C42: parameters that are not measured -/

/-- Sampling the latent variables and the initial values of the device never raises. -/
def InitWorks (dev : DeviceMdl W V) (C L : Nat) : Prop :=
  ∀ p m, (p, m) ∈ dev.prms → ∀ n (w : W),
    (∃ lat w', m.genLatentVals n C L w = (.ok lat, w')) ∧
    ∀ d, m = .deg d → ∃ v w', genInitVals d.initMdl n C L w = (.ok v, w')

theorem initLoop_works {C L : Nat} {prms : Dict (PrmMdl W V)}
    (hw : ∀ p m, (p, m) ∈ prms → ∀ n (w : W), (∃ lat w', m.genLatentVals n C L w = (.ok lat, w')) ∧
      ∀ d, m = .deg d → ∃ v w', genInitVals d.initMdl n C L w = (.ok v, w'))
    {acc : InitAcc V} (hc : ∀ p ∈ prms.keys, acc.counts.has p = true) (w : W) :
    ∃ acc' w', M.forIn' (initStep C L) prms acc w = (.ok acc', w') := by
  induction prms generalizing acc w with
  | nil => exact ⟨acc, w, rfl⟩
  | cons kv rest ih =>
    obtain ⟨p, m⟩ := kv
    obtain ⟨n, hn⟩ := Option.isSome_iff_exists.1 (hc p List.mem_cons_self)
    obtain ⟨⟨lat, w1, h1⟩, h2⟩ := hw p m List.mem_cons_self n w
    have hcnt : addMissingCount acc.counts p = acc.counts := by
      unfold addMissingCount
      rw [if_pos (hc p List.mem_cons_self)]
    have hstep : ∃ acc1 w2, initStep C L acc (p, m) w = (.ok acc1, w2) := by
      unfold initStep
      simp only [M.bind_run, M.ofExcept_run, Dict.getE_eq_ok.2 hn, h1]
      cases m with
      | circ c => exact ⟨_, _, rfl⟩
      | deg d =>
        obtain ⟨_, h2⟩ := hw p _ List.mem_cons_self n w1
        obtain ⟨v, w3, h3⟩ := h2 d rfl
        simp only [PrmMdl.addInit, hcnt, M.bind_run, M.ofExcept_run, Dict.getE_eq_ok.2 hn, h3]
        exact ⟨_, _, rfl⟩
    obtain ⟨acc1, w2, hs⟩ := hstep
    have hc1 := (initStep_ok hs).1
    obtain ⟨acc2, w3, h3⟩ := ih (fun p' m' h' => hw p' m' (List.mem_cons_of_mem _ h')) (acc := acc1)
      (fun q hq => by rw [hc1]; exact hc q (List.mem_cons_of_mem _ hq)) w2
    exact ⟨acc2, w3, (M.bind_ok hs).trans h3⟩

/-- C42, the part that holds: parameters that are neither measured themselves nor needed by a measured
circuit parameter must not exist; then the state is generated. -/
theorem C42_partial {dev : DeviceMdl W V} {q : Quantities} (hw : InitWorks dev q.numChps q.numLots)
    (hm : ∀ p ∈ dev.prms.keys, ∃ c n, q.devCounts.get? c = some n ∧ (p = c ∨ Needs dev c p))
    (t : TimeVal) (w : W) :
    ∃ r w', genInitState dev none 1 1 (some q) t w = (.ok r, w') := by
  have he := augment_enough dev q.devCounts
  have hc : ∀ p ∈ dev.prms.keys, (augment dev q.devCounts).has p = true := by
    intro p hp
    obtain ⟨c, n, h1, h2⟩ := hm p hp
    rcases h2 with rfl | h2
    · obtain ⟨k, hk, _⟩ := he.keeps h1
      simp [Dict.has, hk]
    · obtain ⟨k, hk, _⟩ := he.enough h1 h2
      simp [Dict.has, hk]
  obtain ⟨acc, w', h⟩ := initLoop_works hw (acc := ⟨augment dev q.devCounts, [], [], []⟩) hc w
  have h1 : ∃ s, dev.genInitState (augment dev q.devCounts) q.numChps q.numLots w = (.ok s, w') :=
    ⟨_, M.bind_ok h⟩
  obtain ⟨s, h1⟩ := h1
  have h2 : genInitFrom dev q.devCounts q.numChps q.numLots t w = (.ok (withElapsed s t), w') :=
    M.bind_ok h1
  exact ⟨_, _, M.bind_ok h2⟩

theorem initLoop_keyError {C L : Nat} {prms : Dict (PrmMdl W V)}
    (hw : ∀ p m, (p, m) ∈ prms → ∀ n (w : W), (∃ lat w', m.genLatentVals n C L w = (.ok lat, w')) ∧
      ∀ d, m = .deg d → ∃ v w', genInitVals d.initMdl n C L w = (.ok v, w'))
    {acc : InitAcc V} {p : String} (hp : p ∈ prms.keys) (hc : acc.counts.get? p = none) (w : W) :
    ∃ w', M.forIn' (initStep C L) prms acc w = (.error .keyError, w') := by
  induction prms generalizing acc w with
  | nil => cases hp
  | cons kv rest ih =>
    obtain ⟨q, m⟩ := kv
    cases hq : acc.counts.get? q with
    | none =>
      have : initStep C L acc (q, m) w = (.error .keyError, w) := by
        unfold initStep
        simp only [M.bind_run, M.ofExcept_run, Dict.getE, hq]
      exact ⟨w, M.bind_error this⟩
    | some n =>
      have hne : p ≠ q := by
        rintro rfl
        rw [hc] at hq
        cases hq
      obtain ⟨acc1, w1, h1⟩ := initLoop_works (prms := [(q, m)])
        (fun p' m' h' => hw p' m' (by cases List.mem_singleton.1 h'; exact List.mem_cons_self))
        (acc := acc) (fun p' h' => by cases List.mem_singleton.1 h'; simp [Dict.has, hq]) w
      obtain ⟨acc2, w2, h2, h3⟩ := M.bind_eq_ok.1 h1
      obtain ⟨w3, h4⟩ := ih (fun p' m' h' => hw p' m' (List.mem_cons_of_mem _ h'))
        ((List.mem_cons.1 hp).resolve_left hne) (acc := acc2)
        (by rw [(initStep_ok h2).1]; exact hc) w2
      exact ⟨w3, (M.bind_ok h2).trans h4⟩

/-- C42 fails: for every device with a parameter that is neither measured nor needed, initial state
generation ends with `KeyError` (sampling itself never fails). -/
theorem C42_unmeasured_violated {dev : DeviceMdl W V} {q : Quantities}
    (hw : InitWorks dev q.numChps q.numLots) {p : String} (hp : p ∈ dev.prms.keys)
    (hm : ∀ c n, q.devCounts.get? c = some n → p ≠ c ∧ ¬ Needs dev c p) (t : TimeVal) (w : W) :
    (genInitState dev none 1 1 (some q) t w).1 = .error .keyError := by
  have hs : (augment dev q.devCounts).get? p = none := by
    rw [(augment_enough dev q.devCounts).same fun c n hc => (hm c n hc).2]
    cases hn : q.devCounts.get? p with
    | none => rfl
    | some n => exact absurd rfl (hm p n hn).1
  obtain ⟨w', h⟩ := initLoop_keyError hw hp (acc := ⟨augment dev q.devCounts, [], [], []⟩) hs w
  have h1 : dev.genInitState (augment dev q.devCounts) q.numChps q.numLots w =
      (.error .keyError, w') := M.bind_error h
  have h2 : genInitFrom dev q.devCounts q.numChps q.numLots t w = (.error .keyError, w') :=
    M.bind_error h1
  exact congrArg Prod.fst (M.bind_error h2)

/-! ## C45: supplying the generated initial state -/

/-- `simulate(test, dev, env, gen_init_state(dev, quantity_info=SimReport(test)))`. -/
def simulateGiven (ord : SetOrder) (test : TestSpec V) (dev : DeviceMdl W V) (env : PhysTestEnv V) :
    M W (SimReport V) := do
  let r ← genInitState dev none 1 1 (some (SimReport.ofTest test).info) (.td 0)
  simulate ord test dev env (some r.state)

omit [PyNum V] [Rng W V] in
theorem augment_supplied {dev : DeviceMdl W V} {d : Dict Nat} (h : Supplied dev d) :
    augment dev d = d := by
  have h1 : ∀ c ∈ d.keys, augmentPrm dev d c = d := by
    intro c hc
    obtain ⟨n, hn⟩ := Option.isSome_iff_exists.1 ((Dict.has_iff_mem_keys _ _).2 hc)
    unfold augmentPrm
    split
    · rename_i m hm
      have h2 : ∀ reqs : List String, (∀ p ∈ reqs, Needs dev c p) →
          reqs.foldl (augmentReq c) d = d := by
        intro reqs
        induction reqs with
        | nil => intro _; rfl
        | cons p rest ih =>
          intro hr
          obtain ⟨k, hk, hle⟩ := h c p n hn (hr p List.mem_cons_self)
          have : augmentReq c d p = d := by
            unfold augmentReq
            rw [hn, hk]
            exact if_neg (by omega)
          rw [List.foldl_cons, this]
          exact ih fun p' h' => hr p' (List.mem_cons_of_mem _ h')
      refine h2 _ fun p hp => ?_
      obtain ⟨a, b⟩ := mem_requiredPrms.1 hp
      exact ⟨m, hm, a, b⟩
    · rfl
  have h3 : ∀ ks : List String, (∀ c ∈ ks, c ∈ d.keys) → ks.foldl (augmentPrm dev) d = d := by
    intro ks
    induction ks with
    | nil => intro _; rfl
    | cons c rest ih =>
      intro hk
      rw [List.foldl_cons, h1 c (hk c List.mem_cons_self)]
      exact ih fun c' h' => hk c' (List.mem_cons_of_mem _ h')
  exact h3 _ fun _ h => h

/-- C45, the part that holds: when the test itself measures enough of every parameter that its circuit
parameters need, both ways give the same report, the same exceptions and the same random state. -/
theorem C45_partial {dev : DeviceMdl W V} {test : TestSpec V}
    (hs : Supplied dev (SimReport.ofTest test).devCounts) (ord : SetOrder) (env : PhysTestEnv V) :
    simulateGiven ord test dev env = simulate ord test dev env none := by
  funext w
  have ha := augment_supplied hs
  have hg : ∀ t : TimeVal,
      genInitState dev none 1 1 (some (SimReport.ofTest test).info) t =
        (genInitFrom dev (SimReport.ofTest test).devCounts test.numChps test.numLots t >>= fun s =>
          (pure ⟨s, none, some (SimReport.ofTest test).info⟩ : M W (InitResult V))) := by
    intro t
    show (_ >>= fun s => (pure ⟨s, none, some { (SimReport.ofTest test).info with
      devCounts := augment dev (SimReport.ofTest test).devCounts }⟩ : M W (InitResult V))) = _
    rw [ha]
    rfl
  unfold simulateGiven simulate simulateFull
  simp only [simStart, hg]
  simp only [M.bind_run]
  cases genInitFrom dev (SimReport.ofTest test).devCounts test.numChps test.numLots (.td 0) w with
  | mk res w' =>
    cases res with
    | error e => rfl
    | ok s => rfl

end state

/-! ### Examples: the device of `Spec.ExampleDevice`, with "vth" and the circuit parameter "delay" -/

section examples
open Spec.Ex

theorem needs_delay : Needs Ex.dev "delay" "vth" :=
  ⟨{ compute := eqn2 "vth" "vdd" PyArith.mul }, rfl, by decide, by decide⟩

theorem needs_ex {c p : String} (h : Needs Ex.dev c p) : c = "delay" ∧ p = "vth" := by
  obtain ⟨m, hm, hp, ha⟩ := h
  have hc : c = "delay" := by
    simp only [Ex.dev, Dict.get?_cons, Dict.get?_nil] at hm
    split at hm
    · cases hm
    · split at hm
      · rename_i h
        exact h.symm
      · cases hm
  subst hc
  refine ⟨rfl, ?_⟩
  have : m = { compute := eqn2 "vth" "vdd" PyArith.mul } := by
    have h2 : Ex.dev.prms.get? "delay" =
      some (.circ { compute := eqn2 "vth" "vdd" PyArith.mul }) := rfl
    rw [h2] at hm
    cases hm
    rfl
  subst this
  have hp' : p = "vth" ∨ p = "delay" := by simpa [Ex.dev, Dict.keys] using hp
  rcases hp' with rfl | rfl
  · rfl
  · exact absurd ha (by decide)

/-- Three "delay" need three "vth", which the report did not ask for; "temp" is left alone. -/
example : (genInitState Ex.dev none 1 1 (some ⟨[("delay", 3), ("temp", 2)], 2, 1⟩) (.td 0)
      Counts.start).1.toOption.bind (fun r => r.info.map fun q =>
        (q.devCounts, (r.state.currMech.get? "vth").map fun d => d.map fun kv => kv.2.nd)) =
    some ([("delay", 3), ("temp", 2), ("vth", 3)], some [3]) := by decide +kernel

/-- A higher request stays. -/
example : (genInitState Ex.dev (some [("vth", 5), ("delay", 3)]) 2 1 none (.td 0)
      Counts.start).1.toOption.bind (·.counts) = some [("vth", 5), ("delay", 3)] := by decide +kernel

/-- C41 fails for the report when a dictionary of counts is given too (which is accepted, although the
message of line 59 says it is not): the report's own count of "vth" is lowered from 5 to 1. -/
theorem C41_both_sources_violated :
    (genInitState Ex.dev (some [("delay", 1)]) 1 1 (some ⟨[("vth", 5)], 1, 1⟩) (.td 0)
      Counts.start).1.toOption.bind (·.info.map (·.devCounts)) = some [("vth", 1)] := by
  decide +kernel

theorem ex_initWorks (C L : Nat) : InitWorks Ex.dev C L := by
  intro p m hm n w
  have h : (p, m) = ("vth", .deg (degPrm [("burn", burn)] (.fin 3))) ∨
    (p, m) = ("delay", .circ { compute := eqn2 "vth" "vdd" PyArith.mul }) := by
    simpa [Ex.dev] using hm
  rcases h with h | h <;> cases h
  · refine ⟨⟨_, _, rfl⟩, ?_⟩
    intro d hd
    cases hd
    have : ∃ a, ((constLatent (.fin 3) : LatentVar Q).setName (some "init_val")).genLatentVals n C L w =
        (.ok a, w) := ⟨_, genLatentVals_run _ (lotS := List.replicate L (.fin 1)) rfl rfl rfl (by simp)
          (by simp) (by simp)⟩
    obtain ⟨a, ha⟩ := this
    have h2 : (initValMk none none [("init_val", constLatent (.fin 3))] :
        LatentMdl Counts Q).genLatentVals n C L w = (.ok [("init_val", a)], w) := by
      refine (M.bind_ok (a := ("init_val", a)) (w' := w) ?_).trans rfl
      exact (M.bind_ok ha).trans rfl
    exact ⟨.arr a, w, (M.bind_ok h2).trans rfl⟩
  · exact ⟨⟨_, _, rfl⟩, fun d hd => by cases hd⟩
/-- C42: measuring only "delay" is enough. -/
example (w : Counts) : ∃ r w', genInitState Ex.dev none 1 1 (some ⟨[("delay", 2)], 3, 2⟩) (.td 0) w =
    (.ok r, w') := by
  refine C42_partial (dev := Ex.dev) (q := ⟨[("delay", 2)], 3, 2⟩) (ex_initWorks 3 2) ?_ (.td 0) w
  intro p hp
  refine ⟨"delay", 2, by decide, ?_⟩
  have hp' : p = "vth" ∨ p = "delay" := by simpa [Ex.dev, Dict.keys] using hp
  rcases hp' with rfl | rfl
  · exact .inr needs_delay
  · exact .inl rfl

/-- C42 fails when only "vth" is measured. -/
example (w : Counts) : (genInitState Ex.dev none 1 1 (some ⟨[("vth", 2)], 3, 2⟩) (.td 0) w).1 =
    .error .keyError := by
  refine C42_unmeasured_violated (dev := Ex.dev) (q := ⟨[("vth", 2)], 3, 2⟩) (ex_initWorks 3 2)
    (p := "delay") (by decide) ?_ (.td 0) w
  intro c n hc
  have hv : c = "vth" := by
    simp only [Dict.get?_cons, Dict.get?_nil] at hc
    split at hc
    · rename_i h
      exact h.symm
    · cases hc
  subst hv
  exact ⟨by decide, fun hn => by simpa using (needs_ex hn).1⟩

/-- A test that measures only "delay". -/
def delayOnly : TestSpec Q :=
  { steps := [.strs ⟨[("temp", .fin 90), ("vdd", .fin 2)], .td 3600000000, "heat"⟩,
      .meas ⟨[("delay", 1)], [("temp", .fin 20), ("vdd", .fin 2)], "read"⟩],
    numChps := 1, numLots := 1, name := "delay", description := "" }

/-- C45 fails: the test that measures only "delay" runs, but with the generated state supplied it ends
with `KeyError`, as the counts of the report lack "vth". -/
theorem C45_counts_violated :
    (∃ r, (simulate Ex.orderA delayOnly Ex.dev ⟨[], []⟩ none Counts.start).1 = .ok r) ∧
    (simulateGiven Ex.orderA delayOnly Ex.dev ⟨[], []⟩ Counts.start).1 = .error .keyError := by
  constructor
  · obtain ⟨r, hr, _⟩ := exists_ok (x := (simulate Ex.orderA delayOnly Ex.dev ⟨[], []⟩ none
      Counts.start).1) (f := fun _ => true) (by decide +kernel)
    exact ⟨r, hr⟩
  · decide +kernel

/-- C45: a test measuring both. -/
example : Supplied Ex.dev (SimReport.ofTest twoSteps).devCounts := by
  intro c p n hc hn
  obtain ⟨rfl, rfl⟩ := needs_ex hn
  exact ⟨1, by decide, by cases hc; decide⟩

end examples

end Gerabaldi.Props
