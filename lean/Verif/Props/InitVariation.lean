import Verif.Spec.InitVariation
import Verif.Lemmas.Requests
import Verif.Props.Start

/-! # C94: the random variation of new devices -/

namespace Gerabaldi.Props
open Gerabaldi Spec MeasureTheory ProbabilityTheory

section
variable {N : Numpy} {ι α β : Type}

/-- `Uses` for given numbers. -/
def UsesAt (x : ι → Nat → ℝ) (p : M (Tapes N) α) (rs : List (Request ι)) (Post : α → Prop) : Prop :=
  ∀ tape next, Reads N tape next rs x → ∃ a, p ⟨tape, next⟩ = (.ok a, ⟨tape, afterAll rs next⟩) ∧ Post a

variable {x : ι → Nat → ℝ}

theorem UsesAt.pure {a : α} {Post : α → Prop} (h : Post a) : UsesAt (N := N) x (Pure.pure a) [] Post :=
  fun _ _ _ => ⟨a, rfl, h⟩

theorem UsesAt.run {p : M (Tapes N) α} {a : α} {Post : α → Prop} (h : ∀ w, p w = (.ok a, w)) (hp : Post a) :
    UsesAt x p [] Post :=
  fun _ _ _ => ⟨a, h _, hp⟩

theorem UsesAt.mono {p : M (Tapes N) α} {rs : List (Request ι)} {A B : α → Prop} (h : UsesAt x p rs A)
    (hAB : ∀ a, A a → B a) : UsesAt x p rs B := by
  intro tape next hx
  obtain ⟨a, h1, h2⟩ := h tape next hx
  exact ⟨a, h1, hAB a h2⟩

theorem UsesAt.bind {p : M (Tapes N) α} {q : α → M (Tapes N) β} {rs qs : List (Request ι)} {A : α → Prop}
    {B : β → Prop} (hp : UsesAt x p rs A) (hq : ∀ a, A a → UsesAt x (q a) qs B) :
    UsesAt x (p >>= q) (rs ++ qs) B := by
  intro tape next hx
  obtain ⟨h1, h2⟩ := reads_append.1 hx
  obtain ⟨a, e1, e2⟩ := hp tape next h1
  obtain ⟨b, f1, f2⟩ := hq a e2 tape _ h2
  refine ⟨b, ?_, f2⟩
  rw [afterAll_append, M.bind_ok e1, f1]

theorem UsesAt.bindRun {p : M (Tapes N) α} {q : α → M (Tapes N) β} {rs : List (Request ι)} {a : α}
    {B : β → Prop} (hp : ∀ w, p w = (.ok a, w)) (hq : UsesAt x (q a) rs B) : UsesAt x (p >>= q) rs B := by
  intro tape next hx
  obtain ⟨b, f1, f2⟩ := hq tape next hx
  exact ⟨b, by rw [M.bind_ok (hp _), f1], f2⟩

theorem UsesAt.bindPure {p : M (Tapes N) α} {q : α → β} {rs : List (Request ι)} {A : α → Prop}
    {B : β → Prop} (hp : UsesAt x p rs A) (hq : ∀ a, A a → B (q a)) :
    UsesAt x (p >>= fun a => Pure.pure (q a)) rs B := by
  have := hp.bind (q := fun a => (Pure.pure (q a) : M (Tapes N) β)) (fun a ha => UsesAt.pure (hq a ha))
  rwa [List.append_nil] at this

theorem UsesAt.mapList {f : α → M (Tapes N) β} {xs : List α} {rs : α → List (Request ι)}
    {A : α → β → Prop} (h : ∀ a ∈ xs, UsesAt x (f a) (rs a) (A a)) :
    UsesAt x (M.mapList f xs) (xs.flatMap rs) (fun ys => List.Forall₂ A xs ys) := by
  induction xs with
  | nil => exact fun _ _ _ => ⟨[], rfl, .nil⟩
  | cons a xs ih =>
    rw [List.flatMap_cons]
    refine (h a List.mem_cons_self).bind fun y hy => ?_
    exact (ih fun b hb => h b (List.mem_cons_of_mem _ hb)).bindPure fun ys hys => .cons hy hys

theorem UsesAt.forIn' {f : β → α → M (Tapes N) β} {xs : List α} {rs : α → List (Request ι)}
    (Inv : List α → β → Prop) {b : β} (h0 : Inv [] b)
    (h : ∀ pre a post b, xs = pre ++ a :: post → Inv pre b → UsesAt x (f b a) (rs a) (Inv (pre ++ [a]))) :
    UsesAt x (M.forIn' f xs b) (xs.flatMap rs) (Inv xs) := by
  suffices H : ∀ post pre b, xs = pre ++ post → Inv pre b → UsesAt x (M.forIn' f post b) (post.flatMap rs) (Inv xs) from
    H xs [] b rfl h0
  intro post
  induction post with
  | nil =>
    intro pre b e hb
    rw [List.append_nil] at e
    exact UsesAt.pure (e ▸ hb)
  | cons a post ih =>
    intro pre b e hb
    rw [List.flatMap_cons]
    exact (h pre a post b e hb).bind fun b' hb' => ih (pre ++ [a]) b' (by rw [e, List.append_assoc]; rfl) hb'

end

/-- The labels of requests: lots, chips and devices of a latent variable. -/
abbrev LatLabel := Slot × Fin 3

section
variable {N : Numpy} (L C : Nat) (D : String → Nat)

/-- The requests of a latent variable. -/
def latReqs (s : Slot) (lv : LatentVar (Ext ℝ)) : List (Request LatLabel) :=
  [⟨(s, 0), lv.lot, L⟩, ⟨(s, 1), lv.chp, L * C⟩, ⟨(s, 2), lv.dev, L * C * D s.prm⟩]

/-- The requests of some latent variables. -/
def dictReqs (p : String) (r : Role) (vs : Dict (LatentVar (Ext ℝ))) : List (Request LatLabel) :=
  vs.flatMap fun kv => latReqs L C D ⟨p, r, kv.1⟩ kv.2

/-- The requests of a parameter. -/
def newReqs (p : String) : PrmMdl (Tapes N) (Ext ℝ) → List (Request LatLabel)
  | .circ m => dictReqs L C D p .own m.latentVars
  | .deg m => (dictReqs L C D p .cond m.condMdl.latentVars ++
      (m.mechs.flatMap fun kv => dictReqs L C D p (.mech kv.1) kv.2.mdl.latentVars) ++
      dictReqs L C D p .own m.mdl.latentVars) ++ dictReqs L C D p .init m.initMdl.latentVars

/-- The requests of a device. -/
def devReqs (dm : DeviceMdl (Tapes N) (Ext ℝ)) : List (Request LatLabel) :=
  dm.prms.flatMap fun kv => newReqs L C D kv.1 kv.2

variable {L C D}

/-- The contributions among the numbers. -/
def contribution (D : String → Nat) (x : LatLabel → Nat → ℝ) (s : Slot) : Spot L C → ℝ
  | .lot l => x (s, 0) l
  | .chp l c => x (s, 1) (l * C + c)
  | .dev l c d => x (s, 2) ((l * C + c) * D s.prm + d)

/-- An array holds the values of a latent variable. -/
def HoldsVar (v : Variation) (x : LatLabel → Nat → ℝ) (L C : Nat) (D : String → Nat) (s : Slot) (a : Arr3 (Ext ℝ)) : Prop :=
  a.HasDims L C (D s.prm) ∧ ∀ (l : Fin L) (c : Fin C), ∀ d < D s.prm,
    a.at' l c d = .fin (v.value (contribution D x) s l c d)

/-- A dictionary holds the values of some latent variables. -/
def HoldsAll (v : Variation) (x : LatLabel → Nat → ℝ) (L C : Nat) (D : String → Nat) (p : String) (r : Role)
    (vs : Dict (LatentVar (Ext ℝ))) (d : Dict (Arr3 (Ext ℝ))) : Prop :=
  d.keys = vs.keys ∧ ∀ k lv, vs.get? k = some lv → ∃ a, d.get? k = some a ∧ HoldsVar v x L C D ⟨p, r, k⟩ a

variable {v : Variation} {x : LatLabel → Nat → ℝ}

theorem usesLatent {s : Slot} {lv : LatentVar (Ext ℝ)} (h : LatentLayers N v s lv) :
    UsesAt (N := N) x (lv.genLatentVals (D s.prm) C L) (latReqs L C D s lv) (HoldsVar v x L C D s) := by
  intro tape next hx
  obtain ⟨h1, h2, h3, -⟩ := hx
  have s1 := tape_sample h.lot L (⟨tape, next⟩ : Tapes N)
  have s2 := tape_sample h.chp (L * C) (⟨tape, afterSample lv.lot L next⟩ : Tapes N)
  have s3 := tape_sample h.dev (L * C * D s.prm) (⟨tape, afterSample lv.chp (L * C) (afterSample lv.lot L next)⟩ : Tapes N)
  have run := genLatentVals_run lv s1 s2 s3 (by simp) (by simp) (by simp)
  refine ⟨_, run, ?_⟩
  obtain ⟨r, w', e1, e2, e3, e4, e5⟩ := tape_latent h.lot h.chp h.dev L C (D s.prm) (⟨tape, next⟩ : Tapes N)
  rw [run] at e1
  cases e1
  refine ⟨⟨e2, e3, e4⟩, fun l c d hd => ?_⟩
  rw [e5 l l.2 c c.2 d hd]
  have i3 := Arr3.index_lt l.2 c.2 hd
  have i2 : l.1 * C + c.1 < L * C := by
    have := Arr3.index_lt (D := 1) l.2 c.2 Nat.zero_lt_one
    omega
  have g1 := h1 _ h.lot l l.2
  have g2 := h2 _ h.chp _ i2
  have g3 := h3 _ h.dev _ i3
  simp only at g1 g2 g3
  simp only [← g1, ← g2, ← g3, h.base, LatentVar.op, h.type, Variation.value, contribution]
  cases v.base s <;> cases v.type s <;>
    simp [VType.op, PyArith.add, PyArith.mul, Ext.add, Ext.mul]

theorem holdsAll_of {p : String} {r : Role} {vs : Dict (LatentVar (Ext ℝ))} {d : Dict (Arr3 (Ext ℝ))}
    (h : List.Forall₂ (fun kv kv' => kv'.1 = kv.1 ∧ HoldsVar v x L C D ⟨p, r, kv.1⟩ kv'.2) vs d) :
    HoldsAll v x L C D p r vs d := by
  induction h with
  | nil => exact ⟨rfl, fun k lv h => (by cases h)⟩
  | @cons a b xs ys hab _ ih =>
    obtain ⟨h1, h2⟩ := hab
    obtain ⟨i1, i2⟩ := ih
    obtain ⟨ka, la⟩ := a
    obtain ⟨kb, lb⟩ := b
    simp only at h1 h2
    subst h1
    refine ⟨?_, fun k lv hk => ?_⟩
    · show kb :: Dict.keys ys = kb :: Dict.keys xs
      rw [i1]
    · rw [Dict.get?_cons] at hk ⊢
      split_ifs at hk ⊢ with e
      · subst e
        exact ⟨lb, rfl, h2⟩
      · exact i2 k lv hk

theorem usesDict {p : String} {r : Role} {m : LatentMdl (Tapes N) (Ext ℝ)} (hnd : m.latentVars.Nodup)
    (h : ∀ k lv, m.latentVars.get? k = some lv → LatentLayers N v ⟨p, r, k⟩ lv) :
    UsesAt (N := N) x (m.genLatentVals (D p) C L) (dictReqs L C D p r m.latentVars)
      (HoldsAll v x L C D p r m.latentVars) := by
  refine (UsesAt.mapList (A := fun (kv : String × LatentVar (Ext ℝ)) (kv' : String × Arr3 (Ext ℝ)) => kv'.1 = kv.1 ∧
    HoldsVar v x L C D ⟨p, r, kv.1⟩ kv'.2) fun kv hkv => ?_).mono fun d hd => holdsAll_of hd
  exact (usesLatent (s := ⟨p, r, kv.1⟩) (h kv.1 kv.2 (Dict.get?_of_mem hnd hkv))).bindPure fun a ha => ⟨rfl, ha⟩

/-- A dictionary holds the values of the latent variables of a parameter. -/
def HoldsPrm (v : Variation) (x : LatLabel → Nat → ℝ) (L C : Nat) (D : String → Nat) (p : String) :
    PrmMdl (Tapes N) (Ext ℝ) → Dict (LatNode (Ext ℝ)) → Prop
  | .circ m, lat => ∃ own, HoldsAll v x L C D p .own m.latentVars own ∧
      ∀ k a, own.get? k = some a → lat.get? k = some (.arr a)
  | .deg m, lat => (∃ c, lat.get? "cond" = some (.sub c) ∧ HoldsAll v x L C D p .cond m.condMdl.latentVars c) ∧
      (∀ k mm, m.mechs.get? k = some mm → ∃ d, lat.get? k = some (.sub d) ∧
        HoldsAll v x L C D p (.mech k) mm.mdl.latentVars d) ∧
      ∃ own, HoldsAll v x L C D p .own m.mdl.latentVars own ∧ ∀ k a, own.get? k = some a → lat.get? k = some (.arr a)

theorem usesDeg {p : String} {m : DegPrmMdl (Tapes N) (Ext ℝ)} (hn : OwnNames m)
    (n1 : m.condMdl.latentVars.Nodup) (n2 : ∀ k mm, m.mechs.get? k = some mm → mm.mdl.latentVars.Nodup)
    (h1 : ∀ k lv, m.condMdl.latentVars.get? k = some lv → LatentLayers N v ⟨p, .cond, k⟩ lv)
    (h2 : ∀ j mm, m.mechs.get? j = some mm → ∀ k lv, mm.mdl.latentVars.get? k = some lv →
      LatentLayers N v ⟨p, .mech j, k⟩ lv)
    (h3 : ∀ k lv, m.mdl.latentVars.get? k = some lv → LatentLayers N v ⟨p, .own, k⟩ lv) :
    UsesAt (N := N) x (m.genLatentVals (D p) C L) (dictReqs L C D p .cond m.condMdl.latentVars ++
      (m.mechs.flatMap fun kv => dictReqs L C D p (.mech kv.1) kv.2.mdl.latentVars) ++
      dictReqs L C D p .own m.mdl.latentVars) (HoldsPrm v x L C D p (.deg m)) := by
  unfold DegPrmMdl.genLatentVals
  rw [List.append_assoc]
  refine (usesDict n1 h1).bind fun c hc => ?_
  refine UsesAt.bind (UsesAt.forIn' (fun pre (d : Dict (LatNode (Ext ℝ))) => d.get? "cond" = some (.sub c) ∧
    ∀ kv ∈ pre, ∃ e, d.get? kv.1 = some (.sub e) ∧ HoldsAll v x L C D p (.mech kv.1) kv.2.mdl.latentVars e)
    ⟨rfl, fun kv hkv => by cases hkv⟩ ?_) ?_
  · intro pre a post d e ⟨d1, d2⟩
    have ha : m.mechs.get? a.1 = some a.2 := Dict.get?_of_mem hn.mechs (by rw [e]; simp)
    refine (usesDict (n2 _ _ ha) (h2 _ _ ha)).bindPure fun f hf => ⟨?_, fun kv hkv => ?_⟩
    · rw [Dict.get?_set, if_neg, d1]
      rintro e
      exact hn.cond (e ▸ Dict.mem_keys_of_get? ha)
    · rcases List.mem_append.1 hkv with hkv | hkv
      · obtain ⟨e', e1, e2⟩ := d2 kv hkv
        refine ⟨e', ?_, e2⟩
        rw [Dict.get?_set, if_neg, e1]
        intro he
        have := hn.mechs
        unfold Dict.Nodup Dict.keys at this
        rw [e, List.map_append, List.map_cons] at this
        exact (List.nodup_append.1 this).2.2 _ (List.mem_map_of_mem hkv) _ List.mem_cons_self he.symm
      · rw [List.mem_singleton.1 hkv]
        exact ⟨f, by rw [Dict.get?_set, if_pos rfl], hf⟩
  · intro d ⟨d1, d2⟩
    refine (usesDict hn.latents h3).bindPure fun own ho => ?_
    have hother : ∀ k, (k = "cond" ∨ k ∈ m.mechs.keys) → k ∉ own.keys := by
      intro k hk' hko
      rw [ho.1] at hko
      rcases hk' with h | h
      · exact (hn.own k hko).1 h
      · exact (hn.own k hko).2 h
    refine ⟨⟨c, ?_, hc⟩, fun k mm hk => ?_, own, ho, fun k a hka => ?_⟩
    · rw [(updateArr_get own d "cond").2 (hother _ (.inl rfl))]
      exact d1
    · obtain ⟨e, e1, e2⟩ := d2 (k, mm) (Dict.mem_of_get? hk)
      refine ⟨e, ?_, e2⟩
      rw [(updateArr_get own d k).2 (hother k (.inr (Dict.mem_keys_of_get? hk)))]
      exact e1
    · rw [Dict.get?_update]
      · rw [show Dict.get? (own.map fun kv => (kv.1, LatNode.arr kv.2)) k = some (LatNode.arr a) from
          (Dict.get?_map (fun _ (x : Arr3 (Ext ℝ)) => LatNode.arr x) own k).trans (by rw [hka]; rfl)]
        rfl
      · unfold Dict.Nodup
        have : Dict.keys (own.map fun kv => (kv.1, LatNode.arr kv.2)) = own.keys := by
          simp [Dict.keys, Function.comp_def]
        rw [this, ho.1]
        exact hn.latents

/-- The initial values of a parameter. -/
def HoldsInit (v : Variation) (x : LatLabel → Nat → ℝ) (L C : Nat) (D : String → Nat)
    (g : String → (String → ℝ) → ℝ) (p : String) (a : Arr3 (Ext ℝ)) : Prop :=
  a.HasDims L C (D p) ∧ ∀ (l : Fin L) (c : Fin C), ∀ d < D p,
    a.at' l c d = .fin (g p fun k => v.value (contribution D x) ⟨p, .init, k⟩ l c d)

theorem usesInit {p : String} {m : LatentMdl (Tapes N) (Ext ℝ)} {g : String → (String → ℝ) → ℝ}
    (hnd : m.latentVars.Nodup) (h : ∀ k lv, m.latentVars.get? k = some lv → LatentLayers N v ⟨p, .init, k⟩ lv)
    (hg : InitEquation m (g p)) :
    UsesAt (N := N) x (genInitVals m (D p) C L) (dictReqs L C D p .init m.latentVars)
      (fun u => ∃ a, u = .arr a ∧ HoldsInit v x L C D g p a) := by
  unfold genInitVals
  rw [← List.append_nil (dictReqs _ _ _ _ _ _)]
  refine (usesDict hnd h).bind fun d hd => ?_
  obtain ⟨d1, d2⟩ := hd
  have key := hg d L C (D p) (fun k l c e => if h : l < L ∧ c < C then
    v.value (contribution D x) ⟨p, .init, k⟩ (⟨l, h.1⟩ : Fin L) (⟨c, h.2⟩ : Fin C) e else 0) d1 (fun k a hk => ?_)
  · intro tape next hx
    obtain ⟨a, a1, a2, a3⟩ := key ⟨tape, next⟩
    refine ⟨.arr a, a1, a, rfl, a2, fun l c e he => ?_⟩
    rw [a3 l l.2 c c.2 e he]
    simp [l.2, c.2]
  · obtain ⟨lv, hlv⟩ : ∃ lv, m.latentVars.get? k = some lv := by
      have := Dict.mem_keys_of_get? hk
      rw [d1] at this
      cases hh : m.latentVars.get? k with
      | none => exact absurd this ((Dict.get?_eq_none_iff _ k).1 hh)
      | some b => exact ⟨b, rfl⟩
    obtain ⟨a', e1, e2, e3⟩ := d2 k lv hlv
    rw [hk] at e1
    cases e1
    refine ⟨e2, fun l hl c hc e he => ?_⟩
    rw [dif_pos ⟨hl, hc⟩]
    exact e3 ⟨l, hl⟩ ⟨c, hc⟩ e he

variable {dm : DeviceMdl (Tapes N) (Ext ℝ)} {counts : Dict Nat} {g : String → (String → ℝ) → ℝ}

theorem usesPrm (h : NewSetup N dm counts D v g) {p : String} {m : PrmMdl (Tapes N) (Ext ℝ)}
    (hm : dm.prms.get? p = some m) : UsesAt (N := N) x (m.genLatentVals (D p) C L)
      (match m with
        | .circ m => dictReqs L C D p .own m.latentVars
        | .deg m => dictReqs L C D p .cond m.condMdl.latentVars ++
          (m.mechs.flatMap fun kv => dictReqs L C D p (.mech kv.1) kv.2.mdl.latentVars) ++
          dictReqs L C D p .own m.mdl.latentVars) (HoldsPrm v x L C D p m) := by
  have at' : ∀ {r d k lv}, latentsOf dm p r = some d → d.get? k = some lv → LatentLayers N v ⟨p, r, k⟩ lv := by
    intro r d k lv h1 h2
    refine h.layers ⟨p, r, k⟩ lv ?_
    unfold latentAt
    simp only [h1, h2]
  cases m with
  | circ m =>
    have e : latentsOf dm p .own = some m.latentVars := by simp [latentsOf, hm]
    refine (usesDict (h.vars _ _ _ e) fun k lv hk => at' e hk).bindPure fun own ho => ⟨own, ho, fun k a hka => ?_⟩
    exact (Dict.get?_map (fun _ (x : Arr3 (Ext ℝ)) => LatNode.arr x) own k).trans (by rw [hka]; rfl)
  | deg m =>
    have e1 : latentsOf dm p .cond = some m.condMdl.latentVars := by simp [latentsOf, hm]
    have e2 : ∀ j mm, m.mechs.get? j = some mm → latentsOf dm p (.mech j) = some mm.mdl.latentVars := by
      intro j mm hj
      simp [latentsOf, hm, hj]
    have e3 : latentsOf dm p .own = some m.mdl.latentVars := by simp [latentsOf, hm]
    exact usesDeg (h.names p m hm) (h.vars _ _ _ e1) (fun j mm hj => h.vars _ _ _ (e2 j mm hj))
      (fun k lv hk => at' e1 hk) (fun j mm hj k lv hk => at' (e2 j mm hj) hk) (fun k lv hk => at' e3 hk)

/-- The state holds the values of a parameter. -/
def PrmHeld (v : Variation) (x : LatLabel → Nat → ℝ) (L C : Nat) (D : String → Nat) (g : String → (String → ℝ) → ℝ)
    (acc : InitAcc (Ext ℝ)) (kv : String × PrmMdl (Tapes N) (Ext ℝ)) : Prop :=
  (∃ lat, acc.latents.get? kv.1 = some lat ∧ HoldsPrm v x L C D kv.1 kv.2 lat) ∧
    ∀ m, kv.2 = .deg m → ∃ a, acc.prm.get? kv.1 = some (.arr a) ∧ HoldsInit v x L C D g kv.1 a

theorem usesDev (h : NewSetup N dm counts D v g) :
    UsesAt (N := N) x (M.forIn' (initStep C L) dm.prms ⟨counts, [], [], []⟩) (devReqs L C D dm)
      (fun acc => ∀ kv ∈ dm.prms, PrmHeld v x L C D g acc kv) := by
  refine (UsesAt.forIn' (fun pre (acc : InitAcc (Ext ℝ)) => acc.counts = counts ∧ ∀ kv ∈ pre, PrmHeld v x L C D g acc kv)
    ⟨rfl, fun kv hkv => by cases hkv⟩ ?_).mono fun acc hacc => hacc.2
  rintro pre ⟨p, m⟩ post acc e ⟨a1, a2⟩
  have hm : dm.prms.get? p = some m := Dict.get?_of_mem h.prms (by rw [e]; simp)
  have hc : acc.counts.get? p = some (D p) := by
    rw [a1]
    exact h.counts p (Dict.mem_keys_of_get? hm)
  have hmiss : addMissingCount acc.counts p = acc.counts := by
    unfold addMissingCount
    rw [if_pos]
    simp [Dict.has, hc]
  have hne : ∀ kv ∈ pre, p ≠ kv.1 := by
    intro kv hkv he
    have := h.prms
    unfold Dict.Nodup Dict.keys at this
    rw [e, List.map_append, List.map_cons] at this
    exact (List.nodup_append.1 this).2.2 _ (List.mem_map_of_mem hkv) _ List.mem_cons_self he.symm
  have hold := usesPrm (x := x) (L := L) (C := C) h hm
  unfold initStep
  refine UsesAt.bindRun (a := D p) (fun w => ?_) ?_
  · show M.ofExcept (acc.counts.getE p) w = _
    rw [Dict.getE_eq_ok.2 hc]
    rfl
  cases m with
  | circ m =>
    rw [← List.append_nil (newReqs _ _ _ _ _)]
    refine hold.bind fun lat hlat => UsesAt.pure ⟨?_, fun kv hkv => ?_⟩
    · show addMissingCount acc.counts p = _
      rw [hmiss, a1]
    · rcases List.mem_append.1 hkv with hkv | hkv
      · obtain ⟨⟨lat', b1, b2⟩, b3⟩ := a2 kv hkv
        refine ⟨⟨lat', ?_, b2⟩, b3⟩
        show Dict.get? (acc.latents.set p lat) kv.1 = _
        rw [Dict.get?_set, if_neg (hne kv hkv), b1]
      · rw [List.mem_singleton.1 hkv]
        refine ⟨⟨lat, ?_, hlat⟩, fun m' hm' => by cases hm'⟩
        show Dict.get? (acc.latents.set p lat) p = _
        rw [Dict.get?_set, if_pos rfl]
  | deg m =>
    refine hold.bind fun lat hlat => ?_
    have e4 : latentsOf dm p .init = some m.initMdl.latentVars := by simp [latentsOf, hm]
    refine UsesAt.bindRun (a := D p) (fun w => ?_) ((usesInit (v := v) (h.vars _ _ _ e4) (fun k lv hk => ?_)
      (h.equations p m hm)).bindPure fun u hu => ⟨?_, fun kv hkv => ?_⟩)
    · show M.ofExcept ((addMissingCount acc.counts p).getE p) w = _
      rw [hmiss, Dict.getE_eq_ok.2 hc]
      rfl
    · refine h.layers ⟨p, .init, k⟩ lv ?_
      unfold latentAt
      simp only [e4, hk]
    · show addMissingCount acc.counts p = _
      rw [hmiss, a1]
    · obtain ⟨a, rfl, ha⟩ := hu
      rcases List.mem_append.1 hkv with hkv | hkv
      · obtain ⟨⟨lat', b1, b2⟩, b3⟩ := a2 kv hkv
        refine ⟨⟨lat', ?_, b2⟩, fun m' hm' => ?_⟩
        · show Dict.get? (acc.latents.set p lat) kv.1 = _
          rw [Dict.get?_set, if_neg (hne kv hkv), b1]
        · obtain ⟨a', c1, c2⟩ := b3 m' hm'
          refine ⟨a', ?_, c2⟩
          show Dict.get? (acc.prm.set p (.arr a)) kv.1 = _
          rw [Dict.get?_set, if_neg (hne kv hkv), c1]
      · rw [List.mem_singleton.1 hkv]
        refine ⟨⟨lat, ?_, hlat⟩, fun m' hm' => ⟨a, ?_, ha⟩⟩
        · show Dict.get? (acc.latents.set p lat) p = _
          rw [Dict.get?_set, if_pos rfl]
        · show Dict.get? (acc.prm.set p (.arr a)) p = _
          rw [Dict.get?_set, if_pos rfl]

theorem usesState (h : NewSetup N dm counts D v g) :
    UsesAt (N := N) x (dm.genInitState counts C L) (devReqs L C D dm)
      (NewStateIs dm D v g (contribution (L := L) (C := C) D x)) := by
  refine (usesDev h).bindPure fun acc hacc => ⟨fun s lv hs hr => ?_, fun p m hp => ?_⟩
  · obtain ⟨p, r, k⟩ := s
    unfold latentAt at hs
    cases hd : latentsOf dm p r with
    | none => rw [hd] at hs; cases hs
    | some d =>
      rw [hd] at hs
      simp only at hs
      cases hp : dm.prms.get? p with
      | none => simp [latentsOf, hp] at hd
      | some m =>
        obtain ⟨⟨lat, l1, l2⟩, -⟩ := hacc (p, m) (Dict.mem_of_get? hp)
        simp only at l1 l2
        cases m with
        | circ m =>
          cases r <;> simp [latentsOf, hp] at hd
          subst hd
          obtain ⟨own, o1, o2⟩ := l2
          obtain ⟨a, e1, e2⟩ := o1.2 k lv hs
          exact ⟨a, by simp [keptLatent, l1, o2 k a e1], e2⟩
        | deg m =>
          obtain ⟨⟨c, c1, c2⟩, m1, own, o1, o2⟩ := l2
          cases r with
          | own =>
            simp [latentsOf, hp] at hd
            subst hd
            obtain ⟨a, e1, e2⟩ := o1.2 k lv hs
            exact ⟨a, by simp [keptLatent, l1, o2 k a e1], e2⟩
          | cond =>
            simp [latentsOf, hp] at hd
            subst hd
            obtain ⟨a, e1, e2⟩ := c2.2 k lv hs
            exact ⟨a, by simp [keptLatent, l1, c1, e1], e2⟩
          | mech j =>
            simp [latentsOf, hp] at hd
            obtain ⟨mm, hj, rfl⟩ := hd
            obtain ⟨f, f1, f2⟩ := m1 j mm hj
            obtain ⟨a, e1, e2⟩ := f2.2 k lv hs
            exact ⟨a, by simp [keptLatent, l1, f1, e1], e2⟩
          | init => exact absurd rfl hr
  · obtain ⟨-, h2⟩ := hacc (p, .deg m) (Dict.mem_of_get? hp)
    obtain ⟨a, a1, a2⟩ := h2 m rfl
    exact ⟨a, a1, a1, a2⟩

theorem mem_dictReqs {p : String} {r : Role} {vs : Dict (LatentVar (Ext ℝ))} (hnd : vs.Nodup) {q : Request LatLabel} :
    q ∈ dictReqs L C D p r vs ↔ ∃ k lv, vs.get? k = some lv ∧ q ∈ latReqs L C D ⟨p, r, k⟩ lv := by
  unfold dictReqs
  rw [List.mem_flatMap]
  constructor
  · rintro ⟨kv, h1, h2⟩
    exact ⟨kv.1, kv.2, Dict.get?_of_mem hnd h1, h2⟩
  · rintro ⟨k, lv, h1, h2⟩
    exact ⟨(k, lv), Dict.mem_of_get? h1, h2⟩

theorem mem_devReqs (h : NewSetup N dm counts D v g) {q : Request LatLabel} :
    q ∈ devReqs L C D dm ↔ ∃ s lv, latentAt dm s = some lv ∧ q ∈ latReqs L C D s lv := by
  have back : ∀ {p r k d lv}, latentsOf dm p r = some d → d.get? k = some lv → latentAt dm ⟨p, r, k⟩ = some lv := by
    intro p r k d lv h1 h2
    unfold latentAt
    simp only [h1, h2]
  unfold devReqs
  rw [List.mem_flatMap]
  constructor
  · rintro ⟨⟨p, m⟩, h1, h2⟩
    have hm := Dict.get?_of_mem h.prms h1
    cases m with
    | circ m =>
      have e : latentsOf dm p .own = some m.latentVars := by simp [latentsOf, hm]
      obtain ⟨k, lv, a1, a2⟩ := (mem_dictReqs (h.vars _ _ _ e)).1 h2
      exact ⟨_, lv, back e a1, a2⟩
    | deg m =>
      have e1 : latentsOf dm p .cond = some m.condMdl.latentVars := by simp [latentsOf, hm]
      have e3 : latentsOf dm p .own = some m.mdl.latentVars := by simp [latentsOf, hm]
      have e4 : latentsOf dm p .init = some m.initMdl.latentVars := by simp [latentsOf, hm]
      simp only [newReqs, List.mem_append, List.mem_flatMap] at h2
      rcases h2 with ((h2 | ⟨⟨j, mm⟩, hj, h2⟩) | h2) | h2
      · obtain ⟨k, lv, a1, a2⟩ := (mem_dictReqs (h.vars _ _ _ e1)).1 h2
        exact ⟨_, lv, back e1 a1, a2⟩
      · have e2 : latentsOf dm p (.mech j) = some mm.mdl.latentVars := by
          simp [latentsOf, hm, Dict.get?_of_mem (h.names p m hm).mechs hj]
        obtain ⟨k, lv, a1, a2⟩ := (mem_dictReqs (h.vars _ _ _ e2)).1 h2
        exact ⟨_, lv, back e2 a1, a2⟩
      · obtain ⟨k, lv, a1, a2⟩ := (mem_dictReqs (h.vars _ _ _ e3)).1 h2
        exact ⟨_, lv, back e3 a1, a2⟩
      · obtain ⟨k, lv, a1, a2⟩ := (mem_dictReqs (h.vars _ _ _ e4)).1 h2
        exact ⟨_, lv, back e4 a1, a2⟩
  · rintro ⟨⟨p, r, k⟩, lv, h1, h2⟩
    unfold latentAt at h1
    cases hd : latentsOf dm p r with
    | none => rw [hd] at h1; cases h1
    | some d =>
      rw [hd] at h1
      simp only at h1
      have hq := (mem_dictReqs (h.vars _ _ _ hd)).2 ⟨k, lv, h1, h2⟩
      cases hp : dm.prms.get? p with
      | none => simp [latentsOf, hp] at hd
      | some m =>
        refine ⟨(p, m), Dict.mem_of_get? hp, ?_⟩
        cases m with
        | circ m =>
          cases r <;> simp [latentsOf, hp] at hd
          subst hd
          exact hq
        | deg m =>
          simp only [newReqs, List.mem_append, List.mem_flatMap]
          cases r with
          | own =>
            simp [latentsOf, hp] at hd
            subst hd
            exact .inl (.inr hq)
          | cond =>
            simp [latentsOf, hp] at hd
            subst hd
            exact .inl (.inl (.inl hq))
          | mech j =>
            simp [latentsOf, hp] at hd
            obtain ⟨mm, hj, rfl⟩ := hd
            exact .inl (.inl (.inr ⟨(j, mm), Dict.mem_of_get? hj, hq⟩))
          | init =>
            simp [latentsOf, hp] at hd
            subst hd
            exact .inr hq

theorem dictReqs_label {p : String} {r : Role} {vs : Dict (LatentVar (Ext ℝ))} {a : LatLabel}
    (h : a ∈ (dictReqs L C D p r vs).map (·.label)) : a.1.prm = p ∧ a.1.role = r := by
  obtain ⟨q, hq, rfl⟩ := List.mem_map.1 h
  obtain ⟨kv, -, h2⟩ := List.mem_flatMap.1 hq
  simp only [latReqs, List.mem_cons, List.not_mem_nil, or_false] at h2
  rcases h2 with rfl | rfl | rfl <;> exact ⟨rfl, rfl⟩

theorem dictReqs_nodup {p : String} {r : Role} {vs : Dict (LatentVar (Ext ℝ))} (hnd : vs.Nodup) :
    ((dictReqs L C D p r vs).map (·.label)).Nodup := by
  unfold dictReqs
  rw [List.map_flatMap, List.nodup_flatMap]
  refine ⟨fun kv _ => by simp [latReqs], ?_⟩
  have hp : vs.Pairwise fun a b => a.1 ≠ b.1 := List.pairwise_map.1 hnd
  refine hp.imp fun {a b} hab => ?_
  simp [Function.onFun, latReqs, List.disjoint_left, hab]

theorem newReqs_label {p : String} {m : PrmMdl (Tapes N) (Ext ℝ)} {a : LatLabel}
    (h : a ∈ (newReqs L C D p m).map (·.label)) : a.1.prm = p := by
  cases m with
  | circ m => exact (dictReqs_label h).1
  | deg m =>
    simp only [newReqs, List.map_append, List.mem_append, List.map_flatMap, List.mem_flatMap] at h
    rcases h with ((h | ⟨_, _, h⟩) | h) | h <;> exact (dictReqs_label h).1

theorem devReqs_nodup (h : NewSetup N dm counts D v g) : ((devReqs L C D dm).map (·.label)).Nodup := by
  unfold devReqs
  rw [List.map_flatMap, List.nodup_flatMap]
  constructor
  · rintro ⟨p, m⟩ hm
    replace hm := Dict.get?_of_mem h.prms hm
    cases m with
    | circ m =>
      have e : latentsOf dm p .own = some m.latentVars := by simp [latentsOf, hm]
      exact dictReqs_nodup (h.vars _ _ _ e)
    | deg m =>
      have e1 : latentsOf dm p .cond = some m.condMdl.latentVars := by simp [latentsOf, hm]
      have e3 : latentsOf dm p .own = some m.mdl.latentVars := by simp [latentsOf, hm]
      have e4 : latentsOf dm p .init = some m.initMdl.latentVars := by simp [latentsOf, hm]
      have hn := (h.names p m hm).mechs
      simp only [newReqs, List.map_append]
      have mechRole : ∀ {a : LatLabel}, a ∈ (m.mechs.flatMap fun kv =>
          dictReqs L C D p (.mech kv.1) kv.2.mdl.latentVars).map (·.label) → ∃ j, a.1.role = .mech j := by
        intro a ha
        rw [List.map_flatMap] at ha
        obtain ⟨kv, -, ha⟩ := List.mem_flatMap.1 ha
        exact ⟨_, (dictReqs_label ha).2⟩
      refine List.nodup_append.2 ⟨List.nodup_append.2 ⟨List.nodup_append.2 ⟨dictReqs_nodup (h.vars _ _ _ e1), ?_, ?_⟩,
        dictReqs_nodup (h.vars _ _ _ e3), ?_⟩, dictReqs_nodup (h.vars _ _ _ e4), ?_⟩
      · rw [List.map_flatMap, List.nodup_flatMap]
        constructor
        · rintro ⟨j, mm⟩ hj
          have e2 : latentsOf dm p (.mech j) = some mm.mdl.latentVars := by
            simp [latentsOf, hm, Dict.get?_of_mem hn hj]
          exact dictReqs_nodup (h.vars _ _ _ e2)
        · have hp : m.mechs.Pairwise fun a b => a.1 ≠ b.1 := List.pairwise_map.1 hn
          refine hp.imp fun {a b} hab => ?_
          rw [Function.onFun, List.disjoint_left]
          intro c hc hc'
          have := (dictReqs_label hc).2.symm.trans (dictReqs_label hc').2
          exact hab (Role.mech.inj this)
      · rintro a ha b hb rfl
        obtain ⟨j, hj⟩ := mechRole hb
        have := (dictReqs_label ha).2.symm.trans hj
        cases this
      · rintro a ha b hb rfl
        have hb := (dictReqs_label hb).2
        rcases List.mem_append.1 ha with ha | ha
        · have := (dictReqs_label ha).2.symm.trans hb
          cases this
        · obtain ⟨j, hj⟩ := mechRole ha
          have := hj.symm.trans hb
          cases this
      · rintro a ha b hb rfl
        have hb := (dictReqs_label hb).2
        rcases List.mem_append.1 ha with ha | ha
        · rcases List.mem_append.1 ha with ha | ha
          · have := (dictReqs_label ha).2.symm.trans hb
            cases this
          · obtain ⟨j, hj⟩ := mechRole ha
            have := hj.symm.trans hb
            cases this
        · have := (dictReqs_label ha).2.symm.trans hb
          cases this
  · have hp : dm.prms.Pairwise fun a b => a.1 ≠ b.1 := List.pairwise_map.1 h.prms
    refine hp.imp fun {a b} hab => ?_
    rw [Function.onFun, List.disjoint_left]
    intro c hc hc'
    exact hab ((newReqs_label hc).symm.trans (newReqs_label hc'))

/-- Where the contributions are among the numbers. -/
def latPlace (D : String → Nat) (s : Slot) : Spot L C → LatLabel × Nat
  | .lot l => ((s, 0), l)
  | .chp l c => ((s, 1), l * C + c)
  | .dev l c d => ((s, 2), (l * C + c) * D s.prm + d)

theorem contribution_eq (x : LatLabel → Nat → ℝ) (s : Slot) (t : Spot L C) :
    contribution D x s t = x (latPlace D s t).1 (latPlace D s t).2 := by
  cases t <;> rfl

theorem latPlace_inj {s s' : Slot} {t t' : Spot L C} (h : t.Within (D s.prm)) (h' : t'.Within (D s'.prm))
    (e : latPlace D s t = latPlace D s' t') : (s, t) = (s', t') := by
  cases t <;> cases t' <;> simp [latPlace] at e
  · obtain ⟨rfl, e⟩ := e
    rw [Fin.ext e]
  · rename_i l c l' c'
    obtain ⟨rfl, e⟩ := e
    obtain ⟨e1, e2⟩ := pair_inj c.2 c'.2 e
    rw [Fin.ext e1, Fin.ext e2]
  · rename_i l c d l' c' d'
    obtain ⟨rfl, e⟩ := e
    obtain ⟨e1, e2⟩ := pair_inj h h' e
    obtain ⟨e3, e4⟩ := pair_inj c.2 c'.2 e1
    rw [Fin.ext e3, Fin.ext e4, e2]

theorem latPlace_mem (h : NewSetup N dm counts D v g) {s : Slot} {lv : LatentVar (Ext ℝ)} (hs : latentAt dm s = some lv)
    (t : Spot L C) : ∃ r ∈ devReqs L C D dm, r.label = (latPlace D s t).1 ∧
      (t.Within (D s.prm) → (latPlace D s t).2 < r.size) ∧
      N.value r.var.dist = some (t.layer (v.lot s) (v.chp s) (v.dev s)) := by
  have ly := h.layers s lv hs
  cases t with
  | lot l => exact ⟨_, (mem_devReqs h).2 ⟨s, lv, hs, List.mem_cons_self⟩, rfl, fun _ => l.2, ly.lot⟩
  | chp l c =>
    refine ⟨_, (mem_devReqs h).2 ⟨s, lv, hs, List.mem_cons_of_mem _ List.mem_cons_self⟩, rfl, fun _ => ?_, ly.chp⟩
    have := Arr3.index_lt (D := 1) l.2 c.2 Nat.zero_lt_one
    simp only [latPlace]
    omega
  | dev l c d =>
    exact ⟨_, (mem_devReqs h).2 ⟨s, lv, hs, List.mem_cons_of_mem _ (List.mem_cons_of_mem _ List.mem_cons_self)⟩, rfl,
      fun hd => Arr3.index_lt l.2 c.2 hd, ly.dev⟩

variable {Ω : Type} [MeasurableSpace Ω] {P : Measure Ω} {P₀ : Measure ℝ} {raw : Nat → Nat → Ω → ℝ}

/-- **C94**: with ideal generators, new devices are made of independent contributions: for each latent variable of
each parameter - of its equation, its conditional shift, its mechanisms, its initial value - one of every lot, every
chip and every device, each with the distribution of its layer. -/
theorem C94_variation (hN : N.Correct P₀) (hr : Standard P P₀ raw) (h : NewSetup N dm counts D v g) (L C : Nat)
    (next : Nat → Nat) :
    ∃ X : Slot → Spot L C → Ω → ℝ,
      iIndepFun (fun k : {k : Slot × Spot L C // (latentAt dm k.1).isSome ∧ k.2.Within (D k.1.prm)} =>
        X k.1.1 k.1.2) P ∧
      (∀ s t, Measurable (X s t)) ∧
      (∀ s, (latentAt dm s).isSome → ∀ t, P.map (X s t) = P₀.map (t.layer (v.lot s) (v.chp s) (v.dev s))) ∧
      ∀ ω, ∃ st w', dm.genInitState counts C L (⟨fun i j => raw i j ω, next⟩ : Tapes N) = (.ok st, w') ∧
        NewStateIs dm D v g (fun s t => X s t ω) st := by
  have hv : ∀ r ∈ devReqs L C D dm, ∃ f, N.value r.var.dist = some f := by
    intro r hr
    obtain ⟨s, lv, hs, hr⟩ := (mem_devReqs h).1 hr
    have ly := h.layers s lv hs
    simp only [latReqs, List.mem_cons, List.not_mem_nil, or_false] at hr
    rcases hr with rfl | rfl | rfl
    · exact ⟨_, ly.lot⟩
    · exact ⟨_, ly.chp⟩
    · exact ⟨_, ly.dev⟩
  obtain ⟨Z, z1, z2, z3, z4⟩ := requests_independent hN hr (devReqs_nodup (L := L) (C := C) h) hv next
  refine ⟨fun s t => Z (latPlace D s t).1 (latPlace D s t).2, ?_, fun s t => z2 _ _, ?_, fun ω => ?_⟩
  · let f : {k : Slot × Spot L C // (latentAt dm k.1).isSome ∧ k.2.Within (D k.1.prm)} →
        {p : LatLabel × Nat // ∃ r ∈ devReqs L C D dm, r.label = p.1 ∧ p.2 < r.size} := fun k =>
      ⟨latPlace D k.1.1 k.1.2, by
        obtain ⟨lv, hlv⟩ := Option.isSome_iff_exists.1 k.2.1
        obtain ⟨r, r1, r2, r3, -⟩ := latPlace_mem (L := L) (C := C) h hlv k.1.2
        exact ⟨r, r1, r2, r3 k.2.2⟩⟩
    have hf : Function.Injective f := by
      intro k k' e
      exact Subtype.ext (latPlace_inj k.2.2 k'.2.2 (congrArg Subtype.val e))
    exact z1.precomp hf
  · intro s hs t
    obtain ⟨lv, hlv⟩ := Option.isSome_iff_exists.1 hs
    obtain ⟨r, r1, r2, -, r4⟩ := latPlace_mem (L := L) (C := C) h hlv t
    have := z3 r r1 _ r4 (latPlace D s t).2
    rwa [r2] at this
  · obtain ⟨st, e1, e2⟩ := usesState (L := L) (C := C) h _ next (z4 ω)
    refine ⟨st, _, e1, ?_⟩
    have e : (fun s t => Z (latPlace D s t).1 (latPlace D s t).2 ω) =
        contribution (L := L) (C := C) D (fun a i => Z a i ω) := by
      funext s t
      rw [contribution_eq]
    rw [e]
    exact e2

/-- Functions of different contributions are independent. -/
theorem apart {U : Slot × Spot L C → Prop} {X : Slot → Spot L C → Ω → ℝ}
    (h1 : iIndepFun (fun k : {k // U k} => X k.1.1 k.1.2) P) (h2 : ∀ s t, Measurable (X s t))
    {S S' : Finset {k // U k}} (hS : Disjoint S S') {F F' : (Slot → Spot L C → ℝ) → ℝ} (hF : Measurable F)
    (hF' : Measurable F') (dF : ∀ x x', (∀ u ∈ S, x u.1.1 u.1.2 = x' u.1.1 u.1.2) → F x = F x')
    (dF' : ∀ x x', (∀ u ∈ S', x u.1.1 u.1.2 = x' u.1.1 u.1.2) → F' x = F' x') :
    IndepFun (fun ω => F fun s t => X s t ω) (fun ω => F' fun s t => X s t ω) P := by
  classical
  let ext (T : Finset {k // U k}) (y : T → ℝ) (s : Slot) (t : Spot L C) : ℝ :=
    if h : ∃ hu : U (s, t), (⟨(s, t), hu⟩ : {k // U k}) ∈ T then y ⟨⟨(s, t), h.1⟩, h.2⟩ else 0
  have hext : ∀ T, Measurable (ext T) := by
    intro T
    refine measurable_pi_lambda _ fun s => measurable_pi_lambda _ fun t => ?_
    simp only [ext]
    split_ifs with h
    · exact measurable_pi_apply _
    · exact measurable_const
  have key : ∀ (T : Finset {k // U k}) (G : (Slot → Spot L C → ℝ) → ℝ),
      (∀ x x', (∀ u ∈ T, x u.1.1 u.1.2 = x' u.1.1 u.1.2) → G x = G x') →
      (fun ω => G fun s t => X s t ω) = (fun y : T → ℝ => G (ext T y)) ∘ fun ω (i : T) => X i.1.1.1 i.1.1.2 ω := by
    intro T G hG
    funext ω
    refine hG _ _ fun u hu => ?_
    have : ∃ hu' : U (u.1.1, u.1.2), (⟨(u.1.1, u.1.2), hu'⟩ : {k // U k}) ∈ T := ⟨u.2, hu⟩
    simp only [ext]
    rw [dif_pos this]
  rw [key S F dF, key S' F' dF']
  exact (h1.indepFun_finset S S' hS (fun z => h2 z.1.1 z.1.2)).comp (hF.comp (hext S)) (hF'.comp (hext S'))

theorem value_measurable_x (v : Variation) (s : Slot) (l : Fin L) (c : Fin C) (d : Nat) :
    Measurable fun x : Slot → Spot L C → ℝ => v.value x s l c d := by
  unfold Variation.value
  have m : ∀ t, Measurable fun x : Slot → Spot L C → ℝ => x s t := fun t =>
    (measurable_pi_apply t).comp (measurable_pi_apply s)
  have := m (.dev l c d)
  have := m (.chp l c)
  have := m (.lot l)
  cases v.type s <;> simp only <;> fun_prop

/-- The equation for initial values depends on its arguments only. -/
theorem init_args {m : LatentMdl (Tapes N) (Ext ℝ)} {f : (String → ℝ) → ℝ} (h : InitEquation m f) {y y' : String → ℝ}
    (e : ∀ k ∈ m.latentVars.keys, y k = y' k) : f y = f y' := by
  let args : Dict (Arr3 (Ext ℝ)) := m.latentVars.map fun kv => (kv.1, Arr3.full 1 1 1 (Ext.fin (y kv.1)))
  have hk : args.keys = m.latentVars.keys := by simp [args, Dict.keys, Function.comp_def]
  have hget : ∀ k a, args.get? k = some a → k ∈ m.latentVars.keys ∧ a = Arr3.full 1 1 1 (Ext.fin (y k)) := by
    intro k a hka
    obtain ⟨kv, h1, h2⟩ := List.mem_map.1 (Dict.mem_of_get? hka)
    cases h2
    exact ⟨List.mem_map_of_mem h1, rfl⟩
  have w : Tapes N := ⟨fun _ _ => 0, fun _ => 0⟩
  obtain ⟨a, a1, -, a3⟩ := h args 1 1 1 (fun k _ _ _ => y k) hk (fun k a hka => by
    obtain ⟨-, rfl⟩ := hget k a hka
    exact ⟨⟨rfl, rfl, rfl⟩, fun l hl c hc d hd => Arr3.at_full _ hl hc hd⟩) w
  obtain ⟨b, b1, -, b3⟩ := h args 1 1 1 (fun k _ _ _ => y' k) hk (fun k a hka => by
    obtain ⟨hm, rfl⟩ := hget k a hka
    refine ⟨⟨rfl, rfl, rfl⟩, fun l hl c hc d hd => ?_⟩
    rw [Arr3.at_full _ hl hc hd, e k hm]) w
  rw [a1] at b1
  cases b1
  exact Ext.fin.inj ((a3 0 Nat.zero_lt_one 0 Nat.zero_lt_one 0 Nat.zero_lt_one).symm.trans
    (b3 0 Nat.zero_lt_one 0 Nat.zero_lt_one 0 Nat.zero_lt_one))

theorem parts_exist (U : Slot × Spot L C → Prop) (ss : List Slot) (l : Fin L) (c : Fin C) (d : Nat) :
    ∃ S : Finset {k // U k}, ∀ u, u ∈ S ↔ u.1.1 ∈ ss ∧ (u.1.2 = .lot l ∨ u.1.2 = .chp l c ∨ u.1.2 = .dev l c d) := by
  have fin : {u : {k // U k} | u.1.1 ∈ ss ∧ (u.1.2 = .lot l ∨ u.1.2 = .chp l c ∨ u.1.2 = .dev l c d)}.Finite := by
    have h := (List.finite_toSet ss).prod (Set.toFinite {Spot.lot l, Spot.chp l c, Spot.dev l c d})
    refine Set.Finite.subset (h.preimage (f := Subtype.val) Subtype.val_injective.injOn) fun u hu => ?_
    exact ⟨hu.1, by simpa using hu.2⟩
  refine ⟨fin.toFinset, fun u => ?_⟩
  rw [Set.Finite.mem_toFinset]
  rfl

/-- Values of devices that share no lot or no latent variable are independent. -/
theorem apart_slots {X : Slot → Spot L C → Ω → ℝ}
    (h1 : iIndepFun (fun k : {k : Slot × Spot L C // (latentAt dm k.1).isSome ∧ k.2.Within (D k.1.prm)} =>
      X k.1.1 k.1.2) P) (h2 : ∀ s t, Measurable (X s t)) {ss ss' : List Slot} {l l' : Fin L} {c c' : Fin C}
    {d d' : Nat} (hss : ∀ s ∈ ss, (latentAt dm s).isSome ∧ d < D s.prm)
    (hss' : ∀ s ∈ ss', (latentAt dm s).isSome ∧ d' < D s.prm) (hne : (∀ s ∈ ss, s ∉ ss') ∨ l ≠ l')
    {F F' : (Slot → ℝ) → ℝ} (hF : Measurable F) (hF' : Measurable F')
    (dF : ∀ x x', (∀ s ∈ ss, x s = x' s) → F x = F x') (dF' : ∀ x x', (∀ s ∈ ss', x s = x' s) → F' x = F' x') :
    IndepFun (fun ω => F fun s => v.value (fun s t => X s t ω) s l c d)
      (fun ω => F' fun s => v.value (fun s t => X s t ω) s l' c' d') P := by
  obtain ⟨S, hS⟩ := parts_exist (fun k => (latentAt dm k.1).isSome ∧ k.2.Within (D k.1.prm)) ss l c d
  obtain ⟨S', hS'⟩ := parts_exist (fun k => (latentAt dm k.1).isSome ∧ k.2.Within (D k.1.prm)) ss' l' c' d'
  have dis : Disjoint S S' := by
    rw [Finset.disjoint_left]
    intro u hu hu'
    obtain ⟨a1, a2⟩ := (hS u).1 hu
    obtain ⟨b1, b2⟩ := (hS' u).1 hu'
    rcases hne with h | h
    · exact h _ a1 b1
    · rcases a2 with a2 | a2 | a2 <;> rcases b2 with b2 | b2 | b2 <;> rw [a2] at b2 <;> simp [h] at b2
  have same : ∀ {ss : List Slot} {l : Fin L} {c : Fin C} {d : Nat}
      {S : Finset {k : Slot × Spot L C // (latentAt dm k.1).isSome ∧ k.2.Within (D k.1.prm)}},
      (∀ u, u ∈ S ↔ u.1.1 ∈ ss ∧ (u.1.2 = .lot l ∨ u.1.2 = .chp l c ∨ u.1.2 = .dev l c d)) →
      (∀ s ∈ ss, (latentAt dm s).isSome ∧ d < D s.prm) → ∀ x x' : Slot → Spot L C → ℝ,
      (∀ u ∈ S, x u.1.1 u.1.2 = x' u.1.1 u.1.2) → ∀ s ∈ ss, v.value x s l c d = v.value x' s l c d := by
    intro ss l c d S hS hss x x' hx s hs
    obtain ⟨a1, a2⟩ := hss s hs
    have e1 : x s (.lot l) = x' s (.lot l) := hx ⟨(s, .lot l), a1, trivial⟩ ((hS _).2 ⟨hs, .inl rfl⟩)
    have e2 : x s (.chp l c) = x' s (.chp l c) := hx ⟨(s, .chp l c), a1, trivial⟩ ((hS _).2 ⟨hs, .inr (.inl rfl)⟩)
    have e3 : x s (.dev l c d) = x' s (.dev l c d) := hx ⟨(s, .dev l c d), a1, a2⟩ ((hS _).2 ⟨hs, .inr (.inr rfl)⟩)
    unfold Variation.value
    rw [e1, e2, e3]
  refine apart h1 h2 dis (F := fun x => F fun s => v.value x s l c d) (F' := fun x => F' fun s => v.value x s l' c' d')
    (hF.comp (measurable_pi_lambda _ fun s => value_measurable_x v s l c d))
    (hF'.comp (measurable_pi_lambda _ fun s => value_measurable_x v s l' c' d')) ?_ ?_
  · exact fun x x' hx => dF _ _ fun s hs => same hS hss x x' hx s hs
  · exact fun x x' hx => dF' _ _ fun s hs => same hS' hss' x x' hx s hs

section
variable (hN : N.Correct P₀) (hr : Standard P P₀ raw) (h : NewSetup N dm counts D v g) {next : Nat → Nat}

omit [MeasurableSpace Ω] in
theorem latent_eq {X : Slot → Spot L C → Ω → ℝ}
    (h4 : ∀ ω, ∃ st w', dm.genInitState counts C L (⟨fun i j => raw i j ω, next⟩ : Tapes N) = (.ok st, w') ∧
      NewStateIs dm D v g (fun s t => X s t ω) st) {s : Slot} (hs : (latentAt dm s).isSome) (hi : s.role ≠ .init)
    {l : Fin L} {c : Fin C} {d : Nat} (hd : d < D s.prm) {Y : Ω → ℝ}
    (hY : RandomLatent raw next dm counts L C s l c d Y) : Y = fun ω => v.value (fun s t => X s t ω) s l c d := by
  funext ω
  obtain ⟨lv, hlv⟩ := Option.isSome_iff_exists.1 hs
  obtain ⟨st, w', e1, e2, -⟩ := h4 ω
  obtain ⟨st', w'', a', e3, e4, e5⟩ := hY ω
  rw [e1] at e3
  cases e3
  obtain ⟨a, a1, a2, a3⟩ := e2 s lv hlv hi
  rw [a1] at e4
  cases e4
  exact Ext.fin.inj (e5.symm.trans (a3 l c d hd))

omit [MeasurableSpace Ω] in
theorem initial_eq {X : Slot → Spot L C → Ω → ℝ}
    (h4 : ∀ ω, ∃ st w', dm.genInitState counts C L (⟨fun i j => raw i j ω, next⟩ : Tapes N) = (.ok st, w') ∧
      NewStateIs dm D v g (fun s t => X s t ω) st) {p : String} {m : DegPrmMdl (Tapes N) (Ext ℝ)}
    (hp : dm.prms.get? p = some (.deg m)) {l : Fin L} {c : Fin C} {d : Nat} (hd : d < D p) {Y : Ω → ℝ}
    (hY : RandomInitial raw next dm counts L C p l c d Y) :
    Y = fun ω => g p fun k => v.value (fun s t => X s t ω) ⟨p, .init, k⟩ l c d := by
  funext ω
  obtain ⟨st, w', e1, -, e2⟩ := h4 ω
  obtain ⟨st', w'', a', e3, e4, e5⟩ := hY ω
  rw [e1] at e3
  cases e3
  obtain ⟨a, a1, -, a2, a3⟩ := e2 p m hp
  rw [a1] at e4
  cases e4
  exact Ext.fin.inj (e5.symm.trans (a3 l c d hd))

/-- The latent variables of the initial value. -/
theorem init_slots {p : String} {m : DegPrmMdl (Tapes N) (Ext ℝ)} (hp : dm.prms.get? p = some (.deg m)) {d : Nat}
    (hd : d < D p) : ∀ s ∈ m.initMdl.latentVars.keys.map (fun k => Slot.mk p .init k),
      (latentAt dm s).isSome ∧ d < D s.prm := by
  intro s hs
  obtain ⟨k, hk, rfl⟩ := List.mem_map.1 hs
  refine ⟨?_, hd⟩
  have e4 : latentsOf dm p .init = some m.initMdl.latentVars := by simp [latentsOf, hp]
  simp only [latentAt, e4]
  cases hh : m.initMdl.latentVars.get? k with
  | none => exact absurd hk ((Dict.get?_eq_none_iff _ k).1 hh)
  | some b => rfl

private theorem init_measurable {p : String} (hg : Measurable (g p)) :
    Measurable fun x : Slot → ℝ => g p fun k => x ⟨p, .init, k⟩ :=
  hg.comp (measurable_pi_lambda _ fun _ => measurable_pi_apply _)

include hN hr h

/-- The initial values of different parameters vary independently, and those of devices from different lots. -/
theorem C94_initial {p p' : String} {m m' : DegPrmMdl (Tapes N) (Ext ℝ)} (hp : dm.prms.get? p = some (.deg m))
    (hp' : dm.prms.get? p' = some (.deg m')) (hg : Measurable (g p)) (hg' : Measurable (g p')) {l l' : Fin L}
    {c c' : Fin C} {d d' : Nat} (hd : d < D p) (hd' : d' < D p') (hne : p ≠ p' ∨ l ≠ l') {Y Y' : Ω → ℝ}
    (hY : RandomInitial raw next dm counts L C p l c d Y) (hY' : RandomInitial raw next dm counts L C p' l' c' d' Y') :
    IndepFun Y Y' P := by
  obtain ⟨X, h1, h2, -, h4⟩ := C94_variation hN hr h L C next
  rw [initial_eq h4 hp hd hY, initial_eq h4 hp' hd' hY']
  refine apart_slots (F := fun x => g p fun k => x ⟨p, .init, k⟩) (F' := fun x => g p' fun k => x ⟨p', .init, k⟩) h1 h2
    (init_slots hp hd) (init_slots hp' hd') ?_ (init_measurable hg) (init_measurable hg') ?_ ?_
  · rcases hne with e | e
    · left
      intro s hs hs'
      obtain ⟨k, _, rfl⟩ := List.mem_map.1 hs
      obtain ⟨k', _, e'⟩ := List.mem_map.1 hs'
      exact e (congrArg Slot.prm e').symm
    · exact .inr e
  · exact fun x x' hx => init_args (h.equations p m hp) fun k hk => hx _ (List.mem_map_of_mem hk)
  · exact fun x x' hx => init_args (h.equations p' m' hp') fun k hk => hx _ (List.mem_map_of_mem hk)

/-- The latent values of mechanisms, equations and conditional shifts vary independently of all initial values. -/
theorem C94_mechanisms {p : String} {m : DegPrmMdl (Tapes N) (Ext ℝ)} (hp : dm.prms.get? p = some (.deg m))
    (hg : Measurable (g p)) {s : Slot} (hs : (latentAt dm s).isSome) (hi : s.role ≠ .init) {l l' : Fin L}
    {c c' : Fin C} {d d' : Nat} (hd : d < D p) (hd' : d' < D s.prm) {Y Y' : Ω → ℝ}
    (hY : RandomInitial raw next dm counts L C p l c d Y) (hY' : RandomLatent raw next dm counts L C s l' c' d' Y') :
    IndepFun Y Y' P := by
  obtain ⟨X, h1, h2, -, h4⟩ := C94_variation hN hr h L C next
  rw [initial_eq h4 hp hd hY, latent_eq h4 hs hi hd' hY']
  refine apart_slots (F := fun x => g p fun k => x ⟨p, .init, k⟩) (F' := fun x => x s) (ss' := [s]) h1 h2
    (init_slots hp hd) ?_ (.inl ?_) (init_measurable hg) (measurable_pi_apply s) ?_ ?_
  · intro s' hs'
    rw [List.mem_singleton.1 hs']
    exact ⟨hs, hd'⟩
  · intro s' h1 h2
    obtain ⟨k, _, rfl⟩ := List.mem_map.1 h1
    rw [List.mem_singleton] at h2
    exact hi (congrArg Slot.role h2).symm
  · exact fun x x' hx => init_args (h.equations p m hp) fun k hk => hx _ (List.mem_map_of_mem hk)
  · exact fun x x' hx => hx s List.mem_cons_self

/-- Different latent variables vary independently - also those with the same name in different parameters or
mechanisms, or with the same generators - and so do devices from different lots. -/
theorem C94_latents {s s' : Slot} (hs : (latentAt dm s).isSome) (hs' : (latentAt dm s').isSome) (hi : s.role ≠ .init)
    (hi' : s'.role ≠ .init) {l l' : Fin L} {c c' : Fin C} {d d' : Nat} (hd : d < D s.prm) (hd' : d' < D s'.prm)
    (hne : s ≠ s' ∨ l ≠ l') {Y Y' : Ω → ℝ} (hY : RandomLatent raw next dm counts L C s l c d Y)
    (hY' : RandomLatent raw next dm counts L C s' l' c' d' Y') : IndepFun Y Y' P := by
  obtain ⟨X, h1, h2, -, h4⟩ := C94_variation hN hr h L C next
  rw [latent_eq h4 hs hi hd hY, latent_eq h4 hs' hi' hd' hY']
  refine apart_slots (F := fun x => x s) (F' := fun x => x s') (ss := [s]) (ss' := [s']) h1 h2 ?_ ?_ ?_
    (measurable_pi_apply s) (measurable_pi_apply s') ?_ ?_
  · intro t ht
    rw [List.mem_singleton.1 ht]
    exact ⟨hs, hd⟩
  · intro t ht
    rw [List.mem_singleton.1 ht]
    exact ⟨hs', hd'⟩
  · rcases hne with e | e
    · left
      intro t h1 h2
      exact e ((List.mem_singleton.1 h1).symm.trans (List.mem_singleton.1 h2))
    · exact .inr e
  · exact fun x x' hx => hx s List.mem_cons_self
  · exact fun x x' hx => hx s' List.mem_cons_self

/-- There always are such values. -/
theorem C94_values (hg : ∀ p m, dm.prms.get? p = some (.deg m) → Measurable (g p)) :
    (∀ p m, dm.prms.get? p = some (.deg m) → ∀ (l : Fin L) (c : Fin C), ∀ d < D p,
      ∃ Y, Measurable Y ∧ RandomInitial raw next dm counts L C p l c d Y) ∧
    ∀ s, (latentAt dm s).isSome → s.role ≠ .init → ∀ (l : Fin L) (c : Fin C), ∀ d < D s.prm,
      ∃ Y, Measurable Y ∧ RandomLatent raw next dm counts L C s l c d Y := by
  obtain ⟨X, -, h2, -, h4⟩ := C94_variation hN hr h L C next
  have hX : Measurable fun ω s t => X s t ω := measurable_pi_lambda _ fun s => measurable_pi_lambda _ fun t => h2 s t
  constructor
  · intro p m hp l c d hd
    refine ⟨fun ω => g p fun k => v.value (fun s t => X s t ω) ⟨p, .init, k⟩ l c d, ?_, fun ω => ?_⟩
    · exact (hg p m hp).comp (measurable_pi_lambda _ fun k => (value_measurable_x v _ l c d).comp hX)
    · obtain ⟨st, w', e1, -, e2⟩ := h4 ω
      obtain ⟨a, a1, -, a2, a3⟩ := e2 p m hp
      exact ⟨st, w', a, e1, a1, a3 l c d hd⟩
  · intro s hs hi l c d hd
    refine ⟨fun ω => v.value (fun s t => X s t ω) s l c d, (value_measurable_x v _ l c d).comp hX, fun ω => ?_⟩
    obtain ⟨lv, hlv⟩ := Option.isSome_iff_exists.1 hs
    obtain ⟨st, w', e1, e2, -⟩ := h4 ω
    obtain ⟨a, a1, a2, a3⟩ := e2 s lv hlv hi
    exact ⟨st, w', a, e1, a1, a3 l c d hd⟩

/-- The contributions of three normal layers give a normal value. -/
private theorem slot_normal {s : Slot} {lv : LatentVar (Ext ℝ)} (hs : latentAt dm s = some lv)
    (ht : lv.vrtnType = some .offset) {ml mc md : ℝ} {sl sc sd : NNReal} (nl : NormalLayer lv.lot ml sl)
    (nc : NormalLayer lv.chp mc sc) (nd : NormalLayer lv.dev md sd) {l : Fin L} {c : Fin C} {d : Nat} (hd : d < D s.prm)
    {X : Slot → Spot L C → Ω → ℝ}
    (h1 : iIndepFun (fun k : {k : Slot × Spot L C // (latentAt dm k.1).isSome ∧ k.2.Within (D k.1.prm)} =>
      X k.1.1 k.1.2) P) (h2 : ∀ s t, Measurable (X s t))
    (h3 : ∀ s, (latentAt dm s).isSome → ∀ t, P.map (X s t) = P₀.map (t.layer (v.lot s) (v.chp s) (v.dev s))) :
    P.map (fun ω => v.value (fun s t => X s t ω) s l c d) =
      gaussianReal ((v.base s).getD 0 + ml + mc + md) (sl ^ 2 + sc ^ 2 + sd ^ 2) := by
  have hP₀ : IsProbabilityMeasure P₀ := by
    rw [← hr.law 0 0]
    have := hr.indep.isProbabilityMeasure
    exact Measure.isProbabilityMeasure_map (hr.meas 0 0).aemeasurable
  have layer : ∀ {r : RVar (Ext ℝ)} {m : ℝ} {s : NNReal} {f : ℝ → ℝ}, NormalLayer r m s → N.value r.dist = some f →
      P₀.map f = gaussianReal m (s ^ 2) := by
    intro r m s f h hf
    rcases h with h | ⟨h, rfl⟩ <;> rw [h] at hf <;> cases hf
    · exact hN.gaussian m s
    · rw [zero_pow two_ne_zero, gaussianReal_zero_var, Measure.map_const, measure_univ, one_smul]
  have ly := h.layers s lv hs
  have hso : (latentAt dm s).isSome := by rw [hs]; rfl
  have ll := (h3 s hso (.lot l)).trans (layer nl ly.lot)
  have lc := (h3 s hso (.chp l c)).trans (layer nc ly.chp)
  have ld := (h3 s hso (.dev l c d)).trans (layer nd ly.dev)
  have hty : v.type s = .offset := Option.some.inj (ly.type.symm.trans ht)
  have a1 := gaussianReal_add_gaussianReal_of_indepFun
    (h1.indepFun (i := ⟨(s, .dev l c d), hso, hd⟩) (j := ⟨(s, .chp l c), hso, trivial⟩) (by simp)) ld lc
  have i2 : IndepFun (X s (.dev l c d) + X s (.chp l c)) (X s (.lot l)) P :=
    h1.indepFun_add_left (fun z => h2 z.1.1 z.1.2) ⟨(s, .dev l c d), hso, hd⟩ ⟨(s, .chp l c), hso, trivial⟩
      ⟨(s, .lot l), hso, trivial⟩ (by simp) (by simp)
  have a2 := gaussianReal_add_gaussianReal_of_indepFun i2 a1 ll
  have e : (fun ω => v.value (fun s t => X s t ω) s l c d) =
      (fun x => (v.base s).getD 0 + x) ∘ (X s (.dev l c d) + X s (.chp l c) + X s (.lot l)) := by
    funext ω
    simp only [Variation.value, hty, Function.comp_apply, Pi.add_apply]
    ring
  rw [e, ← Measure.map_map (by fun_prop) (((h2 _ _).add (h2 _ _)).add (h2 _ _)), a2, gaussianReal_map_const_add]
  congr 1
  · ring
  · ring

/-- Additive normal variation of a latent variable: every device has a normally distributed value. -/
theorem C94_normal {s : Slot} {lv : LatentVar (Ext ℝ)} (hs : latentAt dm s = some lv) (hi : s.role ≠ .init)
    (ht : lv.vrtnType = some .offset) {ml mc md : ℝ} {sl sc sd : NNReal} (nl : NormalLayer lv.lot ml sl)
    (nc : NormalLayer lv.chp mc sc) (nd : NormalLayer lv.dev md sd) {l : Fin L} {c : Fin C} {d : Nat} (hd : d < D s.prm)
    {Y : Ω → ℝ} (hY : RandomLatent raw next dm counts L C s l c d Y) :
    P.map Y = gaussianReal ((v.base s).getD 0 + ml + mc + md) (sl ^ 2 + sc ^ 2 + sd ^ 2) := by
  obtain ⟨X, h1, h2, h3, h4⟩ := C94_variation hN hr h L C next
  rw [latent_eq h4 (by rw [hs]; rfl) hi hd hY]
  exact slot_normal hN hr h hs ht nl nc nd hd h1 h2 h3

/-- The same for the initial value, if the equation only passes on a latent variable as the default one does. -/
theorem C94_initialNormal {p k : String} {m : DegPrmMdl (Tapes N) (Ext ℝ)} (hp : dm.prms.get? p = some (.deg m))
    (hg : g p = fun y => y k) {lv : LatentVar (Ext ℝ)} (hs : m.initMdl.latentVars.get? k = some lv)
    (ht : lv.vrtnType = some .offset) {ml mc md : ℝ} {sl sc sd : NNReal} (nl : NormalLayer lv.lot ml sl)
    (nc : NormalLayer lv.chp mc sc) (nd : NormalLayer lv.dev md sd) {l : Fin L} {c : Fin C} {d : Nat} (hd : d < D p)
    {Y : Ω → ℝ} (hY : RandomInitial raw next dm counts L C p l c d Y) :
    P.map Y = gaussianReal ((v.base ⟨p, .init, k⟩).getD 0 + ml + mc + md) (sl ^ 2 + sc ^ 2 + sd ^ 2) := by
  obtain ⟨X, h1, h2, h3, h4⟩ := C94_variation hN hr h L C next
  rw [initial_eq h4 hp hd hY, hg]
  have e4 : latentsOf dm p .init = some m.initMdl.latentVars := by simp [latentsOf, hp]
  exact slot_normal (s := ⟨p, .init, k⟩) hN hr h (by simp only [latentAt, e4, hs]) ht nl nc nd hd h1 h2 h3

end

/-- The default equation passes on its argument. -/
theorem default_initial {name : Option String} {lats : Dict (LatentVar (Ext ℝ))} (hk : "init_val" ∈ lats.keys)
    (ho : ∀ k ∈ lats.keys, k = "init_val") :
    InitEquation (initValMk none name lats : LatentMdl (Tapes N) (Ext ℝ)) fun y => y "init_val" := by
  intro args L C D x hkeys hargs w
  have hn : ∀ k, k ∈ args.keys ↔ k ∈ lats.keys := by
    intro k
    rw [hkeys]
    simp [initValMk, nameLatents, Dict.keys]
  obtain ⟨a, ha⟩ : ∃ a, args.get? "init_val" = some a := by
    cases hh : args.get? "init_val" with
    | none => exact absurd ((hn _).2 hk) ((Dict.get?_eq_none_iff _ _).1 hh)
    | some b => exact ⟨b, rfl⟩
  have hm : Dict.get? (args.map fun kv => (kv.1, PyVal.arr kv.2)) "init_val" = some (.arr a) :=
    (Dict.get?_map (fun _ (x : Arr3 (Ext ℝ)) => PyVal.arr x) args "init_val").trans (by rw [ha]; rfl)
  refine ⟨a, ?_, hargs _ _ ha⟩
  have hacc : (argEqn "init_val" : PyFun (Tapes N) (Ext ℝ)).accepts (args.map fun kv => (kv.1, .arr kv.2)) = true := by
    unfold PyFun.accepts
    rw [Bool.and_eq_true, Bool.or_eq_true]
    refine ⟨?_, .inr ?_⟩
    · simp [argEqn, Dict.has, hm]
    · rw [List.all_eq_true]
      intro kv hkv
      obtain ⟨kv', h1, rfl⟩ := List.mem_map.1 hkv
      have := ho _ ((hn _).1 (List.mem_map_of_mem h1))
      simp [argEqn, this]
  show (argEqn "init_val" : PyFun (Tapes N) (Ext ℝ)).invoke _ w = _
  unfold PyFun.invoke
  rw [if_pos hacc]
  show M.ofExcept (Dict.getE _ "init_val") w = _
  rw [Dict.getE_eq_ok.2 hm]
  rfl

end

/-! ## An example -/

/-- A parameter with initial value and a mechanism that varies like `lotLatent`, all from the same generator. -/
noncomputable def twinPrm (mechs : Dict (MechMdl (Tapes linearNumpy) (Ext ℝ))) : DegPrmMdl (Tapes linearNumpy) (Ext ℝ) where
  initMdl := initValMk none none [("init_val", lotLatent)]
  condMdl := (condShiftMk none none (.fin 0) []).1
  condUnitary := .fin 0
  mechs := mechs
  mdl := { compute := basicSum }

/-- A mechanism with a rate. -/
noncomputable def twinMech : MechMdl (Tapes linearNumpy) (Ext ℝ) :=
  .mk' .deg 0 (some (argEqn "rate")) none (.fin 0) (some "h") [("rate", lotLatent)]

/-- Two parameters, one of them degrading. -/
noncomputable def twinDev : DeviceMdl (Tapes linearNumpy) (Ext ℝ) where
  prms := [("vth", .deg (twinPrm [("drift", twinMech)])), ("ids", .deg (twinPrm []))]

/-- How they vary. -/
noncomputable def twinVariation : Variation where
  type := fun _ => .offset
  base := fun _ => some 7
  lot := fun _ z => 0 + 2 * z
  chp := fun _ _ => 0
  dev := fun _ z => 0 + 1 * z

theorem twin_prm {p : String} {m : DegPrmMdl (Tapes linearNumpy) (Ext ℝ)} (h : twinDev.prms.get? p = some (.deg m)) :
    ∃ mechs, m = twinPrm mechs ∧ ((p = "vth" ∧ mechs = [("drift", twinMech)]) ∨ (p = "ids" ∧ mechs = [])) := by
  have := Dict.mem_of_get? h
  simp only [twinDev, List.mem_cons, List.not_mem_nil, or_false, Prod.mk.injEq, PrmMdl.deg.injEq] at this
  rcases this with ⟨rfl, rfl⟩ | ⟨rfl, rfl⟩
  · exact ⟨_, rfl, .inl ⟨rfl, rfl⟩⟩
  · exact ⟨_, rfl, .inr ⟨rfl, rfl⟩⟩

theorem twin_latents {p : String} {r : Role} {d : Dict (LatentVar (Ext ℝ))} (h : latentsOf twinDev p r = some d) :
    d = [] ∨ ∃ k, d = nameLatents [(k, lotLatent)] := by
  unfold latentsOf at h
  cases hp : twinDev.prms.get? p with
  | none => rw [hp] at h; cases r <;> cases h
  | some m =>
    rw [hp] at h
    cases m with
    | circ m =>
      have := Dict.mem_of_get? hp
      simp [twinDev] at this
    | deg m =>
      obtain ⟨mechs, rfl, hm⟩ := twin_prm hp
      cases r with
      | own => cases h; exact .inl rfl
      | cond => cases h; exact .inl rfl
      | init => cases h; exact .inr ⟨_, rfl⟩
      | mech k =>
        rcases hm with ⟨-, rfl⟩ | ⟨-, rfl⟩
        · simp only [twinPrm, Dict.get?_cons, Dict.get?_nil] at h
          split_ifs at h
          · cases h
            exact .inr ⟨_, rfl⟩
          · cases h
        · cases h

theorem twin_setup : NewSetup linearNumpy twinDev [("vth", 4), ("ids", 5)] (fun p => if p = "vth" then 4 else 5)
    twinVariation fun _ y => y "init_val" := by
  refine ⟨by simp [twinDev, Dict.Nodup, Dict.keys], ?_, ?_, ?_, ?_, ?_⟩
  · intro p m hp
    obtain ⟨mechs, rfl, ⟨-, rfl⟩ | ⟨-, rfl⟩⟩ := twin_prm hp
    · exact ⟨by simp [twinPrm, Dict.Nodup, Dict.keys], by simp [twinPrm, Dict.keys], by simp [twinPrm, Dict.Nodup, Dict.keys],
        by simp [twinPrm, Dict.keys]⟩
    · exact ⟨by simp [twinPrm, Dict.Nodup, Dict.keys], by simp [twinPrm, Dict.keys], by simp [twinPrm, Dict.Nodup, Dict.keys],
        by simp [twinPrm, Dict.keys]⟩
  · intro p r d hd
    rcases twin_latents hd with rfl | ⟨k, rfl⟩ <;> simp [nameLatents, Dict.Nodup, Dict.keys]
  · intro s lv hs
    unfold latentAt at hs
    cases hd : latentsOf twinDev s.prm s.role with
    | none => rw [hd] at hs; cases hs
    | some d =>
      rw [hd] at hs
      rcases twin_latents hd with rfl | ⟨k, rfl⟩
      · cases hs
      · have := Dict.mem_of_get? hs
        simp only [nameLatents, List.map_cons, List.map_nil, List.mem_cons, List.not_mem_nil, or_false, Prod.mk.injEq] at this
        obtain ⟨-, rfl⟩ := this
        split_ifs <;> exact ⟨rfl, rfl, rfl, rfl, rfl⟩
  · intro p m hp
    obtain ⟨mechs, rfl, -⟩ := twin_prm hp
    exact default_initial (by simp [Dict.keys]) (by simp [Dict.keys])
  · intro p hp
    simp only [twinDev, Dict.keys, List.map_cons, List.map_nil, List.mem_cons, List.not_mem_nil, or_false] at hp
    rcases hp with rfl | rfl <;> rfl

theorem twin_init : ((twinPrm [("drift", twinMech)]).initMdl.latentVars.get? "init_val") =
    some (lotLatent.setName (some "init_val")) := by
  simp [twinPrm, initValMk, nameLatents, Dict.get?_cons, lotLatent]

/-- Although everything comes from one generator, thresholds and currents of a device vary independently, and the
thresholds are normal with variance 5. -/
example : ∃ Y Y' Z, RandomInitial (fun i j (ω : Nat × Nat → ℝ) => ω (i, j)) (fun _ => 0) twinDev
      [("vth", 4), ("ids", 5)] 3 2 "vth" 2 1 3 Y ∧
    RandomInitial (fun i j (ω : Nat × Nat → ℝ) => ω (i, j)) (fun _ => 0) twinDev
      [("vth", 4), ("ids", 5)] 3 2 "ids" 2 1 3 Y' ∧
    RandomLatent (fun i j (ω : Nat × Nat → ℝ) => ω (i, j)) (fun _ => 0) twinDev
      [("vth", 4), ("ids", 5)] 3 2 ⟨"vth", .mech "drift", "rate"⟩ 2 1 3 Z ∧
    IndepFun Y Y' (Measure.infinitePi fun _ : Nat × Nat => gaussianReal 0 1) ∧
    IndepFun Y Z (Measure.infinitePi fun _ : Nat × Nat => gaussianReal 0 1) ∧
    (Measure.infinitePi fun _ : Nat × Nat => gaussianReal 0 1).map Y = gaussianReal 7 5 ∧
    (Measure.infinitePi fun _ : Nat × Nat => gaussianReal 0 1).map Z = gaussianReal 7 5 := by
  have hg : Measurable fun y : String → ℝ => y "init_val" := measurable_pi_apply _
  obtain ⟨v1, v2⟩ := C94_values (L := 3) (C := 2) (next := fun _ => 0) linear_correct exists_standard twin_setup
    fun _ _ _ => hg
  have p1 : twinDev.prms.get? "vth" = some (.deg (twinPrm [("drift", twinMech)])) := rfl
  have p2 : twinDev.prms.get? "ids" = some (.deg (twinPrm [])) := rfl
  have s1 : latentAt twinDev ⟨"vth", .mech "drift", "rate"⟩ = some (lotLatent.setName (some "rate")) := by
    simp [latentAt, latentsOf, p1, twinPrm, twinMech, MechMdl.mk', nameLatents, Dict.get?_cons, lotLatent]
  obtain ⟨Y, -, hY⟩ := v1 "vth" _ p1 2 1 3 (by decide)
  obtain ⟨Y', -, hY'⟩ := v1 "ids" _ p2 2 1 3 (by decide)
  obtain ⟨Z, -, hZ⟩ := v2 ⟨"vth", .mech "drift", "rate"⟩ (by rw [s1]; rfl) (by simp) 2 1 3 (by decide)
  refine ⟨Y, Y', Z, hY, hY', hZ, ?_, ?_, ?_, ?_⟩
  · exact C94_initial linear_correct exists_standard twin_setup p1 p2 hg hg (by decide) (by decide)
      (.inl (by decide)) hY hY'
  · exact C94_mechanisms linear_correct exists_standard twin_setup p1 hg (by rw [s1]; rfl) (by simp) (by decide)
      (by decide) hY hZ
  · rw [C94_initialNormal linear_correct exists_standard twin_setup p1 rfl twin_init rfl (ml := 0) (sl := 2) (mc := 0)
      (sc := 0) (md := 0) (sd := 1) (.inl rfl) (.inr ⟨rfl, rfl⟩) (.inl rfl) (by decide) hY]
    congr 1 <;> norm_num [twinVariation]
  · rw [C94_normal linear_correct exists_standard twin_setup s1 (by simp) rfl (ml := 0) (sl := 2) (mc := 0)
      (sc := 0) (md := 0) (sd := 1) (.inl rfl) (.inr ⟨rfl, rfl⟩) (.inl rfl) (by decide) hZ]
    congr 1 <;> norm_num [twinVariation]

end Gerabaldi.Props
