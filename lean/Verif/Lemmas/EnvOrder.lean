import Verif.Lemmas.Env

/-! # The iteration order of sets does not matter -/

namespace Gerabaldi
open Spec

variable {V : Type} {W : Type}

namespace M

/-- Two loops over the same list with related accumulators and equal worlds. -/
theorem forIn'_rel {α β : Type} {f g : β → α → M W β} {R : β → β → Prop} {xs : List α}
    (hfg : ∀ x ∈ xs, ∀ b c w w1 b', R b c → f b x w = (.ok b', w1) →
      ∃ c', g c x w = (.ok c', w1) ∧ R b' c')
    {b c b' : β} {w w' : W} (hR : R b c) (h : forIn' f xs b w = (.ok b', w')) :
    ∃ c', forIn' g xs c w = (.ok c', w') ∧ R b' c' := by
  induction xs generalizing b c w with
  | nil => cases h; exact ⟨c, rfl, hR⟩
  | cons x xs ih =>
    obtain ⟨b1, w1, h1, h2⟩ := bind_eq_ok.1 h
    obtain ⟨c1, g1, r1⟩ := hfg x List.mem_cons_self _ _ _ _ _ hR h1
    obtain ⟨c', g2, r2⟩ := ih (fun y hy => hfg y (List.mem_cons_of_mem _ hy)) r1 h2
    exact ⟨c', by simp only [forIn']; rw [bind_ok g1]; exact g2, r2⟩

end M

/-- Dictionaries with the same content. -/
def SameDict {α : Type} (d d' : Dict α) : Prop := ∀ k, d.get? k = d'.get? k

/-- Condition values with the same content, parameters in the same order. -/
def CondsEq (r r' : Dict (Dict (Arr3 V))) : Prop :=
  List.Forall₂ (fun a b => a.1 = b.1 ∧ SameDict a.2 b.2) r r'

theorem CondsEq.set {r r' : Dict (Dict (Arr3 V))} (h : CondsEq r r') (k : String)
    {d d' : Dict (Arr3 V)} (hd : SameDict d d') : CondsEq (r.set k d) (r'.set k d') := by
  induction h with
  | nil => exact .cons ⟨rfl, hd⟩ .nil
  | @cons a b l l' hab hl ih =>
    obtain ⟨k1, d1⟩ := a
    obtain ⟨k2, d2⟩ := b
    obtain ⟨h1, h2⟩ := hab
    simp only at h1
    subst h1
    simp only [Dict.set]
    split
    · exact .cons ⟨rfl, hd⟩ hl
    · exact .cons ⟨rfl, h2⟩ ih

theorem CondsEq.keys {r r' : Dict (Dict (Arr3 V))} (h : CondsEq r r') : r.keys = r'.keys := by
  induction h with
  | nil => rfl
  | cons hab _ ih => simp only [Dict.keys, List.map_cons] at *; rw [hab.1, ih]

theorem CondsEq.get? {r r' : Dict (Dict (Arr3 V))} (h : CondsEq r r') (k : String) :
    match r.get? k, r'.get? k with
    | some d, some d' => SameDict d d'
    | none, none => True
    | _, _ => False := by
  induction h with
  | nil => trivial
  | @cons a b l l' hab _ ih =>
    obtain ⟨k1, d1⟩ := a
    obtain ⟨k2, d2⟩ := b
    obtain ⟨h1, h2⟩ := hab
    simp only at h1
    subst h1
    simp only [Dict.get?_cons]
    by_cases hk : k1 = k
    · simp only [hk, if_true]; exact h2
    · simp only [hk, if_false]; exact ih

variable [PyArith V]

omit [PyArith V] in
theorem CondsEq.condOf {r r' : Dict (Dict (Arr3 V))} (h : CondsEq r r') (prm cond : String) :
    Spec.condOf r prm cond = Spec.condOf r' prm cond := by
  have := h.get? prm
  unfold Spec.condOf
  revert this
  cases r.get? prm <;> cases r'.get? prm <;> simp only [IsEmpty.forall_iff, forall_const]
  intro h; exact h cond

variable [Rng W V]

/-- Draws of variables that do not share a generator can be exchanged. -/
theorem sample_comm [LawfulRng W V] {r r' : RVar V} (hi : Independent r r') {n n' : Nat}
    {w w1 w2 : W} {xs ys : List V} (h1 : r.sample n w = (.ok xs, w1))
    (h2 : r'.sample n' w1 = (.ok ys, w2)) :
    ∃ w1', r'.sample n' w = (.ok ys, w1') ∧ r.sample n w1' = (.ok xs, w2) := by
  obtain ⟨i, d, nm⟩ := r
  obtain ⟨i', d', nm'⟩ := r'
  -- a deterministic variable draws nothing
  have hdet : ∀ (r : RVar V) v, r.dist = .deterministic v → ∀ n (w : W),
      r.sample n w = (.ok (List.replicate n v), w) := by
    intro r v hr n w; unfold RVar.sample; rw [hr]; rfl
  rcases hi with ⟨v, hv⟩ | ⟨v, hv⟩ | hne
  · rw [hdet _ v hv] at h1
    cases h1
    exact ⟨w2, h2, hdet _ v hv _ _⟩
  · rw [hdet _ v hv] at h2
    cases h2
    exact ⟨w, hdet _ v hv _ _, h1⟩
  · by_cases hd : ∃ v, d = .deterministic v
    · obtain ⟨v, hv⟩ := hd
      rw [hdet ⟨i, d, nm⟩ v hv] at h1
      cases h1
      exact ⟨w2, h2, hdet ⟨i, d, nm⟩ v hv _ _⟩
    by_cases hd' : ∃ v, d' = .deterministic v
    · obtain ⟨v, hv⟩ := hd'
      rw [hdet ⟨i', d', nm'⟩ v hv] at h2
      cases h2
      exact ⟨w, hdet ⟨i', d', nm'⟩ v hv _ _, h1⟩
    have hs : ∀ (i : Nat) (d : Dist V) (nm : Option String), (¬ ∃ v, d = .deterministic v) → ∀ n,
        (RVar.sample ⟨i, d, nm⟩ n : M W (List V)) =
          (M.ofExcept (d.getDistParams "numpy") >>= fun ps => Rng.draw i d.typeName ps n) := by
      intro i d nm hnd n
      cases d with
      | deterministic v => exact absurd ⟨v, rfl⟩ hnd
      | _ => rfl
    rw [hs i d nm hd] at h1
    rw [hs i' d' nm' hd'] at h2
    obtain ⟨ps, u1, a1, a2⟩ := M.bind_eq_ok.1 h1
    obtain ⟨ps', u2, b1, b2⟩ := M.bind_eq_ok.1 h2
    obtain ⟨e1, rfl⟩ := M.ofExcept_eq_ok.1 a1
    obtain ⟨e2, rfl⟩ := M.ofExcept_eq_ok.1 b1
    obtain ⟨w1', c1, c2⟩ := LawfulRng.commute (W := W) (V := V) hne a2 b2
    refine ⟨w1', ?_, ?_⟩
    · rw [hs i' d' nm' hd', M.bind_ok (M.ofExcept_eq_ok.2 ⟨e2, rfl⟩)]; exact c1
    · rw [hs i d nm hd, M.bind_ok (M.ofExcept_eq_ok.2 ⟨e1, rfl⟩)]; exact c2

theorem genDev_comm [LawfulRng W V] {m m' : EnvVrtnMdl V} (hi : Independent m.dev m'.dev)
    {a a' x y : Arr3 V} {n n' : Nat} {w w1 w2 : W} (h1 : m.genDev a n w = (.ok x, w1))
    (h2 : m'.genDev a' n' w1 = (.ok y, w2)) :
    ∃ w1', m'.genDev a' n' w = (.ok y, w1') ∧ m.genDev a n w1' = (.ok x, w2) := by
  unfold EnvVrtnMdl.genDev at h1 h2 ⊢
  obtain ⟨xs, u1, a1, h1a⟩ := M.bind_eq_ok.1 h1
  obtain ⟨b, u2, a2, h1b⟩ := M.bind_eq_ok.1 h1a
  obtain ⟨a2', rfl⟩ := M.ofExcept_eq_ok.1 a2
  obtain ⟨a3', rfl⟩ := M.ofExcept_eq_ok.1 h1b
  obtain ⟨ys, u3, b1, h2a⟩ := M.bind_eq_ok.1 h2
  obtain ⟨b', u4, b2, h2b⟩ := M.bind_eq_ok.1 h2a
  obtain ⟨b2', rfl⟩ := M.ofExcept_eq_ok.1 b2
  obtain ⟨b3', rfl⟩ := M.ofExcept_eq_ok.1 h2b
  obtain ⟨w1', c1, c2⟩ := sample_comm hi a1 b1
  refine ⟨w1', ?_, ?_⟩
  · rw [M.bind_ok c1, M.bind_ok (M.ofExcept_eq_ok.2 ⟨b2', rfl⟩)]
    exact M.ofExcept_eq_ok.2 ⟨b3', rfl⟩
  · rw [M.bind_ok c2, M.bind_ok (M.ofExcept_eq_ok.2 ⟨a2', rfl⟩)]
    exact M.ofExcept_eq_ok.2 ⟨a3', rfl⟩

theorem dependOf_ok {env : PhysTestEnv V} {shared : Dict (V × Arr3 V)} {counts : Dict Nat}
    {prm cond : String} {w w' : W} {a : Arr3 V} :
    dependOf env shared counts prm cond w = (.ok a, w') ↔
      ∃ bc n, shared.get? cond = some bc ∧ counts.get? prm = some n ∧
        (env.vrtnMdl cond).genDev bc.2 n w = (.ok a, w') := by
  unfold dependOf
  constructor
  · intro h
    obtain ⟨bc, w1, h1, h⟩ := M.bind_eq_ok.1 h
    obtain ⟨n, w2, h2, h3⟩ := M.bind_eq_ok.1 h
    obtain ⟨e1, rfl⟩ := M.ofExcept_eq_ok.1 h1
    obtain ⟨e2, rfl⟩ := M.ofExcept_eq_ok.1 h2
    exact ⟨bc, n, Dict.getE_eq_ok.1 e1, Dict.getE_eq_ok.1 e2, h3⟩
  · rintro ⟨bc, n, h1, h2, h3⟩
    rw [M.bind_ok (M.ofExcept_eq_ok.2 ⟨Dict.getE_eq_ok.2 h1, rfl⟩),
      M.bind_ok (M.ofExcept_eq_ok.2 ⟨Dict.getE_eq_ok.2 h2, rfl⟩)]
    exact h3

/-- One parameter, two set orders. -/
theorem genPrmConds_order [LawfulRng W V] {env : PhysTestEnv V} {conds : List String}
    (hi : ∀ c ∈ conds, ∀ c' ∈ conds, c ≠ c' → Independent (env.vrtnMdl c).dev (env.vrtnMdl c').dev)
    (o1 o2 : SetOrder) {dev : Option (DeviceMdl W V)} {t : Target} {shared : Dict (V × Arr3 V)}
    {counts : Dict Nat} {prm : String} {w w' : W} {d : Dict (Arr3 V)}
    (h : env.genPrmConds o1 dev conds t shared counts prm w = (.ok d, w')) :
    ∃ d', env.genPrmConds o2 dev conds t shared counts prm w = (.ok d', w') ∧ SameDict d d' := by
  unfold PhysTestEnv.genPrmConds at h ⊢
  cases hp : (dev.bind fun d => d.prms.get? prm) with
  | none =>
    rw [hp] at h
    exact ⟨d, h, fun k => rfl⟩
  | some p =>
    rw [hp] at h
    simp only at h ⊢
    cases p with
    | circ m => exact ⟨d, h, fun k => rfl⟩
    | deg m =>
      have n1 : (PrmMdl.dependencies o1 (.deg m) conds t).Nodup := o1.nodup _
      have n2 : (PrmMdl.dependencies o2 (.deg m) conds t).Nodup := o2.nodup _
      have hperm : (PrmMdl.dependencies o1 (.deg m) conds t).Perm
          (PrmMdl.dependencies o2 (.deg m) conds t) := by
        rw [List.perm_ext_iff_of_nodup n1 n2]
        intro a
        rw [mem_dependencies, mem_dependencies]
      have hsub : ∀ c ∈ PrmMdl.dependencies o1 (.deg m) conds t, c ∈ conds := fun c hc =>
        ((mem_dependencies o1 _ conds t c).1 hc).1
      rw [genDepend_eq] at h ⊢
      have e : ∀ o : SetOrder, (PrmMdl.dependencies o (.deg m) conds t).Nodup →
          M.forIn' (fun acc cond => dependOf env shared counts prm cond >>= fun v =>
            pure (Dict.set acc (id cond) v)) (PrmMdl.dependencies o (.deg m) conds t) [] =
          M.mapList (fun x => (dependOf env shared counts prm x : M W (Arr3 V)) >>= fun v =>
            pure (id x, v)) (PrmMdl.dependencies o (.deg m) conds t) := by
        intro o ho
        rw [M.forIn'_set_eq_mapList (key := id) (by rw [List.map_id]; exact ho)
          (by intro x _; exact List.not_mem_nil)]
        simp only [List.nil_append]
        exact M.bind_pure' _
      rw [e o1 n1] at h
      rw [e o2 n2]
      obtain ⟨d', h', hd⟩ := M.mapList_perm hperm (by
        intro x hx y hy hxy w w1 w2 a b h1 h2
        obtain ⟨va, u1, a1, a2⟩ := M.bind_eq_ok.1 h1
        obtain ⟨rfl, rfl⟩ := M.pure_eq_ok.1 a2
        obtain ⟨vb, u2, b1, b2⟩ := M.bind_eq_ok.1 h2
        obtain ⟨rfl, rfl⟩ := M.pure_eq_ok.1 b2
        obtain ⟨bc, n, c1, c2, c3⟩ := dependOf_ok.1 a1
        obtain ⟨bc', n', d1, d2, d3⟩ := dependOf_ok.1 b1
        obtain ⟨w1', f1, f2⟩ := genDev_comm (hi x (hsub x hx) y (hsub y hy) hxy) c3 d3
        refine ⟨w1', ?_, ?_⟩
        · rw [M.bind_ok (dependOf_ok.2 ⟨bc', n', d1, d2, f1⟩)]; rfl
        · rw [M.bind_ok (dependOf_ok.2 ⟨bc, n, c1, c2, f2⟩)]; rfl) n1 h
      refine ⟨d', h', fun k => ?_⟩
      have hk : d.keys = PrmMdl.dependencies o1 (.deg m) conds t := by
        have hf := M.mapList_ok h
        clear h hd h' hsub hperm n1 n2 e
        generalize PrmMdl.dependencies o1 (.deg m) conds t = xs at hf
        induction hf with
        | nil => rfl
        | @cons x y l l' hxy _ ih =>
          obtain ⟨w1, w2, hxy⟩ := hxy
          obtain ⟨v, u1, _, a2⟩ := M.bind_eq_ok.1 hxy
          obtain ⟨rfl, rfl⟩ := M.pure_eq_ok.1 a2
          simp only [Dict.keys, List.map_cons, id] at *
          rw [ih]
      exact Dict.get?_perm hd (by unfold Dict.Nodup; rw [hk]; exact n1) k

/-- Two set orders give the same condition values and the same random states. -/
theorem genEnvCondVals_order [LawfulRng W V] {env : PhysTestEnv V} {base : Dict V}
    (hi : ∀ c ∈ base.keys, ∀ c' ∈ base.keys, c ≠ c' →
      Independent (env.vrtnMdl c).dev (env.vrtnMdl c').dev)
    (o1 o2 : SetOrder) {prms : PrmSel} {info : Option Quantities} {dev : Option (DeviceMdl W V)}
    {t : Target} {nc nl : Nat} {w w' : W} {r : Dict (Dict (Arr3 V))}
    (h : env.genEnvCondVals o1 base prms info dev t nc nl w = (.ok r, w')) :
    ∃ r', env.genEnvCondVals o2 base prms info dev t nc nl w = (.ok r', w') ∧ CondsEq r r' := by
  obtain ⟨shared, counts, w1, h1, h2, h3⟩ := genEnvCondVals_inv h
  obtain ⟨r', e1, e2⟩ := M.forIn'_rel (R := CondsEq)
    (g := env.genPrmStep o2 dev base.keys t shared counts) (by
      intro prm _ b c u u1 b' hR hf
      obtain ⟨d, u2, a1, a2⟩ := M.bind_eq_ok.1 hf
      obtain ⟨rfl, rfl⟩ := M.pure_eq_ok.1 a2
      obtain ⟨d', c1, c2⟩ := genPrmConds_order hi o1 o2 a1
      refine ⟨c.set prm d', ?_, hR.set prm c2⟩
      unfold PhysTestEnv.genPrmStep
      rw [M.bind_ok c1]; rfl) .nil h3
  refine ⟨r', ?_, e2⟩
  unfold PhysTestEnv.genEnvCondVals
  rw [M.bind_ok h1, M.bind_ok (M.ofExcept_eq_ok.2 ⟨h2, rfl⟩)]
  exact e1

end Gerabaldi
