import Verif.Lemmas.Loop
import Verif.Props.Latent
import Verif.Model.Sim

/-! # Shapes of latent variables -/

namespace Gerabaldi

theorem Dict.mem_set {α : Type} {d : Dict α} {k : String} {v : α} {x : String × α}
    (h : x ∈ d.set k v) : x = (k, v) ∨ x ∈ d := by
  induction d with
  | nil => exact .inl (List.mem_singleton.1 h)
  | cons kv rest ih =>
    obtain ⟨k', v'⟩ := kv
    simp only [Dict.set] at h
    split at h
    · rcases List.mem_cons.1 h with h | h
      · exact .inl h
      · exact .inr (List.mem_cons_of_mem _ h)
    · rcases List.mem_cons.1 h with h | h
      · exact .inr (h ▸ List.mem_cons_self)
      · rcases ih h with h | h
        · exact .inl h
        · exact .inr (List.mem_cons_of_mem _ h)

theorem Dict.mem_update {α : Type} {d d' : Dict α} {x : String × α} (h : x ∈ d.update d') :
    x ∈ d' ∨ x ∈ d := by
  unfold Dict.update at h
  induction d' generalizing d with
  | nil => exact .inr h
  | cons kv rest ih =>
    rcases ih h with h | h
    · exact .inl (List.mem_cons_of_mem _ h)
    · rcases Dict.mem_set h with h | h
      · exact .inl (h ▸ List.mem_cons_self)
      · exact .inr h

theorem forall₂_mem_right {α β : Type} {R : α → β → Prop} {xs : List α} {ys : List β}
    (h : List.Forall₂ R xs ys) {y : β} (hy : y ∈ ys) : ∃ x ∈ xs, R x y := by
  induction h with
  | nil => cases hy
  | cons hab _ ih =>
    rcases List.mem_cons.1 hy with rfl | hy
    · exact ⟨_, List.mem_cons_self, hab⟩
    · obtain ⟨x, hx, hr⟩ := ih hy
      exact ⟨x, List.mem_cons_of_mem _ hx, hr⟩

section
variable {W V : Type}

/-- All arrays of the dictionary are lot x chip x device arrays of the given dimensions. -/
def DictDims (d : Dict (Arr3 V)) (L C D : Nat) : Prop := ∀ k a, (k, a) ∈ d → a.HasDims L C D

/-- All arrays of a node of latent variables have the given dimensions. -/
def NodeDims (x : LatNode V) (L C D : Nat) : Prop :=
  match x with
  | .arr a => a.HasDims L C D
  | .sub d => DictDims d L C D

/-- All latent variables of a parameter have the given dimensions. -/
def LatDims (lat : Dict (LatNode V)) (L C D : Nat) : Prop := ∀ k x, (k, x) ∈ lat → NodeDims x L C D

variable [PyNum V] [Rng W V]

theorem genLatent_dims {m : LatentMdl W V} {n C L : Nat} {w w' : W} {r : Dict (Arr3 V)}
    (h : m.genLatentVals n C L w = (.ok r, w')) : DictDims r L C n := by
  intro k a hk
  obtain ⟨x, _, w1, w2, hx⟩ := forall₂_mem_right (M.mapList_ok h) hk
  unfold genLatent at hx
  obtain ⟨b, w3, h1, h2⟩ := M.bind_eq_ok.1 hx
  cases h2
  obtain ⟨c1, c2, c3, _⟩ := Props.C11_layered _ h1
  exact ⟨c1, c2, c3⟩

omit [PyNum V] in
theorem latDims_arr {r : Dict (Arr3 V)} {L C n : Nat} (h : DictDims r L C n) :
    LatDims (r.map fun kv => (kv.1, LatNode.arr kv.2)) L C n := by
  intro k x hx
  obtain ⟨kv, hkv, he⟩ := List.mem_map.1 hx
  cases he
  exact h _ _ hkv

omit [PyNum V] in
theorem latDims_update {d d' : Dict (LatNode V)} {L C n : Nat} (h : LatDims d L C n)
    (h' : LatDims d' L C n) : LatDims (d.update d') L C n := by
  intro k x hx
  rcases Dict.mem_update hx with hx | hx
  · exact h' k x hx
  · exact h k x hx

theorem degLatents_dims {m : DegPrmMdl W V} {n C L : Nat} {w w' : W} {r : Dict (LatNode V)}
    (h : m.genLatentVals n C L w = (.ok r, w')) : LatDims r L C n := by
  unfold DegPrmMdl.genLatentVals at h
  obtain ⟨c, w1, h1, g1⟩ := M.bind_eq_ok.1 h
  obtain ⟨d, w2, h2, g2⟩ := M.bind_eq_ok.1 g1
  obtain ⟨own, w3, h3, g3⟩ := M.bind_eq_ok.1 g2
  cases g3
  refine latDims_update ?_ (latDims_arr (genLatent_dims h3))
  have h0 : LatDims [("cond", LatNode.sub c)] L C n := by
    intro k x hx
    cases List.mem_singleton.1 hx
    exact genLatent_dims h1
  clear h g1 g2 h1 h3
  generalize [("cond", LatNode.sub c)] = acc at h0 h2
  generalize m.mechs = ms at h2
  induction ms generalizing acc w1 with
  | nil => cases h2; exact h0
  | cons kv rest ih =>
    obtain ⟨acc1, w4, h4, h5⟩ := M.bind_eq_ok.1 h2
    refine ih _ _ ?_ h5
    unfold genMechLatents at h4
    obtain ⟨e, w5, h6, h7⟩ := M.bind_eq_ok.1 h4
    cases h7
    intro k x hx
    rcases Dict.mem_set hx with hx | hx
    · cases hx
      exact genLatent_dims h6
    · exact h0 k x hx

theorem prmLatents_dims {m : PrmMdl W V} {n C L : Nat} {w w' : W} {r : Dict (LatNode V)}
    (h : m.genLatentVals n C L w = (.ok r, w')) : LatDims r L C n := by
  cases m with
  | deg d => exact degLatents_dims h
  | circ c =>
    obtain ⟨own, w1, h1, h2⟩ := M.bind_eq_ok.1 h
    cases h2
    exact latDims_arr (genLatent_dims h1)

omit [PyNum V] [Rng W V] in
theorem initMech_dims (m : DegPrmMdl W V) (n C L : Nat) : DictDims (m.genInitMechVals n C L) L C n := by
  intro k a h
  obtain ⟨kv, _, he⟩ := List.mem_map.1 h
  cases he
  exact ⟨rfl, rfl, rfl⟩

end

end Gerabaldi
