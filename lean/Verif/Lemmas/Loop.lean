import Verif.Model.Py
import Mathlib.Data.List.Basic
import Mathlib.Data.List.Perm.Basic
import Mathlib.Data.List.Nodup

/-! # Loops that fill a dictionary -/

namespace Gerabaldi

namespace M
variable {W α β γ : Type}

theorem ofExcept_eq_ok {x : Except Err α} {a : α} {w w' : W} :
    (ofExcept x : M W α) w = (.ok a, w') ↔ x = .ok a ∧ w' = w := by
  simp only [ofExcept_run, Prod.mk.injEq]
  constructor
  · rintro ⟨rfl, rfl⟩; exact ⟨rfl, rfl⟩
  · rintro ⟨rfl, rfl⟩; exact ⟨rfl, rfl⟩

theorem pure_eq_ok {a b : α} {w w' : W} :
    (Pure.pure a : M W α) w = (.ok b, w') ↔ b = a ∧ w' = w := by
  simp only [pure_run, Prod.mk.injEq, Except.ok.injEq]
  constructor
  · rintro ⟨rfl, rfl⟩; exact ⟨rfl, rfl⟩
  · rintro ⟨rfl, rfl⟩; exact ⟨rfl, rfl⟩

theorem ofExcept_bind_ok {x : Except Err α} {f : α → M W β} {w w' : W} {b : β} :
    (ofExcept x >>= f) w = (.ok b, w') ↔ ∃ a, x = .ok a ∧ f a w = (.ok b, w') := by
  rw [bind_run, ofExcept_run]
  cases x with
  | ok a => simp
  | error e => simp

theorem getE_bind_ok {d : Dict α} {k : String} {f : α → M W β} {w w' : W} {b : β} :
    (ofExcept (d.getE k) >>= f) w = (.ok b, w') ↔ ∃ a, d.get? k = some a ∧ f a w = (.ok b, w') := by
  rw [ofExcept_bind_ok]
  simp only [Dict.getE_eq_ok]

theorem bind_pure_ok {m : M W α} {g : α → β} {w w' : W} {b : β} :
    (m >>= fun a => Pure.pure (g a)) w = (.ok b, w') ↔ ∃ a, m w = (.ok a, w') ∧ g a = b := by
  rw [bind_eq_ok]
  constructor
  · rintro ⟨a, w1, h1, h2⟩
    obtain ⟨rfl, rfl⟩ := pure_eq_ok.1 h2
    exact ⟨a, h1, rfl⟩
  · rintro ⟨a, h1, rfl⟩
    exact ⟨a, w', h1, rfl⟩

/-- Invariants of a loop that finishes. -/
theorem forIn'_ok_inv {f : β → α → M W β} (P : List α → β → W → Prop) {xs : List α} {b0 b : β}
    {w w' : W} (h : forIn' f xs b0 w = (.ok b, w')) (h0 : P [] b0 w)
    (hstep : ∀ pre x post b1 w1 b2 w2, xs = pre ++ x :: post → P pre b1 w1 →
      f b1 x w1 = (.ok b2, w2) → P (pre ++ [x]) b2 w2) : P xs b w' := by
  suffices H : ∀ (post pre : List α) (b1 : β) (w1 : W), xs = pre ++ post → P pre b1 w1 →
      forIn' f post b1 w1 = (.ok b, w') → P xs b w' from H xs [] b0 w rfl h0 h
  intro post
  induction post with
  | nil =>
    intro pre b1 w1 hx hp hr
    cases hr
    rw [hx, List.append_nil]; exact hp
  | cons x post ih =>
    intro pre b1 w1 hx hp hr
    obtain ⟨b2, w2, h1, h2⟩ := bind_eq_ok.1 hr
    exact ih (pre ++ [x]) b2 w2 (by rw [hx]; simp) (hstep pre x post b1 w1 b2 w2 hx hp h1) h2

/-- Every iteration of a loop that finishes has finished. -/
theorem forIn'_ok_mem {f : β → α → M W β} {xs : List α} {b0 b : β} {w w' : W}
    (h : forIn' f xs b0 w = (.ok b, w')) {x : α} (hx : x ∈ xs) :
    ∃ (b1 : β) (w1 : W) (b2 : β) (w2 : W), f b1 x w1 = (.ok b2, w2) := by
  refine forIn'_ok_inv (P := fun pre _ _ => ∀ x ∈ pre,
    ∃ (b1 : β) (w1 : W) (b2 : β) (w2 : W), f b1 x w1 = (.ok b2, w2)) h ?_ ?_ x hx
  · intro x hx; exact absurd hx List.not_mem_nil
  · intro pre x post b1 w1 b2 w2 _ hp hf y hy
    rcases List.mem_append.1 hy with hy | hy
    · exact hp y hy
    · rw [List.mem_singleton.1 hy]; exact ⟨b1, w1, b2, w2, hf⟩

/-- Invariants of a loop, whatever its outcome: an assertion about the world that every iteration keeps. -/
theorem forIn'_world {f : β → α → M W β} (P : W → Prop) {xs : List α} {b0 : β} {w : W} (h0 : P w)
    (hstep : ∀ x ∈ xs, ∀ b w, P w → P (f b x w).2) : P (forIn' f xs b0 w).2 := by
  induction xs generalizing b0 w with
  | nil => exact h0
  | cons x xs ih =>
    simp only [forIn']
    have h1 := hstep x List.mem_cons_self b0 w h0
    rw [bind_run]
    cases hf : f b0 x w with
    | mk r w1 =>
      rw [hf] at h1
      cases r with
      | ok b1 => exact ih h1 fun y hy => hstep y (List.mem_cons_of_mem _ hy)
      | error e => exact h1

/-- A loop `for x in xs: d[key(x)] = g(x)` that finishes: every entry comes from an iteration (or was
there before), and every iteration leaves an entry. -/
theorem forIn'_set {g : α → M W γ} {key : α → String} {xs : List α} {d0 d : Dict γ} {w w' : W}
    (h : forIn' (fun d x => g x >>= fun v => Pure.pure (d.set (key x) v)) xs d0 w = (.ok d, w')) :
    (∀ k v, d.get? k = some v →
      (d0.get? k = some v ∧ ∀ x ∈ xs, key x ≠ k) ∨
      ∃ x ∈ xs, key x = k ∧ ∃ w1 w2, g x w1 = (.ok v, w2)) ∧
    (∀ x ∈ xs, ∃ v, d.get? (key x) = some v) ∧
    (∀ k, (∀ x ∈ xs, key x ≠ k) → d.get? k = d0.get? k) := by
  refine forIn'_ok_inv (P := fun pre d _ => (∀ k v, d.get? k = some v →
      (d0.get? k = some v ∧ ∀ x ∈ pre, key x ≠ k) ∨
      ∃ x ∈ pre, key x = k ∧ ∃ w1 w2, g x w1 = (.ok v, w2)) ∧
    (∀ x ∈ pre, ∃ v, d.get? (key x) = some v) ∧
    (∀ k, (∀ x ∈ pre, key x ≠ k) → d.get? k = d0.get? k)) h ?_ ?_
  · exact ⟨fun k v hk => .inl ⟨hk, fun _ hx => absurd hx List.not_mem_nil⟩,
      fun x hx => absurd hx List.not_mem_nil, fun k _ => rfl⟩
  · rintro pre x post b1 w1 b2 w2 _ ⟨p1, p2, p3⟩ hf
    obtain ⟨v, w3, hg, hp⟩ := bind_eq_ok.1 hf
    obtain ⟨rfl, rfl⟩ := pure_eq_ok.1 hp
    refine ⟨?_, ?_, ?_⟩
    · intro k u hk
      rw [Dict.get?_set] at hk
      by_cases hkx : key x = k
      · rw [if_pos hkx] at hk
        cases hk
        exact .inr ⟨x, by simp, hkx, w1, w2, hg⟩
      · rw [if_neg hkx] at hk
        rcases p1 k u hk with ⟨h1, h2⟩ | ⟨y, hy, h2⟩
        · refine .inl ⟨h1, ?_⟩
          intro z hz
          rcases List.mem_append.1 hz with hz | hz
          · exact h2 z hz
          · rw [List.mem_singleton.1 hz]; exact hkx
        · exact .inr ⟨y, List.mem_append_left _ hy, h2⟩
    · intro y hy
      rw [Dict.get?_set]
      by_cases hkx : key x = key y
      · rw [if_pos hkx]; exact ⟨v, rfl⟩
      · rw [if_neg hkx]
        rcases List.mem_append.1 hy with hy | hy
        · exact p2 y hy
        · rw [List.mem_singleton.1 hy] at hkx; exact absurd rfl hkx
    · intro k hk
      rw [Dict.get?_set_ne _ _ (hk x (by simp))]
      exact p3 k fun y hy => hk y (List.mem_append_left _ hy)

/-- With different keys such a loop is a list of results. -/
theorem forIn'_set_eq_mapList {g : α → M W γ} {key : α → String} {xs : List α} {d0 : Dict γ}
    (hnd : (xs.map key).Nodup) (hdis : ∀ x ∈ xs, key x ∉ d0.keys) :
    forIn' (fun d x => g x >>= fun v => Pure.pure (d.set (key x) v)) xs d0 =
      (mapList (fun x => g x >>= fun v => Pure.pure (key x, v)) xs >>= fun ys =>
        Pure.pure (d0 ++ ys)) := by
  induction xs generalizing d0 with
  | nil => simp [forIn', mapList]
  | cons x xs ih =>
    simp only [List.map_cons, List.nodup_cons] at hnd
    simp only [forIn', mapList, bind_assoc', pure_bind']
    congr 1
    funext v
    have hx := hdis x List.mem_cons_self
    rw [Dict.set_append_of_not_mem v hx, ih hnd.2]
    · congr 1
      funext ys
      simp
    · intro y hy
      have : key x ≠ key y := fun he => hnd.1 (by rw [he]; exact List.mem_map_of_mem hy)
      have hy' := hdis y (List.mem_cons_of_mem _ hy)
      simp only [Dict.keys, List.map_append, List.map_cons, List.map_nil, List.mem_append,
        List.mem_singleton] at hy' ⊢
      rintro (h | h)
      · exact hy' h
      · exact this h.symm

/-- A loop that collects results, when it finishes. -/
theorem mapList_ok {f : α → M W β} {xs : List α} {ys : List β} {w w' : W}
    (h : mapList f xs w = (.ok ys, w')) :
    List.Forall₂ (fun x y => ∃ w1 w2, f x w1 = (.ok y, w2)) xs ys := by
  induction xs generalizing ys w with
  | nil => cases h; exact .nil
  | cons x xs ih =>
    obtain ⟨y, w1, h1, h2⟩ := bind_eq_ok.1 h
    obtain ⟨zs, w2, h3, h4⟩ := bind_eq_ok.1 h2
    cases h4
    exact .cons ⟨w, w1, h1⟩ (ih h3)

/-- Collecting results in another order, when the iterations commute. -/
theorem mapList_perm {f : α → M W β} {xs xs' : List α} (hp : xs.Perm xs')
    (hcomm : ∀ x ∈ xs, ∀ y ∈ xs, x ≠ y → ∀ w w1 w2 a b, f x w = (.ok a, w1) → f y w1 = (.ok b, w2) →
      ∃ w1', f y w = (.ok b, w1') ∧ f x w1' = (.ok a, w2))
    (hnd : xs.Nodup) {w w' : W} {ys : List β} (h : mapList f xs w = (.ok ys, w')) :
    ∃ ys', mapList f xs' w = (.ok ys', w') ∧ ys.Perm ys' := by
  induction hp generalizing w w' ys with
  | nil => exact ⟨ys, h, .refl _⟩
  | cons x hp ih =>
    obtain ⟨y, w1, h1, h2⟩ := bind_eq_ok.1 h
    obtain ⟨zs, w2, h3, h4⟩ := bind_eq_ok.1 h2
    obtain ⟨rfl, rfl⟩ := pure_eq_ok.1 h4
    obtain ⟨zs', e1, e2⟩ := ih (fun a ha b hb => hcomm a (List.mem_cons_of_mem _ ha) b
      (List.mem_cons_of_mem _ hb)) (List.nodup_cons.1 hnd).2 h3
    refine ⟨y :: zs', ?_, e2.cons y⟩
    simp only [mapList]
    rw [bind_ok h1, bind_ok e1]; rfl
  | swap x y l =>
    obtain ⟨b, w1, h1, h2⟩ := bind_eq_ok.1 h
    obtain ⟨zs, w2, h3, h4⟩ := bind_eq_ok.1 h2
    obtain ⟨rfl, rfl⟩ := pure_eq_ok.1 h4
    obtain ⟨a, w3, h5, h6⟩ := bind_eq_ok.1 h3
    obtain ⟨vs, w4, h7, h8⟩ := bind_eq_ok.1 h6
    obtain ⟨rfl, rfl⟩ := pure_eq_ok.1 h8
    have hne : y ≠ x := fun he => by
      rw [he] at hnd
      exact (List.nodup_cons.1 hnd).1 List.mem_cons_self
    obtain ⟨w1', c1, c2⟩ := hcomm y (by simp) x (by simp) hne w w1 w3 b a h1 h5
    refine ⟨a :: b :: vs, ?_, List.Perm.swap _ _ _⟩
    simp only [mapList]
    rw [bind_ok c1]
    simp only [bind_assoc']
    rw [bind_ok c2]
    simp only [pure_bind']
    rw [bind_ok h7]
    rfl
  | trans p1 p2 ih1 ih2 =>
    obtain ⟨ys1, e1, q1⟩ := ih1 hcomm hnd h
    obtain ⟨ys2, e2, q2⟩ := ih2 (fun a ha b hb => hcomm a (p1.mem_iff.2 ha) b (p1.mem_iff.2 hb))
      (p1.nodup_iff.1 hnd) e1
    exact ⟨ys2, e2, q1.trans q2⟩

/-- Two loops that collect related results through the same worlds. -/
theorem mapList_rel {f g : α → M W β} {R : β → β → Prop} {xs : List α}
    (hfg : ∀ x ∈ xs, ∀ w w1 a, f x w = (.ok a, w1) → ∃ b, g x w = (.ok b, w1) ∧ R a b)
    {w w' : W} {ys : List β} (h : mapList f xs w = (.ok ys, w')) :
    ∃ zs, mapList g xs w = (.ok zs, w') ∧ List.Forall₂ R ys zs := by
  induction xs generalizing w ys with
  | nil => cases h; exact ⟨[], rfl, .nil⟩
  | cons x xs ih =>
    obtain ⟨y, w1, h1, h2⟩ := bind_eq_ok.1 h
    obtain ⟨zs, w2, h3, h4⟩ := bind_eq_ok.1 h2
    obtain ⟨rfl, rfl⟩ := pure_eq_ok.1 h4
    obtain ⟨b, hb, hr⟩ := hfg x List.mem_cons_self _ _ _ h1
    obtain ⟨bs, hbs, hrs⟩ := ih (fun y hy => hfg y (List.mem_cons_of_mem _ hy)) h3
    refine ⟨b :: bs, ?_, .cons hr hrs⟩
    simp only [mapList]
    rw [bind_ok hb, bind_ok hbs]; rfl

/-- A computation that never changes the world. -/
def Keeps (m : M W α) : Prop := ∀ w, (m w).2 = w

theorem Keeps.pure (a : α) : Keeps (Pure.pure a : M W α) := fun _ => rfl

theorem Keeps.ofExcept (x : Except Err α) : Keeps (M.ofExcept x : M W α) := fun _ => rfl

theorem Keeps.throw (e : Err) : Keeps (M.throw e : M W α) := fun _ => rfl

theorem Keeps.bind {m : M W α} {f : α → M W β} (hm : Keeps m) (hf : ∀ a, Keeps (f a)) :
    Keeps (m >>= f) := by
  intro w
  rw [bind_run]
  have := hm w
  cases h : m w with
  | mk r w1 =>
    rw [h] at this
    simp only at this
    subst this
    cases r with
    | ok a => exact hf a _
    | error e => rfl

theorem Keeps.forIn' {f : β → α → M W β} {xs : List α} (h : ∀ x ∈ xs, ∀ b, Keeps (f b x)) (b : β) :
    Keeps (M.forIn' f xs b) := by
  induction xs generalizing b with
  | nil => exact Keeps.pure b
  | cons x xs ih =>
    exact (h x List.mem_cons_self b).bind fun b' => ih (fun y hy => h y (List.mem_cons_of_mem _ hy)) b'

theorem Keeps.mapList {f : α → M W β} {xs : List α} (h : ∀ x ∈ xs, Keeps (f x)) :
    Keeps (M.mapList f xs) := by
  induction xs with
  | nil => exact Keeps.pure _
  | cons x xs ih =>
    exact (h x List.mem_cons_self).bind fun y =>
      (ih fun y hy => h y (List.mem_cons_of_mem _ hy)).bind fun ys => Keeps.pure _

theorem Keeps.catchValueError {m h : M W α} (hm : Keeps m) (hh : Keeps h) :
    Keeps (M.catchValueError m h) := by
  intro w
  unfold M.catchValueError
  have h1 := hm w
  split
  · rename_i w' he
    rw [he] at h1
    simp only at h1
    subst h1
    exact hh _
  · exact h1

end M

namespace Dict
variable {α : Type}

/-- The order of a dictionary does not matter for lookups. -/
theorem get?_perm {d d' : Dict α} (h : d.Perm d') (hnd : d.Nodup) (k : String) :
    d.get? k = d'.get? k := by
  have hnd' : d'.Nodup := by
    unfold Nodup keys at *
    exact (h.map _).nodup_iff.1 hnd
  cases hk : d.get? k with
  | some v => exact (get?_of_mem hnd' (h.mem_iff.1 (mem_of_get? hk))).symm
  | none =>
    cases hk' : d'.get? k with
    | none => rfl
    | some v =>
      have := get?_of_mem hnd (h.mem_iff.2 (mem_of_get? hk'))
      rw [hk] at this; cases this

theorem get?_isSome_of_mem_keys {d : Dict α} {k : String} (h : k ∈ d.keys) :
    ∃ v, d.get? k = some v := by
  have := (has_iff_mem_keys d k).2 h
  unfold has at this
  exact Option.isSome_iff_exists.1 this

theorem get?_map {β : Type} (f : String → α → β) (d : Dict α) (k : String) :
    get? (d.map fun kv => (kv.1, f kv.1 kv.2)) k = (d.get? k).map (f k) := by
  induction d with
  | nil => rfl
  | cons hd d ih =>
    obtain ⟨k₀, v₀⟩ := hd
    simp only [List.map_cons, get?_cons]
    by_cases h : k₀ = k
    · subst h; simp
    · simp only [h, if_false]; exact ih

end Dict

end Gerabaldi
