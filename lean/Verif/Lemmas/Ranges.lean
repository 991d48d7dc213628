import Verif.Lemmas.Mech
import Verif.Lemmas.Sim
import Verif.Spec.Ranges

/-!
# Values stay in their ranges: the pieces
-/

namespace Gerabaldi.Spec

section dicts
variable {α β : Type}

theorem EveryEntry.nil {P : String → α → Prop} : EveryEntry P ([] : Dict α) := fun _ _ h => (nomatch h)

theorem EveryEntry.set {P : String → α → Prop} {d : Dict α} (h : EveryEntry P d) {k : String} {v : α}
    (hv : P k v) : EveryEntry P (d.set k v) := by
  induction d with
  | nil =>
    intro k' v' hm
    cases List.mem_singleton.1 hm
    exact hv
  | cons kv d ih =>
    obtain ⟨k0, v0⟩ := kv
    intro k' v' hm
    simp only [Dict.set] at hm
    split at hm
    · rcases List.mem_cons.1 hm with h1 | h1
      · cases h1; exact hv
      · exact h k' v' (List.mem_cons_of_mem _ h1)
    · rcases List.mem_cons.1 hm with h1 | h1
      · cases h1; exact h _ _ List.mem_cons_self
      · exact ih (fun a b hab => h a b (List.mem_cons_of_mem _ hab)) k' v' h1

theorem EveryEntry.update {P : String → α → Prop} {d d' : Dict α} (h : EveryEntry P d)
    (h' : EveryEntry P d') : EveryEntry P (d.update d') := by
  unfold Dict.update
  induction d' generalizing d with
  | nil => exact h
  | cons kv d' ih =>
    exact ih (h.set (h' kv.1 kv.2 List.mem_cons_self)) fun a b hab => h' a b (List.mem_cons_of_mem _ hab)

theorem EveryEntry.get {P : String → α → Prop} {d : Dict α} (h : EveryEntry P d) {k : String} {v : α}
    (hk : d.get? k = some v) : P k v := h k v (Dict.mem_of_get? hk)

theorem EveryEntry.map {P : String → α → Prop} {Q : String → β → Prop} {d : Dict α} (h : EveryEntry P d)
    {f : α → β} (hf : ∀ k v, P k v → Q k (f v)) : EveryEntry Q (d.map fun kv => (kv.1, f kv.2)) := by
  intro k v hm
  obtain ⟨⟨k', v'⟩, h1, h2⟩ := List.mem_map.1 hm
  cases h2
  exact hf _ _ (h _ _ h1)

theorem EveryEntry.cons {P : String → α → Prop} {d : Dict α} {k : String} {v : α} (hv : P k v)
    (h : EveryEntry P d) : EveryEntry P ((k, v) :: d) := by
  intro k' v' hm
  rcases List.mem_cons.1 hm with h1 | h1
  · cases h1; exact hv
  · exact h _ _ h1

end dicts

section arrays
variable {V U T : Type}

theorem ArrIn.at [Inhabited V] {A : V → Prop} {a : Arr3 V} (h : ArrIn A a) {l c d : Nat} (hl : l < a.nl)
    (hc : c < a.nc) (hd : d < a.nd) : A (a.at' l c d) := h _ (Arr3.at_mem a hl hc hd)

theorem ArrIn.ofFn {A : V → Prop} {L C D : Nat} {f : Nat → Nat → Nat → V}
    (h : ∀ l < L, ∀ c < C, ∀ d < D, A (f l c d)) : ArrIn A (Arr3.ofFn L C D f) := by
  intro x hx
  obtain ⟨i, hi, rfl⟩ := List.mem_map.1 hx
  obtain ⟨h1, h2, h3, -⟩ := Arr3.decode_lt (List.mem_range.1 hi)
  exact h _ h1 _ h2 _ h3

theorem ArrIn.full {A : V → Prop} {L C D : Nat} {v : V} (h : A v) : ArrIn A (Arr3.full L C D v) :=
  ArrIn.ofFn fun _ _ _ _ _ _ => h

theorem ArrIn.map {A : V → Prop} {B : U → Prop} {a : Arr3 V} (h : ArrIn A a) {f : V → U}
    (hf : ∀ x, A x → B (f x)) : ArrIn B (a.map f) := by
  intro x hx
  obtain ⟨y, hy, rfl⟩ := List.mem_map.1 hx
  exact hf _ (h _ hy)

theorem ArrIn.takeDev [Inhabited V] {A : V → Prop} {a : Arr3 V} (h : ArrIn A a) (r : Nat) :
    ArrIn A (a.takeDev r) :=
  ArrIn.ofFn fun _ hl _ hc _ hd => h.at hl hc (lt_of_lt_of_le hd (min_le_right _ _))

theorem ArrIn.takeLot [Inhabited V] {A : V → Prop} {a : Arr3 V} (h : ArrIn A a) (r : Nat) :
    ArrIn A (a.takeLot r) :=
  ArrIn.ofFn fun _ hl _ hc _ hd => h.at (lt_of_lt_of_le hl (min_le_right _ _)) hc hd

theorem ArrIn.reshape {A : V → Prop} {L C D : Nat} {xs : List V} {a : Arr3 V} (h : ∀ x ∈ xs, A x)
    (hr : Arr3.reshape L C D xs = .ok a) : ArrIn A a := by
  obtain ⟨-, -, -, e⟩ := Arr3.reshape_eq_ok.1 hr
  intro x hx
  exact h x (e ▸ hx)

theorem bidx_lt {m n k i : Nat} (h : Arr3.bdim m n = some k) (hi : i < k) :
    Arr3.bidx m i < m ∧ Arr3.bidx n i < n := by
  unfold Arr3.bdim at h
  unfold Arr3.bidx
  repeat' split at h
  all_goals first | (cases h; done) | skip
  all_goals (simp only [Option.some.injEq] at h; subst h; constructor <;> split <;> omega)

theorem ArrIn.bcast2 [Inhabited V] [Inhabited U] {A : V → Prop} {B : U → Prop} {C : T → Prop}
    {a : Arr3 V} {b : Arr3 U} {r : Arr3 T} (ha : ArrIn A a) (hb : ArrIn B b) {f : V → U → T}
    (hf : ∀ x y, A x → B y → C (f x y)) (h : Arr3.bcast2 f a b = .ok r) : ArrIn C r := by
  unfold Arr3.bcast2 at h
  split at h
  · rename_i L C' D h1 h2 h3
    cases h
    refine ArrIn.ofFn fun l hl c hc d hd => hf _ _ ?_ ?_
    · exact ha.at (bidx_lt h1 hl).1 (bidx_lt h2 hc).1 (bidx_lt h3 hd).1
    · exact hb.at (bidx_lt h1 hl).2 (bidx_lt h2 hc).2 (bidx_lt h3 hd).2
  · cases h

theorem ValIn.toArr [Inhabited V] {A : V → Prop} {v : PyVal V} (h : ValIn A v) : ArrIn A v.toArr := by
  cases v with
  | arr a => exact h
  | scal x => exact ArrIn.full h
  | npscal x => exact ArrIn.full h

theorem ValIn.mono {A B : V → Prop} {v : PyVal V} (h : ValIn A v) (hab : ∀ x, A x → B x) : ValIn B v := by
  cases v with
  | arr a => exact fun x hx => hab _ (h x hx)
  | scal x => exact hab _ h
  | npscal x => exact hab _ h

end arrays

section eqns
variable {W V : Type}

theorem ValIn.fill {A : String → V → Prop} {src : String → Option (PyVal V)}
    (hs : ∀ k v, src k = some v → ValIn (A k) v) (names : List String) {acc : Dict (PyVal V)}
    (ha : EveryEntry (fun k v => ValIn (A k) v) acc) :
    EveryEntry (fun k v => ValIn (A k) v) (fillArgs src names acc) := by
  induction names generalizing acc with
  | nil => exact ha
  | cons a as ih =>
    refine ih ?_
    cases h : src a with
    | none => exact ha
    | some v => exact ha.set (hs _ _ h)

theorem ValIn.fillMissing {A : String → V → Prop} {src : String → Option (PyVal V)}
    (hs : ∀ k v, src k = some v → ValIn (A k) v) (names : List String) {acc : Dict (PyVal V)}
    (ha : EveryEntry (fun k v => ValIn (A k) v) acc) :
    EveryEntry (fun k v => ValIn (A k) v) (Gerabaldi.fillMissing src names acc) := by
  induction names generalizing acc with
  | nil => exact ha
  | cons a as ih =>
    refine ih ?_
    split
    · exact ha
    · cases h : src a with
      | none => exact ha
      | some v => exact ha.set (hs _ _ h)

theorem lookup2_in {A : String → V → Prop} {lat conds : Dict (Arr3 V)}
    (hl : EveryEntry (fun k a => ArrIn (A k) a) lat) (hc : EveryEntry (fun k a => ArrIn (A k) a) conds)
    (k : String) (v : PyVal V) (h : lookup2 lat conds k = some v) : ValIn (A k) v := by
  unfold lookup2 at h
  split at h
  · rename_i a ha
    cases h
    exact hl.get ha
  · cases hg : conds.get? k with
    | none => rw [hg] at h; cases h
    | some a => rw [hg] at h; cases h; exact hc.get hg

theorem ownLatent_in {A : String → V → Prop} {lat : Dict (LatNode V)} (hl : EveryEntry (LatIn A) lat)
    (k : String) (v : PyVal V) (h : ownLatent lat k = some v) : ValIn (A k) v := by
  unfold ownLatent at h
  split at h
  · rename_i a ha
    cases h
    exact hl.get ha
  · cases h

theorem subLatents_in {A : String → V → Prop} {lat : Dict (LatNode V)} (hl : EveryEntry (LatIn A) lat)
    {k : String} {d : Dict (Arr3 V)} (h : subLatents lat k = .ok d) :
    EveryEntry (fun k a => ArrIn (A k) a) d := by
  unfold subLatents at h
  split at h
  · rename_i d' hd
    cases h
    exact hl.get hd
  · cases h
  · cases h

theorem reduceLatents_in [PyNum V] {A : String → V → Prop} {lat : Dict (LatNode V)}
    (hl : EveryEntry (LatIn A) lat) (n : Nat) : EveryEntry (LatIn A) (reduceLatents lat n) := by
  intro k v hm
  obtain ⟨⟨k', nd⟩, h1, h2⟩ := List.mem_map.1 hm
  have h := hl _ _ h1
  cases h2
  cases nd with
  | arr a => exact ArrIn.takeDev h n
  | sub d => exact EveryEntry.map h (f := fun a => a.takeDev n) fun k a ha => ha.takeDev n

theorem Maps.invoke {f : PyFun W V} {A : String → V → Prop} {B : V → Prop} (hf : Maps f A B)
    {args : Dict (PyVal V)} (ha : EveryEntry (fun k v => ValIn (A k) v) args) {w w' : W} {r : PyVal V}
    (h : f.invoke args w = (.ok r, w')) : ValIn B r := by
  unfold PyFun.invoke at h
  split at h
  · exact hf args w r w' ha h
  · cases h

variable [Inhabited V]

theorem getSingleIndex_in {A : String → V → Prop} {args a : Dict (PyVal V)}
    (ha : EveryEntry (fun k v => ValIn (A k) v) args) {i j k : Nat}
    (h : getSingleIndex args i j k = .ok a) : EveryEntry (fun k v => ValIn (A k) v) a := by
  induction args generalizing a with
  | nil => cases h; exact EveryEntry.nil
  | cons kv rest ih =>
    obtain ⟨key, val⟩ := kv
    have hr : EveryEntry (fun k v => ValIn (A k) v) rest := fun a b hab =>
      ha a b (List.mem_cons_of_mem _ hab)
    have hv : ValIn (A key) val := ha _ _ List.mem_cons_self
    cases val with
    | arr x =>
      simp only [getSingleIndex] at h
      split at h
      · rename_i hb
        split at h
        · rename_i new hnew
          cases h
          exact (ih hr hnew).cons (ArrIn.at hv hb.1 hb.2.1 hb.2.2)
        · cases h
      · cases h
    | scal x =>
      simp only [getSingleIndex] at h
      split at h
      · rename_i new hnew
        cases h
        exact (ih hr hnew).cons hv
      · cases h
    | npscal x => exact ih hr h

theorem Maps.loop {f : PyFun W V} {A : String → V → Prop} {B : V → Prop} (hf : Maps f A B)
    {args : Dict (PyVal V)} (ha : EveryEntry (fun k v => ValIn (A k) v) args) {L C D : Nat} {w w' : W}
    {r : Arr3 V} (h : loopCompute f args L C D w = (.ok r, w')) : ArrIn B r := by
  unfold loopCompute at h
  obtain ⟨xs, w1, h1, h2⟩ := M.bind_eq_ok.1 h
  obtain ⟨h2, -⟩ := M.ofExcept_eq_ok.1 h2
  refine ArrIn.reshape (fun x hx => ?_) h2
  have hall := M.mapList_ok h1
  have : ∀ (ps : List (Nat × Nat × Nat)) (xs : List V),
      List.Forall₂ (fun p y => ∃ w1 w2, loopBody f args p w1 = (.ok y, w2)) ps xs → ∀ x ∈ xs, B x := by
    intro ps xs hall
    induction hall with
    | nil => exact fun x hx => (nomatch hx)
    | cons hxy _ ih =>
      intro x hx
      rcases List.mem_cons.1 hx with rfl | hx
      · obtain ⟨u, u', hu⟩ := hxy
        unfold loopBody at hu
        obtain ⟨a, u1, h3, h4⟩ := M.bind_eq_ok.1 hu
        obtain ⟨h3, -⟩ := M.ofExcept_eq_ok.1 h3
        obtain ⟨r, u2, h5, h6⟩ := M.bind_eq_ok.1 h4
        have hr := hf.invoke (getSingleIndex_in ha h3) h5
        cases r with
        | scal v => cases h6; exact hr
        | npscal v => cases h6; exact hr
        | arr v => cases h6
      · exact ih x hx
  exact this _ _ hall x hx

end eqns

section
variable {W V : Type} [PyArith V]

theorem Maps.orLoop {f : PyFun W V} {A : String → V → Prop} {B : V → Prop} (hf : Maps f A B)
    {args : Dict (PyVal V)} (ha : EveryEntry (fun k v => ValIn (A k) v) args) {L C D : Nat} {w w' : W}
    {r : PyVal V} (h : computeOrLoop f args L C D w = (.ok r, w')) : ValIn B r := by
  unfold computeOrLoop M.catchValueError at h
  split at h
  · obtain ⟨a, h1, h2⟩ := M.bind_pure_ok.1 h
    subst h2
    exact hf.loop ha h1
  · exact hf.invoke ha h

end

end Gerabaldi.Spec
