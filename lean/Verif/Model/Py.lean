/-!
# Python runtime fragments shared by the whole model

Exceptions as values, a world passing monad, insertion ordered dictionaries.
Nothing here is specific to gerabaldi.
-/

namespace Gerabaldi

/-- The exception classes that can escape the modelled functions.
`gerabaldi/exceptions.py:1-30` defines `MissingParamError`, `InvalidTypeError`,
`UserConfigError`; the rest are Python builtins. Messages are not modelled.
`unmodelled` marks behaviour that the model does not follow (it is never claimed to be
the exception Python raises). -/
inductive Err
  | keyError | typeError | valueError | attributeError | indexError | zeroDivision
  | overflow | notImplemented | stopIteration | userWarning | fileNotFound
  | userConfig | invalidType | missingParam
  | unmodelled
  deriving DecidableEq, Repr

deriving instance DecidableEq for Except

/-- A Python computation: it may read and change the world `W` (random generator states and
anything user supplied functions touch) and may raise. The world survives an exception. -/
def M (W : Type) (α : Type) : Type := W → Except Err α × W

namespace M
variable {W α β : Type}

/-- `return a`. -/
def pure (a : α) : M W α := fun w => (.ok a, w)

/-- Sequential execution; an exception skips the rest. -/
def bind (m : M W α) (f : α → M W β) : M W β := fun w =>
  match m w with
  | (.ok a, w') => f a w'
  | (.error e, w') => (.error e, w')

instance : Monad (M W) where
  pure := M.pure
  bind := M.bind

/-- `raise e`. -/
def throw (e : Err) : M W α := fun w => (.error e, w)

/-- Lift a computation that does not touch the world. -/
def ofExcept (x : Except Err α) : M W α := fun w => (x, w)

/-- `try: m except ValueError: h` (the only `except` that guards user code in gerabaldi). -/
def catchValueError (m : M W α) (h : M W α) : M W α := fun w =>
  match m w with
  | (.error .valueError, w') => h w'
  | r => r

@[simp] theorem pure_run (a : α) (w : W) : (Pure.pure a : M W α) w = (.ok a, w) := rfl

@[simp] theorem throw_run (e : Err) (w : W) : (throw e : M W α) w = (.error e, w) := rfl

@[simp] theorem ofExcept_run (x : Except Err α) (w : W) : (ofExcept x : M W α) w = (x, w) := rfl

theorem bind_run (m : M W α) (f : α → M W β) (w : W) :
    (m >>= f) w = match m w with
      | (.ok a, w') => f a w'
      | (.error e, w') => (.error e, w') := rfl

@[simp] theorem bind_ok {m : M W α} {f : α → M W β} {w w' : W} {a : α}
    (h : m w = (.ok a, w')) : (m >>= f) w = f a w' := by
  rw [bind_run, h]

@[simp] theorem bind_error {m : M W α} {f : α → M W β} {w w' : W} {e : Err}
    (h : m w = (.error e, w')) : (m >>= f) w = (.error e, w') := by
  rw [bind_run, h]

/-- Inversion of a successful sequential execution. -/
theorem bind_eq_ok {m : M W α} {f : α → M W β} {w w'' : W} {b : β} :
    (m >>= f) w = (.ok b, w'') ↔ ∃ a w', m w = (.ok a, w') ∧ f a w' = (.ok b, w'') := by
  rw [bind_run]
  constructor
  · intro h
    split at h
    · rename_i a w' hm
      exact ⟨a, w', hm, h⟩
    · simp at h
  · rintro ⟨a, w', hm, hf⟩
    rw [hm]; exact hf

@[simp] theorem pure_bind' (a : α) (f : α → M W β) : (Pure.pure a >>= f) = f a := rfl

@[simp] theorem bind_assoc' {γ : Type} (m : M W α) (f : α → M W β) (g : β → M W γ) :
    (m >>= f) >>= g = m >>= fun a => f a >>= g := by
  funext w
  rw [bind_run, bind_run, bind_run]
  cases h : m w with
  | mk r w' => cases r <;> rfl

@[simp] theorem bind_pure' (m : M W α) : (m >>= fun a => (Pure.pure a : M W α)) = m := by
  funext w
  rw [bind_run]
  cases h : m w with
  | mk r w' => cases r <;> rfl

instance : LawfulMonad (M W) := LawfulMonad.mk'
  (id_map := fun x => by
    show (x >>= fun a => Pure.pure (id a)) = x
    exact bind_pure' x)
  (pure_bind := fun _ _ => rfl)
  (bind_assoc := fun x f g => bind_assoc' x f g)

/-- `[f(x) for x in xs]`, in order. -/
def mapList (f : α → M W β) : List α → M W (List β)
  | [] => Pure.pure []
  | x :: xs => f x >>= fun y => mapList f xs >>= fun ys => Pure.pure (y :: ys)

/-- `for x in xs: acc = f(acc, x)`. -/
def forIn' (f : β → α → M W β) : List α → β → M W β
  | [], acc => Pure.pure acc
  | x :: xs, acc => f acc x >>= fun acc' => forIn' f xs acc'

theorem mapList_length {f : α → M W β} {xs : List α} {ys : List β} {w w' : W}
    (h : mapList f xs w = (.ok ys, w')) : ys.length = xs.length := by
  induction xs generalizing ys w with
  | nil => cases h; rfl
  | cons x xs ih =>
    obtain ⟨y, w1, _, h2⟩ := bind_eq_ok.1 h
    obtain ⟨zs, w2, h3, h4⟩ := bind_eq_ok.1 h2
    cases h4
    simp [ih h3]

theorem mapList_congr {f g : α → M W β} {xs : List α} (h : ∀ x ∈ xs, f x = g x) :
    mapList f xs = mapList g xs := by
  induction xs with
  | nil => rfl
  | cons x xs ih =>
    simp only [mapList]
    rw [h x List.mem_cons_self, ih fun y hy => h y (List.mem_cons_of_mem _ hy)]

/-- A loop whose body always succeeds without touching the world. -/
theorem mapList_pure {f : α → M W β} {g : α → β} {xs : List α} {w : W}
    (h : ∀ x ∈ xs, f x w = (.ok (g x), w)) : mapList f xs w = (.ok (xs.map g), w) := by
  induction xs with
  | nil => rfl
  | cons x xs ih =>
    simp only [mapList, List.map_cons]
    rw [bind_ok (h x List.mem_cons_self),
      bind_ok (ih fun y hy => h y (List.mem_cons_of_mem _ hy))]
    rfl

theorem forIn'_congr {f g : β → α → M W β} {xs : List α} (h : ∀ x ∈ xs, ∀ b, f b x = g b x)
    (b : β) : forIn' f xs b = forIn' g xs b := by
  induction xs generalizing b with
  | nil => rfl
  | cons x xs ih =>
    simp only [forIn']
    rw [h x List.mem_cons_self]
    congr 1
    funext b'
    exact ih (fun y hy => h y (List.mem_cons_of_mem _ hy)) b'

theorem forIn'_append (f : β → α → M W β) (xs ys : List α) (b : β) :
    forIn' f (xs ++ ys) b = (forIn' f xs b >>= fun b' => forIn' f ys b') := by
  induction xs generalizing b with
  | nil => rfl
  | cons x xs ih =>
    simp only [List.cons_append, forIn', bind_assoc']
    congr 1
    funext b'
    exact ih b'

end M

/-- A Python `dict` with string keys: insertion ordered, keys unique by construction
(`Dict.set` is the only way the model adds entries). -/
abbrev Dict (α : Type) := List (String × α)

namespace Dict
variable {α β : Type}

/-- `d.get(k)`. -/
def get? : Dict α → String → Option α
  | [], _ => none
  | (k', v) :: d, k => if k' = k then some v else get? d k

/-- `k in d`. -/
def has (d : Dict α) (k : String) : Bool := (d.get? k).isSome

/-- `d[k]`, raising `KeyError`. -/
def getE (d : Dict α) (k : String) : Except Err α :=
  match d.get? k with
  | some v => .ok v
  | none => .error .keyError

/-- `d[k] = v`: an existing key keeps its position. -/
def set : Dict α → String → α → Dict α
  | [], k, v => [(k, v)]
  | (k', v') :: d, k, v => if k' = k then (k, v) :: d else (k', v') :: set d k v

/-- `d.update(d')`. -/
def update (d : Dict α) (d' : Dict α) : Dict α := d'.foldl (fun acc kv => acc.set kv.1 kv.2) d

/-- `list(d.keys())`. -/
def keys (d : Dict α) : List String := d.map (·.1)

/-- Keys are pairwise different (an invariant of every Python dict). -/
def Nodup (d : Dict α) : Prop := d.keys.Nodup

instance (d : Dict α) : Decidable d.Nodup := inferInstanceAs (Decidable (List.Nodup _))

@[simp] theorem get?_nil (k : String) : get? ([] : Dict α) k = none := rfl

theorem get?_cons (k' k : String) (v : α) (d : Dict α) :
    get? ((k', v) :: d) k = if k' = k then some v else get? d k := rfl

theorem get?_set (d : Dict α) (k k' : String) (v : α) :
    (d.set k v).get? k' = if k = k' then some v else d.get? k' := by
  induction d with
  | nil => simp [set, get?]
  | cons hd d ih =>
    obtain ⟨k₀, v₀⟩ := hd
    simp only [set]
    by_cases h : k₀ = k
    · subst h; simp only [if_true, get?_cons]; split <;> rfl
    · simp only [h, if_false, get?_cons, ih]
      by_cases h2 : k₀ = k'
      · subst h2; simp [Ne.symm h]
      · simp [h2]

@[simp] theorem get?_set_self (d : Dict α) (k : String) (v : α) : (d.set k v).get? k = some v := by
  simp [get?_set]

theorem get?_set_ne (d : Dict α) {k k' : String} (v : α) (h : k ≠ k') :
    (d.set k v).get? k' = d.get? k' := by simp [get?_set, h]

theorem has_iff_mem_keys (d : Dict α) (k : String) : d.has k = true ↔ k ∈ d.keys := by
  induction d with
  | nil => simp [has, get?, keys]
  | cons hd d ih =>
    obtain ⟨k₀, v₀⟩ := hd
    simp only [has, get?_cons, keys, List.map_cons, List.mem_cons] at *
    by_cases h : k₀ = k
    · simp [h]
    · simp only [h, if_false]; rw [ih]; simp [Ne.symm h]

theorem get?_eq_none_iff (d : Dict α) (k : String) : d.get? k = none ↔ k ∉ d.keys := by
  rw [← has_iff_mem_keys]; simp [has]

theorem mem_keys_of_get? {d : Dict α} {k : String} {v : α} (h : d.get? k = some v) :
    k ∈ d.keys := by
  rw [← has_iff_mem_keys]; simp [has, h]

theorem mem_of_get? {d : Dict α} {k : String} {v : α} (h : d.get? k = some v) : (k, v) ∈ d := by
  induction d with
  | nil => simp at h
  | cons hd d ih =>
    obtain ⟨k₀, v₀⟩ := hd
    rw [get?_cons] at h
    by_cases h2 : k₀ = k
    · subst h2; simp at h; subst h; simp
    · simp only [h2, if_false] at h
      exact List.mem_cons_of_mem _ (ih h)

theorem get?_of_mem {d : Dict α} (hd : d.Nodup) {k : String} {v : α} (h : (k, v) ∈ d) :
    d.get? k = some v := by
  induction d with
  | nil => simp at h
  | cons hd' d ih =>
    obtain ⟨k₀, v₀⟩ := hd'
    simp only [Nodup, keys, List.map_cons, List.nodup_cons] at hd
    rw [get?_cons]
    rcases List.mem_cons.mp h with h | h
    · cases h; simp
    · have : k₀ ≠ k := by
        rintro rfl
        exact hd.1 (List.mem_map.mpr ⟨_, h, rfl⟩)
      simp only [this, if_false]
      exact ih hd.2 h

theorem keys_set (d : Dict α) (k : String) (v : α) :
    (d.set k v).keys = if k ∈ d.keys then d.keys else d.keys ++ [k] := by
  induction d with
  | nil => simp [set, keys]
  | cons hd d ih =>
    obtain ⟨k₀, v₀⟩ := hd
    simp only [set]
    by_cases h : k₀ = k
    · subst h; simp [keys]
    · simp only [h, if_false]
      simp only [keys, List.map_cons, List.mem_cons, Ne.symm h, false_or] at *
      rw [ih]; split <;> simp_all

theorem Nodup.set {d : Dict α} (h : d.Nodup) (k : String) (v : α) : (d.set k v).Nodup := by
  unfold Nodup at *
  rw [keys_set]
  split
  · exact h
  · rename_i hk
    rw [List.nodup_append]
    refine ⟨h, by simp, ?_⟩
    intro a ha b hb
    simp at hb; subst hb
    rintro rfl; exact hk ha

theorem set_append_of_not_mem {d : Dict α} {k : String} (v : α) (h : k ∉ d.keys) :
    d.set k v = d ++ [(k, v)] := by
  induction d with
  | nil => simp [set]
  | cons hd d ih =>
    obtain ⟨k₀, v₀⟩ := hd
    simp only [keys, List.map_cons, List.mem_cons, not_or] at h
    simp only [set, Ne.symm h.1, if_false, List.cons_append]
    rw [ih h.2]

theorem get?_update (d d' : Dict α) (k : String) (hd' : d'.Nodup) :
    (d.update d').get? k = (d'.get? k).or (d.get? k) := by
  unfold update
  induction d' generalizing d with
  | nil => simp
  | cons hd t ih =>
    obtain ⟨k₀, v₀⟩ := hd
    simp only [List.foldl_cons]
    simp only [Nodup, keys, List.map_cons, List.nodup_cons] at hd'
    rw [ih _ hd'.2, get?_set, get?_cons]
    by_cases h : k₀ = k
    · subst h
      have : get? t k₀ = none := (get?_eq_none_iff _ _).2 hd'.1
      simp [this]
    · simp [h]

theorem get?_append (d d' : Dict α) (k : String) :
    get? (d ++ d') k = (get? d k).or (get? d' k) := by
  induction d with
  | nil => simp
  | cons hd d ih =>
    obtain ⟨k₀, v₀⟩ := hd
    simp only [List.cons_append, get?_cons]
    split
    · simp
    · exact ih

theorem getE_eq_ok {d : Dict α} {k : String} {v : α} : d.getE k = .ok v ↔ d.get? k = some v := by
  unfold getE; split <;> simp_all

theorem getE_eq_error {d : Dict α} {k : String} {e : Err} :
    d.getE k = .error e ↔ e = .keyError ∧ d.get? k = none := by
  unfold getE
  split
  · rename_i h; simp [h]
  · rename_i h; simp [h, eq_comm]

end Dict

end Gerabaldi
