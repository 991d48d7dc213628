import Verif.Model.Py
import Verif.Model.Num
import Mathlib.Data.Nat.Init
import Mathlib.Data.List.GetD
import Mathlib.Tactic.Ring
import Mathlib.Tactic.Linarith

/-!
# Three dimensional numpy arrays

Shape and row-major data (lot, chip, device). Only the operations gerabaldi uses.
-/

namespace Gerabaldi

/-- A numpy array of shape `(nl, nc, nd)` in C order. -/
structure Arr3 (V : Type) where
  nl : Nat
  nc : Nat
  nd : Nat
  data : List V
  wf : data.length = nl * nc * nd

instance {V : Type} [DecidableEq V] : DecidableEq (Arr3 V) := fun a b =>
  if h : a.nl = b.nl ∧ a.nc = b.nc ∧ a.nd = b.nd ∧ a.data = b.data then
    isTrue (by cases a; cases b; simp_all)
  else isFalse (by rintro rfl; exact h ⟨rfl, rfl, rfl, rfl⟩)

instance (priority := low) {V : Type} [PyArith V] : Inhabited V := ⟨PyArith.ofRat 0⟩

namespace Arr3
variable {V U T : Type}

/-- `a.shape == (L, C, D)`. -/
def HasDims (a : Arr3 V) (L C D : Nat) : Prop := a.nl = L ∧ a.nc = C ∧ a.nd = D

/-- `a[l, c, d]`; only meaningful within the shape. -/
def at' [Inhabited V] (a : Arr3 V) (l c d : Nat) : V := a.data.getD ((l * a.nc + c) * a.nd + d) default

/-- The array of shape `(L, C, D)` with `f l c d` at `[l, c, d]`. -/
def ofFn (L C D : Nat) (f : Nat → Nat → Nat → V) : Arr3 V where
  nl := L
  nc := C
  nd := D
  data := (List.range (L * C * D)).map fun i => f (i / (C * D)) (i / D % C) (i % D)
  wf := by simp

/-- `np.full((L, C, D), v)`. -/
def full (L C D : Nat) (v : V) : Arr3 V := ofFn L C D fun _ _ _ => v

/-- `np.array(xs).reshape((L, C, D))`: `ValueError` for another number of elements. -/
def reshape (L C D : Nat) (xs : List V) : Except Err (Arr3 V) :=
  if h : xs.length = L * C * D then .ok ⟨L, C, D, xs, h⟩ else .error .valueError

/-- A ufunc applied to one array. -/
def map (f : V → U) (a : Arr3 V) : Arr3 U := ⟨a.nl, a.nc, a.nd, a.data.map f, by simp [a.wf]⟩

/-- Numpy's rule for one axis: equal sizes, or one of them is 1. -/
def bdim (m n : Nat) : Option Nat :=
  if m = n then some m else if m = 1 then some n else if n = 1 then some m else none

/-- Index along a possibly broadcast axis of size `n`. -/
def bidx (n i : Nat) : Nat := if n = 1 then 0 else i

/-- Element read through broadcasting. -/
def bat [Inhabited V] (a : Arr3 V) (l c d : Nat) : V := a.at' (bidx a.nl l) (bidx a.nc c) (bidx a.nd d)

/-- A binary ufunc with numpy broadcasting: `ValueError` when the shapes do not match. -/
def bcast2 [Inhabited V] [Inhabited U] (f : V → U → T) (a : Arr3 V) (b : Arr3 U) :
    Except Err (Arr3 T) :=
  match bdim a.nl b.nl, bdim a.nc b.nc, bdim a.nd b.nd with
  | some L, some C, some D => .ok (ofFn L C D fun l c d => f (a.bat l c d) (b.bat l c d))
  | _, _, _ => .error .valueError

/-- `np.where(cond, x, y)` for arrays, with broadcasting of all three. -/
def where3 [Inhabited V] (cond : Arr3 Bool) (x y : Arr3 V) : Except Err (Arr3 V) :=
  match bcast2 (fun (b : Bool) (v : V) => (b, v)) cond x with
  | .error e => .error e
  | .ok bx => bcast2 (fun (bv : Bool × V) (w : V) => if bv.1 then bv.2 else w) bx y

/-- `a[:, :, :r]`. -/
def takeDev [Inhabited V] (a : Arr3 V) (r : Nat) : Arr3 V := ofFn a.nl a.nc (min r a.nd) a.at'

/-- `a[:r]`: the first axis. -/
def takeLot [Inhabited V] (a : Arr3 V) (r : Nat) : Arr3 V := ofFn (min r a.nl) a.nc a.nd a.at'

/-! ## Elementary facts -/

@[simp] theorem ofFn_nl (L C D : Nat) (f : Nat → Nat → Nat → V) : (ofFn L C D f).nl = L := rfl
@[simp] theorem ofFn_nc (L C D : Nat) (f : Nat → Nat → Nat → V) : (ofFn L C D f).nc = C := rfl
@[simp] theorem ofFn_nd (L C D : Nat) (f : Nat → Nat → Nat → V) : (ofFn L C D f).nd = D := rfl

theorem ofFn_hasDims (L C D : Nat) (f : Nat → Nat → Nat → V) : (ofFn L C D f).HasDims L C D :=
  ⟨rfl, rfl, rfl⟩

theorem index_lt {L C D l c d : Nat} (hl : l < L) (hc : c < C) (hd : d < D) :
    (l * C + c) * D + d < L * C * D := by
  have h1 : l * C + c + 1 ≤ L * C := by
    calc l * C + c + 1 ≤ l * C + C := by omega
      _ = (l + 1) * C := by ring
      _ ≤ L * C := Nat.mul_le_mul_right _ hl
  calc (l * C + c) * D + d < (l * C + c) * D + D := by omega
    _ = (l * C + c + 1) * D := by ring
    _ ≤ L * C * D := Nat.mul_le_mul_right _ h1

theorem index_decode {C D l c d : Nat} (hc : c < C) (hd : d < D) :
    ((l * C + c) * D + d) / (C * D) = l ∧ ((l * C + c) * D + d) / D % C = c ∧
      ((l * C + c) * D + d) % D = d := by
  have hD : 0 < D := by omega
  have hC : 0 < C := by omega
  have e1 : ((l * C + c) * D + d) / D = l * C + c := by
    rw [Nat.mul_comm, Nat.mul_add_div hD, Nat.div_eq_of_lt hd, Nat.add_zero]
  refine ⟨?_, ?_, ?_⟩
  · rw [Nat.mul_comm C D, ← Nat.div_div_eq_div_mul, e1, Nat.mul_comm, Nat.mul_add_div hC,
      Nat.div_eq_of_lt hc, Nat.add_zero]
  · rw [e1, Nat.mul_comm, Nat.mul_add_mod, Nat.mod_eq_of_lt hc]
  · rw [Nat.mul_comm, Nat.mul_add_mod, Nat.mod_eq_of_lt hd]

theorem decode_lt {L C D i : Nat} (hi : i < L * C * D) :
    i / (C * D) < L ∧ i / D % C < C ∧ i % D < D ∧
      (i / (C * D) * C + i / D % C) * D + i % D = i := by
  have hD : 0 < D := by
    rcases Nat.eq_zero_or_pos D with h | h
    · subst h; simp at hi
    · exact h
  have hC : 0 < C := by
    rcases Nat.eq_zero_or_pos C with h | h
    · subst h; simp at hi
    · exact h
  refine ⟨?_, Nat.mod_lt _ hC, Nat.mod_lt _ hD, ?_⟩
  · rw [Nat.div_lt_iff_lt_mul (Nat.mul_pos hC hD)]; rw [← Nat.mul_assoc]; exact hi
  · rw [Nat.mul_comm C D, ← Nat.div_div_eq_div_mul, Nat.div_add_mod', Nat.div_add_mod']

@[simp] theorem at_ofFn [Inhabited V] {L C D : Nat} (f : Nat → Nat → Nat → V) {l c d : Nat}
    (hl : l < L) (hc : c < C) (hd : d < D) : (ofFn L C D f).at' l c d = f l c d := by
  unfold at' ofFn
  have hi := index_lt hl hc hd
  obtain ⟨h1, h2, h3⟩ := index_decode (l := l) hc hd
  simp only
  rw [List.getD_eq_getElem?_getD, List.getElem?_map, List.getElem?_range hi]
  simp only [Option.map_some, Option.getD_some]
  rw [h1, h2, h3]

theorem at_full [Inhabited V] {L C D : Nat} (v : V) {l c d : Nat}
    (hl : l < L) (hc : c < C) (hd : d < D) : (full L C D v).at' l c d = v := by
  unfold full; rw [at_ofFn _ hl hc hd]

@[ext] theorem ext' {a b : Arr3 V} (h1 : a.nl = b.nl) (h2 : a.nc = b.nc) (h3 : a.nd = b.nd)
    (h4 : a.data = b.data) : a = b := by
  cases a; cases b; simp_all

/-- Arrays with equal shapes and equal elements are equal. -/
theorem ext_at [Inhabited V] {a b : Arr3 V} (h1 : a.nl = b.nl) (h2 : a.nc = b.nc)
    (h3 : a.nd = b.nd)
    (h : ∀ l < a.nl, ∀ c < a.nc, ∀ d < a.nd, a.at' l c d = b.at' l c d) : a = b := by
  apply ext' h1 h2 h3
  apply List.ext_getElem
  · rw [a.wf, b.wf, h1, h2, h3]
  · intro i hi hi'
    have hi2 : i < a.nl * a.nc * a.nd := by rw [← a.wf]; exact hi
    obtain ⟨e1, e2, e3, e4⟩ := decode_lt hi2
    have := h _ e1 _ e2 _ e3
    unfold at' at this
    rw [← h2, ← h3, e4] at this
    rw [List.getD_eq_getElem _ _ hi, List.getD_eq_getElem _ _ hi'] at this
    exact this

theorem ofFn_congr [Inhabited V] {L C D : Nat} {f g : Nat → Nat → Nat → V}
    (h : ∀ l < L, ∀ c < C, ∀ d < D, f l c d = g l c d) : ofFn L C D f = ofFn L C D g := by
  refine ext_at ?_ ?_ ?_ ?_ <;> try rfl
  intro l hl c hc d hd
  simp only [ofFn_nl, ofFn_nc, ofFn_nd] at hl hc hd
  rw [at_ofFn _ hl hc hd, at_ofFn _ hl hc hd, h l hl c hc d hd]

theorem eq_ofFn [Inhabited V] (a : Arr3 V) : a = ofFn a.nl a.nc a.nd a.at' := by
  refine ext_at ?_ ?_ ?_ ?_ <;> try rfl
  intro l hl c hc d hd
  rw [at_ofFn _ hl hc hd]

theorem at_mem [Inhabited V] (a : Arr3 V) {l c d : Nat} (hl : l < a.nl) (hc : c < a.nc)
    (hd : d < a.nd) : a.at' l c d ∈ a.data := by
  have hi : (l * a.nc + c) * a.nd + d < a.data.length := by
    rw [a.wf]; exact index_lt hl hc hd
  unfold at'
  rw [List.getD_eq_getElem _ _ hi]
  exact List.getElem_mem _

theorem at_map [Inhabited V] [Inhabited U] (f : V → U) (a : Arr3 V) {l c d : Nat}
    (hl : l < a.nl) (hc : c < a.nc) (hd : d < a.nd) :
    (a.map f).at' l c d = f (a.at' l c d) := by
  have hi : (l * a.nc + c) * a.nd + d < a.data.length := by
    rw [a.wf]; exact index_lt hl hc hd
  unfold at' map
  simp only
  rw [List.getD_eq_getElem _ _ (by simpa using hi), List.getD_eq_getElem _ _ hi, List.getElem_map]

@[simp] theorem map_nl (f : V → U) (a : Arr3 V) : (a.map f).nl = a.nl := rfl
@[simp] theorem map_nc (f : V → U) (a : Arr3 V) : (a.map f).nc = a.nc := rfl
@[simp] theorem map_nd (f : V → U) (a : Arr3 V) : (a.map f).nd = a.nd := rfl

theorem map_eq_ofFn [Inhabited V] [Inhabited U] (f : V → U) (a : Arr3 V) :
    a.map f = ofFn a.nl a.nc a.nd fun l c d => f (a.at' l c d) := by
  refine ext_at ?_ ?_ ?_ ?_ <;> try rfl
  intro l hl c hc d hd
  rw [at_map f a hl hc hd]
  exact (at_ofFn (fun l c d => f (a.at' l c d)) hl hc hd).symm

theorem reshape_ok {L C D : Nat} {xs : List V} (h : xs.length = L * C * D) :
    reshape L C D xs = .ok ⟨L, C, D, xs, h⟩ := by
  unfold reshape; rw [dif_pos h]

theorem reshape_eq_ok {L C D : Nat} {xs : List V} {a : Arr3 V} :
    reshape L C D xs = .ok a ↔ a.nl = L ∧ a.nc = C ∧ a.nd = D ∧ a.data = xs := by
  unfold reshape
  constructor
  · intro h
    split at h
    · cases h; exact ⟨rfl, rfl, rfl, rfl⟩
    · cases h
  · rintro ⟨rfl, rfl, rfl, rfl⟩
    rw [dif_pos a.wf]

@[simp] theorem bdim_self (n : Nat) : bdim n n = some n := by simp [bdim]
@[simp] theorem bdim_one_left (n : Nat) : bdim 1 n = some n := by
  unfold bdim; split
  · rename_i h; rw [h]
  · simp
@[simp] theorem bdim_one_right (n : Nat) : bdim n 1 = some n := by
  unfold bdim
  by_cases h : n = 1
  · simp [h]
  · simp [h]

theorem bidx_of_lt {n i : Nat} (h : i < n) : bidx n i = i := by
  unfold bidx; split
  · omega
  · rfl

theorem bat_of_lt [Inhabited V] (a : Arr3 V) {l c d : Nat} (hl : l < a.nl) (hc : c < a.nc)
    (hd : d < a.nd) : a.bat l c d = a.at' l c d := by
  unfold bat; rw [bidx_of_lt hl, bidx_of_lt hc, bidx_of_lt hd]

/-- Broadcasting of arrays of the same shape. -/
theorem bcast2_same [Inhabited V] [Inhabited U] [Inhabited T] (f : V → U → T) (a : Arr3 V)
    (b : Arr3 U) {L C D : Nat} (ha : a.HasDims L C D) (hb : b.HasDims L C D) :
    bcast2 f a b = .ok (ofFn L C D fun l c d => f (a.at' l c d) (b.at' l c d)) := by
  obtain ⟨rfl, rfl, rfl⟩ := ha
  obtain ⟨h1, h2, h3⟩ := hb
  unfold bcast2
  rw [h1, h2, h3, bdim_self, bdim_self, bdim_self]
  simp only
  congr 1
  apply ofFn_congr
  intro l hl c hc d hd
  rw [bat_of_lt a hl hc hd, bat_of_lt b (by omega) (by omega) (by omega)]

/-- Broadcasting with a `(L, C, 1)` array. -/
theorem bcast2_chp [Inhabited V] [Inhabited U] [Inhabited T] (f : V → U → T) (a : Arr3 V)
    (b : Arr3 U) {L C D : Nat} (ha : a.HasDims L C D) (hb : b.HasDims L C 1) :
    bcast2 f a b = .ok (ofFn L C D fun l c d => f (a.at' l c d) (b.at' l c 0)) := by
  obtain ⟨rfl, rfl, rfl⟩ := ha
  obtain ⟨h1, h2, h3⟩ := hb
  unfold bcast2
  rw [h1, h2, h3, bdim_self, bdim_self, bdim_one_right]
  simp only
  congr 1
  apply ofFn_congr
  intro l hl c hc d hd
  rw [bat_of_lt a hl hc hd]
  unfold bat
  rw [bidx_of_lt (by omega : l < b.nl), bidx_of_lt (by omega : c < b.nc), h3]
  rfl

/-- Broadcasting with a `(L, 1, 1)` array. -/
theorem bcast2_lot [Inhabited V] [Inhabited U] [Inhabited T] (f : V → U → T) (a : Arr3 V)
    (b : Arr3 U) {L C D : Nat} (ha : a.HasDims L C D) (hb : b.HasDims L 1 1) :
    bcast2 f a b = .ok (ofFn L C D fun l c d => f (a.at' l c d) (b.at' l 0 0)) := by
  obtain ⟨rfl, rfl, rfl⟩ := ha
  obtain ⟨h1, h2, h3⟩ := hb
  unfold bcast2
  rw [h1, h2, h3, bdim_self, bdim_one_right, bdim_one_right]
  simp only
  congr 1
  apply ofFn_congr
  intro l hl c hc d hd
  rw [bat_of_lt a hl hc hd]
  unfold bat
  rw [bidx_of_lt (by omega : l < b.nl), h2, h3]
  rfl

/-- Broadcasting of a `(L, C, 1)` array against a full one. -/
theorem bcast2_chp_left [Inhabited V] [Inhabited U] [Inhabited T] (f : V → U → T) (a : Arr3 V)
    (b : Arr3 U) {L C D : Nat} (ha : a.HasDims L C 1) (hb : b.HasDims L C D) :
    bcast2 f a b = .ok (ofFn L C D fun l c d => f (a.at' l c 0) (b.at' l c d)) := by
  obtain ⟨h1, h2, h3⟩ := ha
  obtain ⟨rfl, rfl, rfl⟩ := hb
  unfold bcast2
  rw [h1, h2, h3, bdim_self, bdim_self, bdim_one_left]
  simp only
  congr 1
  apply ofFn_congr
  intro l hl c hc d hd
  rw [bat_of_lt b hl hc hd]
  unfold bat
  rw [bidx_of_lt (by omega : l < a.nl), bidx_of_lt (by omega : c < a.nc), h3]
  rfl

theorem where3_same [Inhabited V] (cond : Arr3 Bool) (x y : Arr3 V) {L C D : Nat}
    (hc : cond.HasDims L C D) (hx : x.HasDims L C D) (hy : y.HasDims L C D) :
    where3 cond x y =
      .ok (ofFn L C D fun l c d => if cond.at' l c d then x.at' l c d else y.at' l c d) := by
  unfold where3
  rw [bcast2_same _ _ _ hc hx]
  simp only
  rw [bcast2_same _ _ _ (ofFn_hasDims L C D _) hy]
  congr 1
  apply ofFn_congr
  intro l hl c hc d hd
  rw [at_ofFn _ hl hc hd]

end Arr3

end Gerabaldi
