import Verif.Model.Build
import Verif.Lemmas.Loop
import Verif.Model.Ext
import Verif.Spec.Helpers

/-! # Facts about mechanism equations and their arguments -/

namespace Gerabaldi
open Spec

variable {W V : Type}

theorem fillArgs_get? (src : String → Option (PyVal V)) (names : List String) (acc : Dict (PyVal V))
    (k : String) :
    (fillArgs src names acc).get? k = if k ∈ names then (src k).or (acc.get? k) else acc.get? k := by
  induction names generalizing acc with
  | nil => simp [fillArgs]
  | cons a as ih =>
    simp only [fillArgs]
    rw [ih]
    by_cases ha : a = k
    · subst ha
      cases hs : src a with
      | none => simp
      | some v =>
        simp only [List.mem_cons, true_or, if_true]
        split <;> simp
    · cases hs : src a with
      | none => simp only [List.mem_cons, Ne.symm ha, false_or]
      | some v =>
        simp only
        rw [Dict.get?_set_ne _ _ ha]
        simp only [List.mem_cons, Ne.symm ha, false_or]

theorem fillArgs_nodup (src : String → Option (PyVal V)) (names : List String) {acc : Dict (PyVal V)}
    (h : acc.Nodup) : (fillArgs src names acc).Nodup := by
  induction names generalizing acc with
  | nil => exact h
  | cons a as ih =>
    simp only [fillArgs]
    apply ih
    cases src a with
    | none => exact h
    | some v => exact h.set a v

theorem fillArgs_has (src : String → Option (PyVal V)) (names : List String) {acc : Dict (PyVal V)}
    {k : String} (h : acc.has k = true) : (fillArgs src names acc).has k = true := by
  unfold Dict.has at *
  rw [fillArgs_get?]
  split
  · cases src k with
    | none => simpa using h
    | some v => simp
  · exact h

theorem fillMissing_get? (src : String → Option (PyVal V)) (names : List String)
    (acc : Dict (PyVal V)) (k : String) :
    (fillMissing src names acc).get? k =
      (acc.get? k).or (if k ∈ names then src k else none) := by
  induction names generalizing acc with
  | nil => simp [fillMissing]
  | cons a as ih =>
    simp only [fillMissing]
    rw [ih]
    by_cases hh : acc.has a = true
    · rw [if_pos hh]
      by_cases ha : k = a
      · subst ha
        unfold Dict.has at hh
        cases hg : acc.get? k with
        | none => simp [hg] at hh
        | some v => simp
      · simp [ha]
    · rw [if_neg hh]
      have hn : acc.get? a = none := by
        unfold Dict.has at hh
        cases hg : acc.get? a with
        | none => rfl
        | some v => simp [hg] at hh
      by_cases ha : k = a
      · subst ha
        cases hs : src k with
        | none => simp [hn]
        | some v => simp [hn]
      · cases hs : src a with
        | none => simp [ha]
        | some v =>
          simp only
          rw [Dict.get?_set_ne _ _ (Ne.symm ha)]
          simp [ha]

/-- An equation without parameters does not accept a keyword argument. -/
theorem no_params_invoke {f : PyFun W V} (hp : f.params = []) (hk : f.kwName = none)
    {args : Dict (PyVal V)} (hne : args ≠ []) (w : W) : f.invoke args w = (.error .typeError, w) := by
  unfold PyFun.invoke
  have : f.accepts args = false := by
    unfold PyFun.accepts
    rw [hp, hk]
    cases args with
    | nil => exact absurd rfl hne
    | cons a as => simp
  rw [this]
  rfl

variable [PyNum V]

omit [PyNum V] in
theorem mech_args_time (m : MechMdl W V) (times : Arr3 V) (conds lat : Dict (Arr3 V)) :
    m.args times conds lat ≠ [] := by
  have : (m.args times conds lat).has "time" = true := fillArgs_has _ _ rfl
  intro h
  rw [h] at this
  simp [Dict.has] at this

/-- `np.inf == np.inf`. -/
class InfLaw (V : Type) [PyNum V] : Prop where
  eq_inf : PyArith.eq (PyNum.inf : V) PyNum.inf = true

instance {K : Type} [Field K] [LinearOrder K] [FloorRing K] [Pow10 K] : InfLaw (Ext K) := ⟨rfl⟩

theorem calcDegVals_fail {m : MechMdl W V} (h : m.kind = .fail) (times pre : Arr3 V)
    (conds lat : Dict (Arr3 V)) (L C D : Nat) : m.calcDegVals times pre conds lat L C D =
      (m.calcDegBase times pre conds lat L C D >>= fun r =>
        M.ofExcept (Arr3.bcast2 (fun p v => if !(PyArith.eq p m.unitary) then p else v) pre r)) := by
  unfold MechMdl.calcDegVals
  rw [h]

theorem calcDegVals_other {m : MechMdl W V} (h : m.kind ≠ .fail) (times pre : Arr3 V)
    (conds lat : Dict (Arr3 V)) (L C D : Nat) : m.calcDegVals times pre conds lat L C D =
      m.calcDegBase times pre conds lat L C D := by
  unfold MechMdl.calcDegVals
  cases hk : m.kind with
  | fail => exact absurd hk h
  | deg => rfl
  | base => rfl

/-- An elementwise mechanism equation on arrays of one shape. -/
theorem args_elementwise {m : MechMdl W V} {g : Dict (PyVal V) → V} (hg : Elementwise m.mdl.compute g)
    {times : Arr3 V} {conds lat : Dict (Arr3 V)} {L C D : Nat} (ht : times.HasDims L C D)
    (hc : ∀ k a, conds.get? k = some a → a.HasDims L C D)
    (hl : ∀ k a, lat.get? k = some a → a.HasDims L C D)
    (hacc : m.mdl.compute.accepts (m.args times conds lat) = true) (w : W) :
    ∃ r, m.mdl.compute.invoke (m.args times conds lat) w = (.ok (.arr r), w) ∧ r.HasDims L C D ∧
      ∀ l < L, ∀ c < C, ∀ d < D, r.at' l c d = g (sampleArgs (m.args times conds lat) l c d) := by
  have hnd : (m.args times conds lat).Nodup := fillArgs_nodup _ _ (by simp [Dict.Nodup, Dict.keys])
  have hshape : uniformShape (m.args times conds lat) L C D := by
    intro k a hka
    have h := Dict.get?_of_mem hnd hka
    unfold MechMdl.args at h
    rw [fillArgs_get?] at h
    have h0 : ∀ x, Dict.get? [("time", PyVal.arr times)] k = some (PyVal.arr x) → x.HasDims L C D := by
      intro x hx
      rw [Dict.get?_cons] at hx
      split at hx
      · cases hx; exact ht
      · cases hx
    split at h
    · unfold lookup2 at h
      cases h1 : lat.get? k with
      | some b =>
        simp only [h1, Option.some_or] at h
        cases h
        exact hl _ _ h1
      | none =>
        simp only [h1] at h
        cases h2 : conds.get? k with
        | some b =>
          simp only [h2, Option.map_some, Option.some_or] at h
          cases h
          exact hc _ _ h2
        | none =>
          simp only [h2, Option.map_none, Option.none_or] at h
          exact h0 _ h
    · exact h0 _ h
  have harr : ∃ k a, (k, PyVal.arr a) ∈ m.args times conds lat := by
    have hh : (m.args times conds lat).has "time" = true := fillArgs_has _ _ rfl
    obtain ⟨v, hv⟩ := Option.isSome_iff_exists.1 hh
    have hv' := hv
    unfold MechMdl.args at hv'
    rw [fillArgs_get?] at hv'
    have : ∃ a, v = PyVal.arr a := by
      have h0 : Dict.get? [("time", PyVal.arr times)] "time" = some (PyVal.arr times) := rfl
      rw [h0] at hv'
      unfold lookup2 at hv'
      cases h1 : lat.get? "time" <;> cases h2 : conds.get? "time" <;> simp only [h1, h2] at hv' <;>
        split at hv' <;> simp at hv' <;> exact ⟨_, hv'.symm⟩
    obtain ⟨a, rfl⟩ := this
    exact ⟨_, _, Dict.mem_of_get? hv⟩
  obtain ⟨r, h1, h2, h3⟩ := hg.onArrays _ L C D hnd hshape harr hacc w
  exact ⟨r, by unfold PyFun.invoke; rw [if_pos hacc]; exact h1, h2, h3⟩

theorem computeOrLoop_typeError {f : PyFun W V} {args : Dict (PyVal V)} {L C D : Nat} {w w' : W}
    (h : f.invoke args w = (.error .typeError, w')) :
    computeOrLoop f args L C D w = (.error .typeError, w') := by
  unfold computeOrLoop M.catchValueError
  rw [h]

/-! ## Broadcasting -/

/-- An array that broadcasts to shape `(L, C, D)`. -/
def Arr3.Fits (a : Arr3 V) (L C D : Nat) : Prop :=
  (a.nl = L ∨ a.nl = 1) ∧ (a.nc = C ∨ a.nc = 1) ∧ (a.nd = D ∨ a.nd = 1)

omit [PyNum V] in
theorem bdim_fits {m n : Nat} (h : n = m ∨ n = 1) : Arr3.bdim m n = some m := by
  rcases h with rfl | rfl
  · exact Arr3.bdim_self _
  · exact Arr3.bdim_one_right _

theorem bcast2_fits {U : Type} [Inhabited U] (f : V → V → U) (a b : Arr3 V) {L C D : Nat}
    (ha : a.HasDims L C D) (hb : b.Fits L C D) :
    Arr3.bcast2 f a b = .ok (Arr3.ofFn L C D fun l c d => f (a.at' l c d) (b.bat l c d)) := by
  obtain ⟨rfl, rfl, rfl⟩ := ha
  unfold Arr3.bcast2
  rw [bdim_fits hb.1, bdim_fits hb.2.1, bdim_fits hb.2.2]
  simp only
  congr 1
  apply Arr3.ofFn_congr
  intro l hl c hc d hd
  rw [Arr3.bat_of_lt a hl hc hd]

omit [PyNum V] in
theorem bdim_some {m n k : Nat} (h : Arr3.bdim m n = some k) : (k = m ∨ m = 1) ∧ (k = n ∨ n = 1) := by
  unfold Arr3.bdim at h
  split at h
  · rename_i e; cases h; exact ⟨.inl rfl, .inl e⟩
  · split at h
    · rename_i e; cases h; exact ⟨.inr e, .inl rfl⟩
    · split at h
      · rename_i e; cases h; exact ⟨.inl rfl, .inr e⟩
      · cases h

omit [PyNum V] in
theorem bcast2_ok {U T : Type} [Inhabited V] [Inhabited U] {f : V → U → T} {a : Arr3 V} {b : Arr3 U}
    {r : Arr3 T} (h : Arr3.bcast2 f a b = .ok r) :
    Arr3.bdim a.nl b.nl = some r.nl ∧ Arr3.bdim a.nc b.nc = some r.nc ∧ Arr3.bdim a.nd b.nd = some r.nd ∧
      r = Arr3.ofFn r.nl r.nc r.nd fun l c d => f (a.bat l c d) (b.bat l c d) := by
  unfold Arr3.bcast2 at h
  split at h
  · rename_i L C D h1 h2 h3
    cases h
    exact ⟨h1, h2, h3, rfl⟩
  · cases h

/-- A sample that has failed keeps its value in `FailMechMdl.calc_deg_vals`; an axis only changes its size
from 1. -/
theorem fail_keeps {m : MechMdl W V} (hk : m.kind = .fail) {times pre v : Arr3 V}
    {conds lat : Dict (Arr3 V)} {L C D : Nat} {w w' : W}
    (h : m.calcDegVals times pre conds lat L C D w = (.ok v, w')) :
    (v.nl = pre.nl ∨ pre.nl = 1) ∧ (v.nc = pre.nc ∨ pre.nc = 1) ∧ (v.nd = pre.nd ∨ pre.nd = 1) ∧
    ∀ l c d, l < pre.nl → c < pre.nc → d < pre.nd → l < v.nl → c < v.nc → d < v.nd →
      PyArith.eq (pre.at' l c d) m.unitary = false → v.at' l c d = pre.at' l c d := by
  rw [calcDegVals_fail hk] at h
  obtain ⟨r, w1, _, h⟩ := M.bind_eq_ok.1 h
  obtain ⟨h, -⟩ := M.ofExcept_eq_ok.1 h
  obtain ⟨h1, h2, h3, h4⟩ := bcast2_ok h
  refine ⟨(bdim_some h1).1, (bdim_some h2).1, (bdim_some h3).1, ?_⟩
  intro l c d hl hc hd hl' hc' hd' hne
  rw [h4, Arr3.at_ofFn _ hl' hc' hd', Arr3.bat_of_lt _ hl hc hd, hne]
  rfl

theorem Arr3.takeDev_hasDims (a : Arr3 V) {n : Nat} (h : n ≤ a.nd) : (a.takeDev n).HasDims a.nl a.nc n := by
  unfold Arr3.takeDev
  rw [Nat.min_eq_left h]
  exact Arr3.ofFn_hasDims _ _ _ _

theorem Arr3.at_takeDev (a : Arr3 V) {n l c d : Nat} (h : n ≤ a.nd) (hl : l < a.nl) (hc : c < a.nc)
    (hd : d < n) : (a.takeDev n).at' l c d = a.at' l c d := by
  unfold Arr3.takeDev
  rw [Arr3.at_ofFn _ hl hc (by rw [Nat.min_eq_left h]; exact hd)]

/-! ## Values that stand for a function of the sample -/

/-- The value at each sample of an `L x C x D` grid is `g`. -/
def Like (v : PyVal V) (L C D : Nat) (g : Nat → Nat → Nat → V) : Prop :=
  match v with
  | .arr a => a.HasDims L C D ∧ ∀ l < L, ∀ c < C, ∀ d < D, a.at' l c d = g l c d
  | .scal x => ∀ l < L, ∀ c < C, ∀ d < D, g l c d = x
  | .npscal x => ∀ l < L, ∀ c < C, ∀ d < D, g l c d = x

omit [PyNum V] in
/-- The value is an array. -/
def PyVal.isArr : PyVal V → Bool
  | .arr _ => true
  | _ => false

theorem bin_like (f : V → V → V) {v v' : PyVal V} {L C D : Nat} {g g' : Nat → Nat → Nat → V}
    (h : Like v L C D g) (h' : Like v' L C D g') :
    ∃ r, PyVal.bin f v v' = .ok r ∧ Like r L C D (fun l c d => f (g l c d) (g' l c d)) ∧
      r.isArr = (v.isArr || v'.isArr) := by
  have amap : ∀ (a : Arr3 V) (k : V → V), a.HasDims L C D → ∀ l < L, ∀ c < C, ∀ d < D,
      (a.map k).at' l c d = k (a.at' l c d) := by
    intro a k ha l hl c hc d hd
    obtain ⟨rfl, rfl, rfl⟩ := ha
    exact Arr3.at_map k a hl hc hd
  cases v <;> cases v'
  case arr.arr a b =>
    refine ⟨.arr (Arr3.ofFn L C D fun l c d => f (a.at' l c d) (b.at' l c d)),
      by rw [PyVal.bin, Arr3.bcast2_same _ _ _ h.1 h'.1], ⟨Arr3.ofFn_hasDims _ _ _ _, ?_⟩, rfl⟩
    intro l hl c hc d hd
    show _ = f (g l c d) (g' l c d)
    rw [Arr3.at_ofFn _ hl hc hd, h.2 l hl c hc d hd, h'.2 l hl c hc d hd]
  case arr.scal a y =>
    refine ⟨_, rfl, ⟨h.1, ?_⟩, rfl⟩
    intro l hl c hc d hd
    show _ = f (g l c d) (g' l c d)
    rw [amap a _ h.1 l hl c hc d hd, h.2 l hl c hc d hd, h' l hl c hc d hd]
  case arr.npscal a y =>
    refine ⟨_, rfl, ⟨h.1, ?_⟩, rfl⟩
    intro l hl c hc d hd
    show _ = f (g l c d) (g' l c d)
    rw [amap a _ h.1 l hl c hc d hd, h.2 l hl c hc d hd, h' l hl c hc d hd]
  case scal.arr x b =>
    refine ⟨_, rfl, ⟨h'.1, ?_⟩, rfl⟩
    intro l hl c hc d hd
    show _ = f (g l c d) (g' l c d)
    rw [amap b _ h'.1 l hl c hc d hd, h'.2 l hl c hc d hd, h l hl c hc d hd]
  case npscal.arr x b =>
    refine ⟨_, rfl, ⟨h'.1, ?_⟩, rfl⟩
    intro l hl c hc d hd
    show _ = f (g l c d) (g' l c d)
    rw [amap b _ h'.1 l hl c hc d hd, h'.2 l hl c hc d hd, h l hl c hc d hd]
  all_goals
    refine ⟨_, rfl, ?_, rfl⟩
    intro l hl c hc d hd
    show f (g l c d) (g' l c d) = _
    rw [h l hl c hc d hd, h' l hl c hc d hd]

/-- Adding up the values of a dictionary. -/
theorem foldlM_like (args : Dict (PyVal V)) {L C D : Nat} (g : String × PyVal V → Nat → Nat → Nat → V)
    (hg : ∀ kv ∈ args, Like kv.2 L C D (g kv)) (acc : PyVal V) (g0 : Nat → Nat → Nat → V)
    (h0 : Like acc L C D g0) :
    ∃ r, args.foldlM (fun acc kv => PyVal.bin PyArith.add acc kv.2) acc = .ok r ∧
      Like r L C D (fun l c d => (args.map fun kv => g kv l c d).foldl PyArith.add (g0 l c d)) := by
  induction args generalizing acc g0 with
  | nil => exact ⟨acc, rfl, h0⟩
  | cons kv rest ih =>
    obtain ⟨r1, e1, l1, -⟩ := bin_like PyArith.add h0 (hg kv List.mem_cons_self)
    obtain ⟨r2, e2, l2⟩ := ih (fun x hx => hg x (List.mem_cons_of_mem _ hx)) r1 _ l1
    refine ⟨r2, ?_, l2⟩
    rw [List.foldlM_cons, e1]
    exact e2

end Gerabaldi
