import Verif.Lemmas.Minimize
import Verif.Model.Ext
import Verif.Model.Field
import Mathlib.Algebra.Order.Field.Basic
import Mathlib.Data.Rat.Cast.Order
import Mathlib.Tactic.FieldSimp
import Mathlib.Tactic.NormNum

/-!
# The search over an ordered field, and number types that contain one
-/

namespace Gerabaldi

/-- `emb` identifies `K` with the finite numbers of `V`: on those, `V` computes exactly. Nothing is
assumed about the other values of `V` or about division by zero. -/
structure FinEmb (K V : Type) [Field K] [LinearOrder K] [PyArith V] where
  emb : K → V
  add : ∀ a b, PyArith.add (emb a) (emb b) = emb (a + b)
  sub : ∀ a b, PyArith.sub (emb a) (emb b) = emb (a - b)
  mul : ∀ a b, PyArith.mul (emb a) (emb b) = emb (a * b)
  div : ∀ a b, b ≠ 0 → PyArith.div (emb a) (emb b) = emb (a / b)
  neg : ∀ a, PyArith.neg (emb a) = emb (-a)
  abs : ∀ a, PyArith.abs (emb a) = emb |a|
  lt : ∀ a b, PyArith.lt (emb a) (emb b) = decide (a < b)
  le : ∀ a b, PyArith.le (emb a) (emb b) = decide (a ≤ b)
  eq : ∀ a b, PyArith.eq (emb a) (emb b) = decide (a = b)
  ofRat : ∀ q : ℚ, PyArith.ofRat q = emb (q : K)

section
variable {V : Type} [PyArith V]
open PyArith

/-- Denominator of the parabolic step (sign not yet normalised). -/
def BState.paraQ (c : MinCfg V) (s : BState V) : V :=
  mul (ofRat 2) (sub
    (mul (if gt (PyArith.abs s.e) (s.tol c) then sub s.x s.v else ofRat 0) (sub s.fx s.fw))
    (mul (if gt (PyArith.abs s.e) (s.tol c) then sub s.x s.w else ofRat 0) (sub s.fx s.fv)))

/-- Numerator of the parabolic step (sign not yet normalised). -/
def BState.paraP (c : MinCfg V) (s : BState V) : V :=
  let xdiff1 := if gt (PyArith.abs s.e) (s.tol c) then sub s.x s.w else ofRat 0
  let xdiff2 := if gt (PyArith.abs s.e) (s.tol c) then sub s.x s.v else ofRat 0
  sub (mul xdiff2 (mul xdiff2 (sub s.fx s.fw))) (mul xdiff1 (mul xdiff1 (sub s.fx s.fv)))

/-- Whether a parabolic step is attempted. -/
def BState.usePara (c : MinCfg V) (s : BState V) : Bool :=
  gt (PyArith.abs s.e) (s.tol c) && !(eq (s.paraQ c) (ofRat 0))

/-- The step, given whether a parabolic step is attempted and which. -/
def BState.stepTail (c : MinCfg V) (s : BState V) (usePara : Bool) (pq : V) : V :=
  let m := s.mid
  let tol := s.tol c
  let tol2 := s.tol2 c
  let furtherBoundary := if ge s.x m then s.a else s.b
  let gold := mul c.gf2 (sub furtherBoundary s.x)
  let step0 := if usePara then pq else gold
  let uTent0 := add s.x step0
  let changeToGold := usePara &&
    (lt s.b uTent0 || gt s.a uTent0 || gt (PyArith.abs step0) (mul (ofRat (1 / 2)) (PyArith.abs s.e)))
  let step1 := if changeToGold then gold else step0
  let uTent := if changeToGold then add s.x step1 else uTent0
  let step2 := if lt (sub uTent s.a) tol2 || lt (sub s.b uTent) tol2 then
    (if lt s.x m then tol else neg tol) else step1
  if lt (PyArith.abs step2) tol then (if gt step2 (ofRat 0) then tol else neg tol) else step2

/-- The two corrections of a tentative step: stay away from the bracket ends and from `x`. -/
def BState.clamp (c : MinCfg V) (s : BState V) (st : V) : V :=
  let m := s.mid
  let tol := s.tol c
  let tol2 := s.tol2 c
  let step2 := if lt (sub (add s.x st) s.a) tol2 || lt (sub s.b (add s.x st)) tol2 then
    (if lt s.x m then tol else neg tol) else st
  if lt (PyArith.abs step2) tol then (if gt step2 (ofRat 0) then tol else neg tol) else step2

theorem BState.stepTail_clamp (c : MinCfg V) (s : BState V) (up : Bool) (pq : V) :
    ∃ st, s.stepTail c up pq = s.clamp c st := by
  simp only [BState.stepTail]
  generalize mul c.gf2 _ = gold
  generalize (if up then pq else gold) = st0
  generalize (up && (_ || _ || _)) = chg
  cases chg with
  | false => exact ⟨st0, rfl⟩
  | true => exact ⟨gold, rfl⟩

theorem BState.step_eq (c : MinCfg V) (s : BState V) :
    s.step c = s.stepTail c (s.usePara c) (div
      (if gt (s.paraQ c) (ofRat 0) then neg (if s.usePara c then s.paraP c else ofRat 0)
        else if s.usePara c then s.paraP c else ofRat 0) (PyArith.abs (s.paraQ c))) := rfl

end

section
variable {K V : Type} [Field K] [LinearOrder K] [PyArith V]

/-- A field is contained in itself. -/
def FinEmb.id (K : Type) [Field K] [LinearOrder K] : @FinEmb K K _ _ (fieldArith K) :=
  letI := fieldArith K
  { emb := fun x => x, add := fun _ _ => rfl, sub := fun _ _ => rfl, mul := fun _ _ => rfl,
    div := fun _ _ _ => rfl, neg := fun _ => rfl, abs := fun _ => rfl, lt := fun _ _ => rfl,
    le := fun _ _ => rfl, eq := fun _ _ => rfl, ofRat := fun _ => rfl }

/-- Finite search parameters. -/
structure CfgEmb (E : FinEmb K V) (c : MinCfg V) (k : MinCfg K) : Prop where
  gf2 : c.gf2 = E.emb k.gf2
  relTol : c.relTol = E.emb k.relTol
  absTol : c.absTol = E.emb k.absTol
  lo : c.lo = E.emb k.lo
  hi : c.hi = E.emb k.hi

/-- Finite loop variables. -/
def BState.map {A B : Type} (f : A → B) (s : BState A) : BState B :=
  { a := f s.a, b := f s.b, v := f s.v, w := f s.w, x := f s.x, fv := f s.fv, fw := f s.fw,
    fx := f s.fx, d := f s.d, e := f s.e }

section
attribute [local instance] fieldArith
omit [PyArith V]
theorem fa_add (a b : K) : PyArith.add a b = a + b := rfl
theorem fa_sub (a b : K) : PyArith.sub a b = a - b := rfl
theorem fa_mul (a b : K) : PyArith.mul a b = a * b := rfl
theorem fa_div (a b : K) : PyArith.div a b = a / b := rfl
theorem fa_neg (a : K) : PyArith.neg a = -a := rfl
theorem fa_abs (a : K) : PyArith.abs a = |a| := rfl
theorem fa_lt (a b : K) : PyArith.lt a b = decide (a < b) := rfl
theorem fa_le (a b : K) : PyArith.le a b = decide (a ≤ b) := rfl
theorem fa_eq (a b : K) : PyArith.eq a b = decide (a = b) := rfl
theorem fa_ofRat (q : ℚ) : (PyArith.ofRat q : K) = (q : K) := rfl
end

theorem map_ite (E : FinEmb K V) (p : Bool) (a b : K) :
    (if p then E.emb a else E.emb b) = E.emb (if p then a else b) := by
  cases p <;> rfl

section
variable [IsStrictOrderedRing K] (E : FinEmb K V) {c : MinCfg V} {k : MinCfg K} (hc : CfgEmb E c k)
attribute [local instance] fieldArith
open PyArith hiding abs

theorem mid_map (s : BState K) : (s.map E.emb).mid = E.emb s.mid := by
  have h2 : ((2 : ℚ) : K) ≠ 0 := by norm_num
  simp only [BState.mid, BState.map, E.add, E.ofRat]
  rw [E.div _ _ h2]
  rfl

include hc in
theorem tol_map (s : BState K) : (s.map E.emb).tol c = E.emb (s.tol k) := by
  simp only [BState.tol, BState.map, E.add, E.mul, E.abs, hc.relTol, hc.absTol]
  rfl

include hc in
theorem tol2_map (s : BState K) : (s.map E.emb).tol2 c = E.emb (s.tol2 k) := by
  simp only [BState.tol2, tol_map E hc, E.mul, E.ofRat]
  rfl

include hc in
theorem done_map (s : BState K) : (s.map E.emb).done c = s.done k := by
  simp only [BState.done, mid_map, tol2_map E hc]
  simp only [BState.map, E.sub, E.abs, E.lt]
  rfl

include hc in
theorem init_map (f0 : K) : c.init (E.emb f0) = (k.init f0).map E.emb := by
  simp only [MinCfg.init, MinCfg.x0, BState.map, hc.lo, hc.hi, hc.gf2, E.add, E.sub, E.mul, E.ofRat]
  rfl

include hc in
theorem stepTail_map (s : BState K) (up : Bool) (y : V) (z : K) (h : up = true → y = E.emb z) :
    (s.map E.emb).stepTail c up y = E.emb (s.stepTail k up z) := by
  simp only [BState.stepTail, mid_map, tol2_map E hc, tol_map E hc, PyArith.gt, PyArith.ge]
  cases up with
  | false =>
    simp only [BState.map, E.sub, E.abs, E.lt, E.le, E.mul, E.add, E.ofRat, hc.gf2, E.eq, E.neg,
      map_ite, Bool.false_and, Bool.false_eq_true, if_false]
    rfl
  | true =>
    rw [h rfl]
    simp only [BState.map, E.sub, E.abs, E.lt, E.le, E.mul, E.add, E.ofRat, hc.gf2, E.eq, E.neg,
      map_ite, Bool.true_and, if_true]
    rfl

include hc in
theorem paraQ_map (s : BState K) : (s.map E.emb).paraQ c = E.emb (s.paraQ k) := by
  simp only [BState.paraQ, tol_map E hc, PyArith.gt]
  simp only [BState.map, E.sub, E.abs, E.lt, E.mul, E.ofRat, map_ite]
  rfl

include hc in
theorem paraP_map (s : BState K) : (s.map E.emb).paraP c = E.emb (s.paraP k) := by
  simp only [BState.paraP, tol_map E hc, PyArith.gt]
  simp only [BState.map, E.sub, E.abs, E.lt, E.mul, E.ofRat, map_ite]
  rfl

include hc in
theorem usePara_map (s : BState K) : (s.map E.emb).usePara c = s.usePara k := by
  simp only [BState.usePara, tol_map E hc, PyArith.gt, paraQ_map E hc]
  simp only [BState.map, E.abs, E.lt, E.ofRat, E.eq]
  rfl

include hc in
theorem step_map (s : BState K) : (s.map E.emb).step c = E.emb (s.step k) := by
  rw [BState.step_eq, BState.step_eq, usePara_map E hc, paraQ_map E hc, paraP_map E hc]
  refine stepTail_map E hc s _ _ _ ?_
  intro hu
  have hq : |s.paraQ k| ≠ 0 := by
    simp only [BState.usePara, Bool.and_eq_true, Bool.not_eq_true', fa_eq,
      decide_eq_false_iff_not, fa_ofRat] at hu
    rw [abs_ne_zero]; simpa using hu.2
  rw [hu]
  simp only [PyArith.gt, E.abs, E.ofRat, E.lt, E.neg, if_true, map_ite, E.div _ _ hq]
  rfl

theorem update_map (s : BState K) (stp fu : K) :
    (s.map E.emb).update (E.emb stp) (E.emb fu) = (s.update stp fu).map E.emb := by
  simp only [BState.update, BState.map, E.add, E.le, E.lt, E.eq, PyArith.ge, map_ite, fa_add, fa_le,
    fa_lt, fa_eq]
  rfl

/-! ### Field level facts -/

section field
omit [PyArith V]

theorem done_iff (s : BState K) :
    s.done k = true ↔ s.b - s.x < 2 * s.tol k ∧ s.x - s.a < 2 * s.tol k := by
  simp only [BState.done, BState.mid, BState.tol2, fa_add, fa_lt, fa_sub, fa_mul, fa_div, fa_abs,
    fa_ofRat, decide_eq_true_eq]
  rw [lt_sub_iff_add_lt, ← lt_sub_iff_add_lt, abs_lt]
  push_cast
  constructor
  · rintro ⟨h1, h2⟩; constructor <;> linarith
  · rintro ⟨h1, h2⟩; constructor <;> linarith

theorem not_done_iff (s : BState K) :
    s.done k = false ↔ 2 * s.tol k ≤ s.b - s.x ∨ 2 * s.tol k ≤ s.x - s.a := by
  rw [← Bool.not_eq_true, done_iff, not_and_or, not_lt, not_lt]

theorem clamp_big (s : BState K) (ht : 0 < s.tol k) (st : K) : s.tol k ≤ |s.clamp k st| := by
  have aux : ∀ z : K, s.tol k ≤ |if lt (PyArith.abs z) (s.tol k) then
      (if gt z (ofRat 0) then s.tol k else neg (s.tol k)) else z| := by
    intro z
    simp only [fa_lt, fa_abs, PyArith.gt, fa_ofRat, fa_neg, decide_eq_true_eq]
    split_ifs with h1 h2
    · rw [abs_of_pos ht]
    · rw [abs_neg, abs_of_pos ht]
    · exact not_lt.mp h1
  exact aux _

/-- Every step is at least the tolerance. -/
theorem step_big (s : BState K) (ht : 0 < s.tol k) : s.tol k ≤ |s.step k| := by
  rw [BState.step_eq]
  obtain ⟨st, h⟩ := BState.stepTail_clamp k s (s.usePara k) (div
      (if gt (s.paraQ k) (ofRat 0) then neg (if s.usePara k then s.paraP k else ofRat 0)
        else if s.usePara k then s.paraP k else ofRat 0) (PyArith.abs (s.paraQ k)))
  rw [h]; exact clamp_big s ht st

theorem clamp_bracket (s : BState K) (ht : 0 < s.tol k) (hnd : s.done k = false)
    (hax : s.a < s.x) (hxb : s.x < s.b) (st : K) :
    s.a < s.x + s.clamp k st ∧ s.x + s.clamp k st < s.b := by
  rw [not_done_iff] at hnd
  simp only [BState.clamp, BState.tol2, BState.mid, fa_add, fa_lt, fa_sub, fa_mul, fa_div, fa_abs,
    fa_neg, fa_ofRat, decide_eq_true_eq, PyArith.gt, Bool.or_eq_true]
  push_cast
  generalize s.tol k = t at *
  by_cases hnear : s.x + st - s.a < t * 2 ∨ s.b - (s.x + st) < t * 2
  · simp only [if_pos hnear]
    by_cases hm : s.x < (s.b + s.a) / 2
    · simp only [if_pos hm, abs_of_pos ht, lt_irrefl, if_false]
      constructor
      · linarith
      · rcases hnd with h | h <;> linarith
    · simp only [if_neg hm, abs_neg, abs_of_pos ht, lt_irrefl, if_false]
      constructor
      · rcases hnd with h | h <;> linarith
      · linarith
  · simp only [if_neg hnear]
    rw [not_or, not_lt, not_lt] at hnear
    split_ifs with h1 h2
    · constructor <;> linarith
    · constructor <;> linarith
    · constructor <;> linarith

/-- As long as an element is not converged its next point lies strictly inside its bracket. -/
theorem step_bracket (s : BState K) (ht : 0 < s.tol k) (hnd : s.done k = false)
    (hax : s.a < s.x) (hxb : s.x < s.b) : s.a < s.x + s.step k ∧ s.x + s.step k < s.b := by
  rw [BState.step_eq]
  obtain ⟨st, h⟩ := BState.stepTail_clamp k s (s.usePara k) (div
      (if gt (s.paraQ k) (ofRat 0) then neg (if s.usePara k then s.paraP k else ofRat 0)
        else if s.usePara k then s.paraP k else ofRat 0) (PyArith.abs (s.paraQ k)))
  rw [h]; exact clamp_bracket s ht hnd hax hxb st

/-- The bracket only shrinks and keeps `x` strictly inside. -/
theorem update_bracket (s : BState K) (st fu : K) (hst : st ≠ 0) (hax : s.a < s.x) (hxb : s.x < s.b)
    (hau : s.a < s.x + st) (hub : s.x + st < s.b) :
    (s.update st fu).a < (s.update st fu).x ∧ (s.update st fu).x < (s.update st fu).b ∧
      s.a ≤ (s.update st fu).a ∧ (s.update st fu).b ≤ s.b := by
  simp only [BState.update, fa_add, fa_le, fa_lt, PyArith.ge, Bool.and_eq_true, Bool.not_eq_true',
    decide_eq_true_eq, decide_eq_false_iff_not]
  by_cases h : fu ≤ s.fx
  · rcases lt_or_gt_of_ne hst with h2 | h2
    · have h3 : ¬ s.x ≤ s.x + st := by linarith
      have h4 : s.x + st < s.x := by linarith
      simp only [h, h3, h4, true_and, and_true, if_true, if_false, not_true_eq_false, false_and]
      exact ⟨hau, le_refl _, hxb.le⟩
    · have h3 : s.x ≤ s.x + st := by linarith
      have h4 : ¬ s.x + st < s.x := by linarith
      simp only [h, h3, h4, true_and, and_true, if_true, if_false, not_true_eq_false, false_and]
      refine ⟨by linarith, hub, hax.le, le_refl _⟩
  · rcases lt_or_gt_of_ne hst with h2 | h2
    · have h3 : ¬ s.x ≤ s.x + st := by linarith
      have h4 : s.x + st < s.x := by linarith
      simp only [h, h3, h4, true_and, and_true, if_true, if_false, not_false_eq_true, false_and]
      exact ⟨hxb, hau.le, le_refl _⟩
    · have h3 : s.x ≤ s.x + st := by linarith
      have h4 : ¬ s.x + st < s.x := by linarith
      simp only [h, h3, h4, true_and, and_true, if_true, if_false, not_false_eq_true, false_and]
      refine ⟨hax, by linarith, le_refl _, hub.le⟩

/-- The minimiser of a strictly unimodal objective never leaves the bracket. -/
theorem update_unimodal {g : K → K} {t : K} (hdec : ∀ x y, x < y → y ≤ t → g y < g x)
    (hinc : ∀ x y, t ≤ x → x < y → g x < g y) (s : BState K) (st : K) (hst : st ≠ 0)
    (hfx : s.fx = g s.x) (ha : s.a ≤ t) (hb : t ≤ s.b) :
    (s.update st (g (s.x + st))).a ≤ t ∧ t ≤ (s.update st (g (s.x + st))).b ∧
      (s.update st (g (s.x + st))).fx = g (s.update st (g (s.x + st))).x := by
  simp only [BState.update, fa_add, fa_le, fa_lt, PyArith.ge, Bool.and_eq_true, Bool.not_eq_true',
    decide_eq_true_eq, decide_eq_false_iff_not, hfx]
  by_cases h : g (s.x + st) ≤ g s.x
  · rcases lt_or_gt_of_ne hst with h2 | h2
    · have h3 : ¬ s.x ≤ s.x + st := by linarith
      have h4 : s.x + st < s.x := by linarith
      simp only [h, h3, h4, true_and, and_true, if_true, if_false, not_true_eq_false, false_and]
      refine ⟨ha, ?_⟩
      by_contra hc
      exact absurd (hdec _ _ h4 (not_le.mp hc).le) (not_lt.mpr h)
    · have h3 : s.x ≤ s.x + st := by linarith
      have h4 : ¬ s.x + st < s.x := by linarith
      simp only [h, h3, h4, true_and, and_true, if_true, if_false, not_true_eq_false, false_and]
      refine ⟨?_, hb⟩
      by_contra hc
      exact absurd (hinc _ _ (not_le.mp hc).le (by linarith : s.x < s.x + st)) (not_lt.mpr h)
  · rcases lt_or_gt_of_ne hst with h2 | h2
    · have h3 : ¬ s.x ≤ s.x + st := by linarith
      have h4 : s.x + st < s.x := by linarith
      simp only [h, h3, h4, true_and, and_true, if_true, if_false, not_false_eq_true, false_and]
      refine ⟨?_, hb⟩
      by_contra hc
      exact h (hinc _ _ (not_le.mp hc).le h4).le
    · have h3 : s.x ≤ s.x + st := by linarith
      have h4 : ¬ s.x + st < s.x := by linarith
      simp only [h, h3, h4, true_and, and_true, if_true, if_false, not_false_eq_true, false_and]
      refine ⟨ha, ?_⟩
      by_contra hc
      exact h (hdec _ _ (by linarith : s.x < s.x + st) (not_le.mp hc).le).le

/-- For a strictly decreasing objective the upper end of the bracket never moves. -/
theorem update_decreasing {g : K → K} (hdec : ∀ x y, x < y → g y < g x)
    (s : BState K) (st : K) (hst : st ≠ 0) (hfx : s.fx = g s.x) :
    (s.update st (g (s.x + st))).b = s.b ∧
      (s.update st (g (s.x + st))).fx = g (s.update st (g (s.x + st))).x := by
  simp only [BState.update, fa_add, fa_le, fa_lt, PyArith.ge, Bool.and_eq_true, Bool.not_eq_true',
    decide_eq_true_eq, decide_eq_false_iff_not, hfx]
  rcases lt_or_gt_of_ne hst with h2 | h2
  · have h3 : ¬ s.x ≤ s.x + st := by linarith
    have h4 : s.x + st < s.x := by linarith
    have h5 : ¬ g (s.x + st) ≤ g s.x := not_le.mpr (hdec _ _ h4)
    simp [h3, h4, h5]
  · have h3 : s.x ≤ s.x + st := by linarith
    have h4 : ¬ s.x + st < s.x := by linarith
    have h5 : g (s.x + st) ≤ g s.x := (hdec _ _ (by linarith : s.x < s.x + st)).le
    simp [h3, h4, h5]

/-- For a strictly increasing objective the lower end of the bracket never moves. -/
theorem update_increasing {g : K → K} (hinc : ∀ x y, x < y → g x < g y)
    (s : BState K) (st : K) (hst : st ≠ 0) (hfx : s.fx = g s.x) :
    (s.update st (g (s.x + st))).a = s.a ∧
      (s.update st (g (s.x + st))).fx = g (s.update st (g (s.x + st))).x := by
  simp only [BState.update, fa_add, fa_le, fa_lt, PyArith.ge, Bool.and_eq_true, Bool.not_eq_true',
    decide_eq_true_eq, decide_eq_false_iff_not, hfx]
  rcases lt_or_gt_of_ne hst with h2 | h2
  · have h3 : ¬ s.x ≤ s.x + st := by linarith
    have h4 : s.x + st < s.x := by linarith
    have h5 : g (s.x + st) ≤ g s.x := (hinc _ _ h4).le
    simp [h3, h4, h5]
  · have h3 : s.x ≤ s.x + st := by linarith
    have h4 : ¬ s.x + st < s.x := by linarith
    have h5 : ¬ g (s.x + st) ≤ g s.x := not_le.mpr (hinc _ _ (by linarith : s.x < s.x + st))
    simp [h3, h4, h5]

theorem tol_pos (hr : 0 ≤ k.relTol) (ha : 0 < k.absTol) (s : BState K) : 0 < s.tol k := by
  simp only [BState.tol, fa_add, fa_mul, fa_abs]
  have := mul_nonneg hr (abs_nonneg s.x)
  linarith

theorem step_ne_zero (hr : 0 ≤ k.relTol) (ha : 0 < k.absTol) (s : BState K) : s.step k ≠ 0 := by
  have h := tol_pos hr ha s
  have h2 := step_big s h
  intro h3
  rw [h3, abs_zero] at h2
  linarith

end field

/-! ### Traces with finite values -/

include hc in
/-- A trace with finite objective values is a trace over the field. -/
theorem Trace.toField (hx : k.xf = fun x => x) {s : BState K} {es : List (V × V)} {s' : BState V}
    (h : Trace c (s.map E.emb) es s') (hf : ∀ e ∈ es, ∃ r, e.2 = E.emb r) :
    ∃ us s₁, s' = BState.map E.emb s₁ ∧ es = us.map (fun e => (c.xf (E.emb e.1), E.emb e.2)) ∧
      Trace k s us s₁ := by
  generalize hs : s.map E.emb = sv at h
  induction h generalizing s with
  | nil sv => exact ⟨[], s, hs.symm, rfl, .nil _⟩
  | @cons sv s' fu es h ih =>
    obtain ⟨r, hr⟩ := hf _ List.mem_cons_self
    simp only at hr
    subst hr hs
    have hst := step_map E hc s
    obtain ⟨us, s₁, h1, h2, h3⟩ := ih (s := s.update (s.step k) r)
      (fun e he => hf e (List.mem_cons_of_mem _ he)) (by rw [hst, update_map])
    refine ⟨(s.x + s.step k, r) :: us, s₁, h1, ?_, ?_⟩
    · rw [List.map_cons, h2, hst]
      simp only [BState.map, E.add]
    · have := Trace.cons (c := k) h3
      rw [hx] at this
      exact this

include hc in
/-- The same for values that come from a scalar objective that is finite on finite arguments. -/
theorem Trace.toField' (hx : k.xf = fun x => x) {s : BState K} {es : List (V × V)} {s' : BState V}
    (h : Trace c (s.map E.emb) es s') {G : V → V} {g : K → K}
    (hG : ∀ u, G (c.xf (E.emb u)) = E.emb (g u)) (hf : ∀ e ∈ es, e.2 = G e.1) :
    ∃ us s₁, s' = BState.map E.emb s₁ ∧ es.length = us.length ∧ (∀ e ∈ us, e.2 = g e.1) ∧
      Trace k s us s₁ := by
  generalize hs : s.map E.emb = sv at h
  induction h generalizing s with
  | nil sv => exact ⟨[], s, hs.symm, rfl, by simp, .nil _⟩
  | @cons sv s' fu es h ih =>
    have hr := hf _ List.mem_cons_self
    simp only at hr
    subst hs
    have hst := step_map E hc s
    have hpt : PyArith.add (s.map E.emb).x (E.emb (s.step k)) = E.emb (s.x + s.step k) := by
      simp only [BState.map, E.add]
    rw [hst, hpt, hG] at hr
    subst hr
    obtain ⟨us, s₁, h1, h2, h3, h4⟩ := ih (s := s.update (s.step k) (g (s.x + s.step k)))
      (fun e he => hf e (List.mem_cons_of_mem _ he)) (by rw [hst, update_map])
    refine ⟨(s.x + s.step k, g (s.x + s.step k)) :: us, s₁, h1, by simp [h2], ?_, ?_⟩
    · intro e he
      rcases List.mem_cons.mp he with rfl | he
      · rfl
      · exact h3 e he
    · have := Trace.cons (c := k) h4
      rw [hx] at this
      exact this

include hc in
open Spec in
/-- One element of a successful `minimize` run, seen over the field. -/
theorem minimize_field (hx : k.xf = fun x => x) {W : Type} {func : List V → M W (List V)} {n : Nat}
    {w w' : W} {log : List (Call V)} {out : List V}
    (h : minimize c (logged func) n (w, []) = (.ok out, (w', log))) {i : Nat} (hi : i < n)
    {G : V → V} {g : K → K} (hG : ∀ u, G (c.xf (E.emb u)) = E.emb (g u))
    (hf : ∀ j x f, evalAt log i j x f → f = G x) :
    ∃ us s₁, out[i]? = some (c.xf (E.emb s₁.x)) ∧ (∀ e ∈ us, e.2 = g e.1) ∧
      us.length + 1 = log.length ∧
      Trace k (k.init (g k.x0)) us s₁ ∧ (log.length ≤ c.maxiter → s₁.done k = true) := by
  rcases minimize_run c func n w w' log _ h with ⟨o, e, h0, _⟩ |
    ⟨f0s, es, ss', tail, h1, h2, h3, h4, h5, h6⟩
  · cases h0
  obtain ⟨h7, h8, h9⟩ := h6 out rfl
  subst h8
  simp only [List.append_nil] at h2
  obtain ⟨f0, hf0⟩ : ∃ f0, f0s[i]? = some f0 := ⟨f0s[i]'(by omega), by simp [h1, hi]⟩
  have hx0 : c.x0 = E.emb k.x0 := by
    simp only [MinCfg.x0, hc.lo, hc.hi, hc.gf2, E.add, E.sub, E.mul]; rfl
  have hf0g : f0 = E.emb (g k.x0) := by
    rw [← hG, ← hx0]
    exact hf 0 _ _ ⟨_, f0s, by rw [h2]; rfl, by simp [hi], hf0⟩
  have hs : (f0s.map c.init)[i]? = some ((k.init (g k.x0)).map E.emb) := by
    simp [hf0, hf0g, init_map E hc]
  obtain ⟨es', s', h10, h11, h12⟩ := h3.proj hs
  have hev : ∀ e ∈ es', e.2 = G e.1 := by
    intro e he
    obtain ⟨j, hj⟩ := List.mem_iff_getElem?.mp he
    obtain ⟨xs, fs, ha, hb, hc⟩ := (evalAt_iff h12 j e.1 e.2).2 hj
    exact hf (j + 1) _ _ ⟨xs, fs, by rw [h2, List.getElem?_cons_succ, ha], hb, hc⟩
  obtain ⟨us, s₁, h13, h14, h15, h16⟩ := h11.toField' E hc hx hG hev
  have hlen : log.length = es.length + 1 := by rw [h2]; simp [okCalls_length]
  have hlen2 := h12.length_eq
  refine ⟨us, s₁, ?_, h15, by omega, h16, ?_⟩
  · rw [h7, List.getElem?_map, h10, h13]; rfl
  · intro hl
    have := h9 (by omega)
    rw [List.all_eq_true] at this
    have h17 := this s' (List.mem_of_getElem? h10)
    rwa [h13, done_map E hc] at h17

/-- A logged call over the field, seen over `V`. -/
def mapCall (c : MinCfg V) (E : FinEmb K V) (e : Spec.Call K) : Spec.Call V :=
  (e.1.map fun u => c.xf (E.emb u), match e.2 with
    | .ok fs => .ok (fs.map E.emb)
    | .error e => .error e)

include hc in
open Spec in
theorem minLoop_map (hx : k.xf = fun x => x) {W : Type} (func : List V → M W (List V)) (w : W)
    (g : K → K) {n : Nat} (hfunc : ∀ us : List K, us.length = n →
      func (us.map fun u => c.xf (E.emb u)) w = (.ok ((us.map g).map E.emb), w)) :
    ∀ (j : Nat) (ss : List (BState K)), ss.length = n → ∀ (log log' : List (Call K))
      (out : List (BState K)),
      minLoop k (logged (elementwise (W := Unit) g)) j ss ((), log) = (.ok out, ((), log')) →
      minLoop c (logged func) j (ss.map (BState.map E.emb)) (w, log.map (mapCall c E)) =
        (.ok (out.map (BState.map E.emb)), (w, log'.map (mapCall c E))) := by
  intro j
  induction j with
  | zero =>
    intro ss hsn log log' out h
    simp only [minLoop, M.pure_run, Prod.mk.injEq] at h ⊢
    obtain ⟨h1, _, h2⟩ := h
    cases h1; subst h2
    simp
  | succ j ih =>
    intro ss hsn log log' out h
    have hall : (ss.map (BState.map E.emb)).all (BState.done c) = ss.all (BState.done k) := by
      rw [List.all_map]; congr 1; funext s; simp [done_map E hc]
    rw [minLoop] at h ⊢
    rw [hall]
    by_cases hd : ss.all (BState.done k) = true
    · rw [if_pos hd] at h ⊢
      simp only [M.pure_run, Prod.mk.injEq] at h ⊢
      obtain ⟨h1, _, h2⟩ := h
      cases h1; subst h2
      simp
    · rw [if_neg hd] at h ⊢
      rw [M.bind_run] at h ⊢
      have hnp : nextPoints c (ss.map (BState.map E.emb)) =
          (nextPoints k ss).map fun u => c.xf (E.emb u) := by
        simp only [nextPoints, List.map_map, hx]
        congr 1; funext s
        simp only [Function.comp, step_map E hc]
        simp only [BState.map, E.add]; rfl
      rw [hnp]
      have h1 : logged func ((nextPoints k ss).map fun u => c.xf (E.emb u))
          (w, log.map (mapCall c E)) =
          (.ok (((nextPoints k ss).map g).map E.emb), (w, (log ++ [(nextPoints k ss,
            Except.ok ((nextPoints k ss).map g))]).map (mapCall c E))) := by
        simp [logged, hfunc (nextPoints k ss) (by simp [nextPoints, hsn]), mapCall]
      rw [h1]
      have h2 : logged (elementwise (W := Unit) g) (nextPoints k ss) ((), log) =
          (.ok ((nextPoints k ss).map g), ((), log ++ [(nextPoints k ss,
            .ok ((nextPoints k ss).map g))])) := rfl
      rw [h2] at h
      simp only [List.length_map] at h ⊢
      by_cases hl : (nextPoints k ss).length = ss.length
      · rw [if_pos hl] at h ⊢
        have h3 := ih _ (by simp [updateAll, nextPoints, hsn]) _ _ _ h
        have h4 : updateAll c (ss.map (BState.map E.emb)) (((nextPoints k ss).map g).map E.emb) =
            (updateAll k ss ((nextPoints k ss).map g)).map (BState.map E.emb) := by
          simp only [updateAll, List.zipWith_map, List.map_zipWith]
          simp only [step_map E hc, update_map]
        rw [h4]; exact h3
      · rw [if_neg hl] at h; simp at h

include hc in
open Spec in
/-- A successful run over the field (which can be computed) is a run over `V`. -/
theorem minimize_map (hx : k.xf = fun x => x) (hm : k.maxiter = c.maxiter) {W : Type}
    (func : List V → M W (List V)) (w : W)
    (g : K → K) (n : Nat) (hfunc : ∀ us : List K, us.length = n →
      func (us.map fun u => c.xf (E.emb u)) w = (.ok ((us.map g).map E.emb), w)) (log' : List (Call K)) (out : List K)
    (h : minimize k (logged (elementwise (W := Unit) g)) n ((), []) = (.ok out, ((), log'))) :
    minimize c (logged func) n (w, []) =
      (.ok (out.map fun u => c.xf (E.emb u)), (w, log'.map (mapCall c E))) := by
  rw [minimize, M.bind_run] at h ⊢
  have hx0 : c.x0 = E.emb k.x0 := by
    simp only [MinCfg.x0, hc.lo, hc.hi, hc.gf2, E.add, E.sub, E.mul]; rfl
  have hr : List.replicate n (c.xf c.x0) = (List.replicate n k.x0).map fun u => c.xf (E.emb u) := by
    simp [hx0]
  have h1 : logged func (List.replicate n (c.xf c.x0)) (w, []) =
      (.ok (((List.replicate n k.x0).map g).map E.emb), (w, ([(List.replicate n k.x0,
            .ok ((List.replicate n k.x0).map g))] : List (Call K)).map (mapCall c E))) := by
    rw [hr]
    simp only [logged, hfunc (List.replicate n k.x0) (by simp), mapCall, List.nil_append, List.map_cons,
      List.map_nil]
  have h2 : logged (elementwise (W := Unit) g) (List.replicate n (k.xf k.x0)) ((), []) =
      (.ok ((List.replicate n k.x0).map g), ((), ([(List.replicate n k.x0,
            .ok ((List.replicate n k.x0).map g))] : List (Call K)))) := by
    rw [hx]; rfl
  rw [h1]
  rw [h2] at h
  simp only [List.length_map, List.length_replicate, if_true] at h ⊢
  rw [M.bind_run] at h ⊢
  have h3 : (((List.replicate n k.x0).map g).map E.emb).map c.init =
      (((List.replicate n k.x0).map g).map k.init).map (BState.map E.emb) := by
    simp [init_map E hc]
  rw [h3, ← hm]
  cases hl : minLoop k (logged (elementwise (W := Unit) g)) k.maxiter
      (((List.replicate n k.x0).map g).map k.init) ((), ([(List.replicate n k.x0,
            .ok ((List.replicate n k.x0).map g))] : List (Call K))) with
  | mk r ww =>
    rw [hl] at h
    cases r with
    | error e => simp at h
    | ok ss =>
      obtain ⟨⟨⟩, lg⟩ := ww
      have h4 := minLoop_map E hc hx func w g hfunc _ _ (by simp) _ _ _ hl
      rw [h4]
      simp only [M.pure_run, Prod.mk.injEq] at h ⊢
      obtain ⟨h5, _, h6⟩ := h
      cases h5; subst h6
      simp [hx, BState.map]

section
omit [PyArith V]

theorem Trace.unimodal (hx : k.xf = fun x => x) (hr : 0 ≤ k.relTol) (hat : 0 < k.absTol)
    {g : K → K} {t : K} (hdec : ∀ x y, x < y → y ≤ t → g y < g x)
    (hinc : ∀ x y, t ≤ x → x < y → g x < g y) {s s' : BState K} {us : List (K × K)}
    (h : Trace k s us s') (hg : ∀ e ∈ us, e.2 = g e.1) (hfx : s.fx = g s.x) (ha : s.a ≤ t)
    (hb : t ≤ s.b) : s'.a ≤ t ∧ t ≤ s'.b := by
  induction h with
  | nil s => exact ⟨ha, hb⟩
  | @cons s s' fu es _ ih =>
    have h1 := hg _ List.mem_cons_self
    simp only [hx, fa_add] at h1
    subst h1
    obtain ⟨h2, h3, h4⟩ := update_unimodal hdec hinc s _ (step_ne_zero hr hat s) hfx ha hb
    exact ih (fun e he => hg e (List.mem_cons_of_mem _ he)) h4 h2 h3

theorem Trace.decreasing (hx : k.xf = fun x => x) (hr : 0 ≤ k.relTol) (hat : 0 < k.absTol)
    {g : K → K} (hdec : ∀ x y, x < y → g y < g x) {s s' : BState K} {us : List (K × K)}
    (h : Trace k s us s') (hg : ∀ e ∈ us, e.2 = g e.1) (hfx : s.fx = g s.x) : s'.b = s.b := by
  induction h with
  | nil s => rfl
  | @cons s s' fu es _ ih =>
    have h1 := hg _ List.mem_cons_self
    simp only [hx, fa_add] at h1
    subst h1
    obtain ⟨h2, h3⟩ := update_decreasing hdec s _ (step_ne_zero hr hat s) hfx
    rw [ih (fun e he => hg e (List.mem_cons_of_mem _ he)) h3, h2]

theorem Trace.increasing (hx : k.xf = fun x => x) (hr : 0 ≤ k.relTol) (hat : 0 < k.absTol)
    {g : K → K} (hinc : ∀ x y, x < y → g x < g y) {s s' : BState K} {us : List (K × K)}
    (h : Trace k s us s') (hg : ∀ e ∈ us, e.2 = g e.1) (hfx : s.fx = g s.x) : s'.a = s.a := by
  induction h with
  | nil s => rfl
  | @cons s s' fu es _ ih =>
    have h1 := hg _ List.mem_cons_self
    simp only [hx, fa_add] at h1
    subst h1
    obtain ⟨h2, h3⟩ := update_increasing hinc s _ (step_ne_zero hr hat s) hfx
    rw [ih (fun e he => hg e (List.mem_cons_of_mem _ he)) h3, h2]

end

include hc in
/-- A run for a single element with finite objective values stays inside its bracket. -/
theorem VTrace.single (hr : 0 ≤ k.relTol) (hat : 0 < k.absTol) {s : BState K}
    {es : List (List V × List V)} {ss' : List (BState V)} (h : VTrace c [s.map E.emb] es ss')
    (hf : ∀ e ∈ es, ∀ y ∈ e.2, ∃ r, y = E.emb r) (hax : s.a < s.x) (hxb : s.x < s.b) :
    (∀ e ∈ es, ∃ u, e.1 = [c.xf (E.emb u)] ∧ s.a < u ∧ u < s.b) ∧
      ∃ s₁, ss' = [BState.map E.emb s₁] ∧ s₁.a < s₁.x ∧ s₁.x < s₁.b ∧ s.a ≤ s₁.a ∧ s₁.b ≤ s.b := by
  generalize hs : [s.map E.emb] = sv at h
  induction h generalizing s with
  | nil sv => exact ⟨by simp, s, hs.symm, hax, hxb, le_refl _, le_refl _⟩
  | @cons sv s' fus es hnd hl h ih =>
    subst hs
    obtain ⟨fu, rfl⟩ : ∃ fu, fus = [fu] := by
      match fus, hl with
      | [fu], _ => exact ⟨fu, rfl⟩
    obtain ⟨r, rfl⟩ := hf _ List.mem_cons_self fu (by simp)
    have hst := step_map E hc s
    have hnd' : s.done k = false := by
      simpa [done_map E hc] using hnd
    have ht := tol_pos hr hat s
    obtain ⟨hb1, hb2⟩ := step_bracket s ht hnd' hax hxb
    obtain ⟨h1, h2, h3, h4⟩ := update_bracket s _ r (step_ne_zero hr hat s) hax hxb hb1 hb2
    obtain ⟨h5, s₁, h6, h7, h8, h9, h10⟩ := ih (s := s.update (s.step k) r)
      (fun e he => hf e (List.mem_cons_of_mem _ he)) h1 h2
      (by simp only [updateAll, List.zipWith_cons_cons, List.zipWith_nil_left, hst, update_map])
    refine ⟨?_, s₁, h6, h7, h8, h3.trans h9, h10.trans h4⟩
    intro e he
    rcases List.mem_cons.mp he with rfl | he
    · refine ⟨s.x + s.step k, ?_, hb1, hb2⟩
      simp only [nextPoints, List.map_cons, List.map_nil, hst]
      simp only [BState.map, E.add]
    · obtain ⟨u, h11, h12, h13⟩ := h5 e he
      exact ⟨u, h11, by linarith, by linarith⟩

end

end

/-- The finite extended numbers. -/
def FinEmb.ext (K : Type) [Field K] [LinearOrder K] : FinEmb K (Ext K) where
  emb := Ext.fin
  add := fun _ _ => rfl
  sub := fun a b => by
    show Ext.add (Ext.fin a) (Ext.neg (Ext.fin b)) = _
    simp [Ext.add, Ext.neg, sub_eq_add_neg]
  mul := fun _ _ => rfl
  div := fun a b h => by
    show Ext.div (Ext.fin a) (Ext.fin b) = _
    simp [Ext.div, h]
  neg := fun _ => rfl
  abs := fun _ => rfl
  lt := fun _ _ => rfl
  le := fun a b => by
    show (Ext.lt (Ext.fin a) (Ext.fin b) || Ext.eq (Ext.fin a) (Ext.fin b)) = _
    simp [Ext.lt, Ext.eq, le_iff_lt_or_eq]
  eq := fun _ _ => rfl
  ofRat := fun _ => rfl

/-- Rational data: computations on rationals can be carried out in `ℚ`. -/
def FinEmb.extRat (K : Type) [Field K] [LinearOrder K] [IsStrictOrderedRing K] :
    FinEmb ℚ (Ext K) where
  emb := fun q => Ext.fin (q : K)
  add := fun a b => by erw [(FinEmb.ext K).add]; push_cast; rfl
  sub := fun a b => by erw [(FinEmb.ext K).sub]; push_cast; rfl
  mul := fun a b => by erw [(FinEmb.ext K).mul]; push_cast; rfl
  div := fun a b h => by
    erw [(FinEmb.ext K).div _ _ (by exact_mod_cast h)]; push_cast; rfl
  neg := fun a => by erw [(FinEmb.ext K).neg]; push_cast; rfl
  abs := fun a => by erw [(FinEmb.ext K).abs]; push_cast; rfl
  lt := fun a b => by erw [(FinEmb.ext K).lt]; simp
  le := fun a b => by erw [(FinEmb.ext K).le]; simp
  eq := fun a b => by erw [(FinEmb.ext K).eq]; simp
  ofRat := fun q => by simp [(FinEmb.ext K).ofRat, FinEmb.ext]

end Gerabaldi
