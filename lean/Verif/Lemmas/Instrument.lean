import Verif.Model.Instrument
import Verif.Spec.Instrument
import Mathlib.Tactic.Linarith
import Mathlib.Tactic.FieldSimp
import Mathlib.Tactic.Ring
import Mathlib.Tactic.Positivity

/-! # Facts about rounding and clipping -/

set_option linter.unusedSectionVars false

namespace Gerabaldi
open Spec

variable {K : Type} [Field K] [LinearOrder K] [IsStrictOrderedRing K] [FloorRing K]

/-- Rounding half to even moves by at most a half. -/
theorem rhe_close (x : K) : |(Ext.rhe x : K) - x| ≤ 1 / 2 := by
  have h1 := Int.floor_le x
  have h2 := Int.lt_floor_add_one x
  unfold Ext.rhe
  split
  · rw [abs_le]; constructor <;> linarith
  · split
    · push_cast; rw [abs_le]; constructor <;> linarith
    · split
      · rw [abs_le]; constructor <;> linarith
      · push_cast; rw [abs_le]; constructor <;> linarith

/-- Rounding an integer. -/
theorem rhe_int (n : Int) : Ext.rhe (n : K) = n := by
  unfold Ext.rhe
  simp

/-- Rounding is monotone. -/
theorem rhe_mono {x y : K} (h : x ≤ y) : Ext.rhe x ≤ Ext.rhe y := by
  by_contra hlt
  push Not at hlt
  have hx := abs_le.1 (rhe_close x)
  have hy := abs_le.1 (rhe_close y)
  have h1 : ((Ext.rhe y : Int) : K) + 1 ≤ Ext.rhe x := by exact_mod_cast hlt
  -- then both are at the midpoint and equal
  have e : x = y := by linarith [hx.1, hx.2, hy.1, hy.2]
  rw [e] at hlt
  exact lt_irrefl _ hlt

/-- Rounding and bounds by integers. -/
theorem rhe_ge {x : K} {n : Int} (h : (n : K) ≤ x) : n ≤ Ext.rhe x := by
  have := rhe_mono h
  rwa [rhe_int] at this

theorem rhe_le {x : K} {n : Int} (h : x ≤ (n : K)) : Ext.rhe x ≤ n := by
  have := rhe_mono h
  rwa [rhe_int] at this

variable [Pow10 K]

/-- The finite value that rounding yields. -/
def sigVal (p : Int) (x : K) : K :=
  (Ext.rhe (x * (10 : K) ^ (p - Int.log 10 |x| - 1)) : K) / (10 : K) ^ (p - Int.log 10 |x| - 1)

theorem sigRound_fin (p : Int) {x : K} (hx : x ≠ 0) :
    sigRound p (Ext.fin x) = .ok (.fin (sigVal p x)) := by
  have h0 : PyArith.eq (Ext.fin x) (PyArith.ofRat 0) = false := by
    show decide (x = ((0 : ℚ) : K)) = false
    simpa using hx
  have habs : (0 : K) < |x| := abs_pos.2 hx
  unfold sigRound
  rw [h0]
  have hf : PyNum.floorLog10 (PyArith.abs (Ext.fin x)) = .ok (Int.log 10 |x|) := by
    show (if 0 < |x| then Except.ok (Int.log 10 |x|) else Except.error Err.valueError) = _
    rw [if_pos habs]
  have hi : PyNum.isInf (Ext.fin x) = false := rfl
  rw [hf, hi]
  rfl

theorem sigRound_zero (p : Int) : sigRound p (Ext.fin (0 : K)) = .ok (.fin 0) := by
  have h0 : PyArith.eq (Ext.fin (0 : K)) (PyArith.ofRat 0) = true := by
    show decide ((0 : K) = ((0 : ℚ) : K)) = true
    simp
  unfold sigRound
  rw [h0]
  rfl

theorem sigRound_pinf (p : Int) : sigRound p (Ext.pinf : Ext K) = .ok .pinf := rfl

theorem sigRound_ninf (p : Int) : sigRound p (Ext.ninf : Ext K) = .ok .ninf := rfl

theorem sigRound_nan (p : Int) : sigRound p (Ext.nan : Ext K) = .error .valueError := rfl

omit [Pow10 K] in
/-- The decade of a nonzero number. -/
theorem decade {x : K} (hx : x ≠ 0) :
    (10 : K) ^ (Int.log 10 |x|) ≤ |x| ∧ |x| < (10 : K) ^ (Int.log 10 |x| + 1) := by
  have habs : (0 : K) < |x| := abs_pos.2 hx
  have h1 := Int.zpow_log_le_self (b := 10) (by norm_num) habs
  have h2 := Int.lt_zpow_succ_log_self (b := 10) (by norm_num) |x|
  exact ⟨by exact_mod_cast h1, by exact_mod_cast h2⟩

/-- The unit of the last kept figure. -/
def sigUnit (p : Int) (x : K) : K := (10 : K) ^ (Int.log 10 |x| + 1 - p)

omit [Pow10 K] in
theorem sigUnit_pos (p : Int) (x : K) : 0 < sigUnit p x := by unfold sigUnit; positivity

omit [Pow10 K] in
theorem sigVal_eq (p : Int) (x : K) :
    sigVal p x = Ext.rhe (x / sigUnit p x) * sigUnit p x := by
  unfold sigVal sigUnit
  have h : (10 : K) ^ (p - Int.log 10 |x| - 1) = ((10 : K) ^ (Int.log 10 |x| + 1 - p))⁻¹ := by
    rw [← zpow_neg]; congr 1; ring
  rw [h, div_inv_eq_mul, div_eq_mul_inv]

omit [Pow10 K] in
theorem sigUnit_isUnit (p : Int) {x : K} (hx : x ≠ 0) : IsSigUnit p x (sigUnit p x) := by
  refine ⟨Int.log 10 |x| + 1 - p, rfl, ?_, ?_⟩
  · have := (decade hx).1
    unfold sigUnit
    rw [← zpow_add₀ (by norm_num)]
    have e : p - 1 + (Int.log 10 |x| + 1 - p) = Int.log 10 |x| := by ring
    rw [e]; exact this
  · have := (decade hx).2
    unfold sigUnit
    rw [← zpow_add₀ (by norm_num)]
    have e : p + (Int.log 10 |x| + 1 - p) = Int.log 10 |x| + 1 := by ring
    rw [e]; exact this

omit [Pow10 K] in
theorem sigVal_close (p : Int) (x : K) : |sigVal p x - x| ≤ sigUnit p x / 2 := by
  have hu := sigUnit_pos p x
  rw [sigVal_eq]
  have h := rhe_close (x / sigUnit p x)
  have e : (Ext.rhe (x / sigUnit p x) : K) * sigUnit p x - x =
      ((Ext.rhe (x / sigUnit p x) : K) - x / sigUnit p x) * sigUnit p x := by
    rw [sub_mul, div_mul_cancel₀ _ hu.ne']
  rw [e, abs_mul, abs_of_pos hu]
  nlinarith

/-- The integer `10^n`. -/
def tenPow (n : Nat) : Int := 10 ^ n

omit [FloorRing K] [Pow10 K] in
theorem tenPow_cast {n : Nat} : ((tenPow n : Int) : K) = (10 : K) ^ (n : Int) := by
  unfold tenPow; push_cast; rw [zpow_natCast]

omit [Pow10 K] in
/-- A positive number stays in its (closed) decade. -/
theorem sigVal_decade {p : Int} (hp : 1 ≤ p) {x : K} (hx : 0 < x) :
    (10 : K) ^ (Int.log 10 |x|) ≤ sigVal p x ∧ sigVal p x ≤ (10 : K) ^ (Int.log 10 |x| + 1) := by
  have hu := sigUnit_pos p x
  obtain ⟨hl, hh⟩ := decade hx.ne'
  have hax : |x| = x := abs_of_pos hx
  obtain ⟨n, hn⟩ : ∃ n : Nat, p - 1 = n := ⟨(p - 1).toNat, by omega⟩
  have e1 : (10 : K) ^ (Int.log 10 |x|) = (tenPow n : K) * sigUnit p x := by
    rw [tenPow_cast]; unfold sigUnit; rw [← zpow_add₀ (by norm_num)]; congr 1; omega
  have e2 : (10 : K) ^ (Int.log 10 |x| + 1) = (tenPow (n + 1) : K) * sigUnit p x := by
    rw [tenPow_cast]; unfold sigUnit; rw [← zpow_add₀ (by norm_num)]; congr 1; push_cast; omega
  rw [sigVal_eq, e1, e2]
  rw [e1, hax] at hl
  rw [e2, hax] at hh
  constructor
  · apply mul_le_mul_of_nonneg_right _ hu.le
    have : tenPow n ≤ Ext.rhe (x / sigUnit p x) := rhe_ge ((le_div_iff₀ hu).2 hl)
    exact_mod_cast this
  · apply mul_le_mul_of_nonneg_right _ hu.le
    have : Ext.rhe (x / sigUnit p x) ≤ tenPow (n + 1) := rhe_le ((div_le_iff₀ hu).2 hh.le)
    exact_mod_cast this

omit [Pow10 K] in
/-- Rounding is symmetric. -/
theorem rhe_neg (x : K) : Ext.rhe (-x) = -Ext.rhe x := by
  have h1 := Int.floor_le x
  have h2 := Int.lt_floor_add_one x
  by_cases hi : (⌊x⌋ : K) = x
  · rw [← hi, ← Int.cast_neg, rhe_int, rhe_int]
  · have hlt : (⌊x⌋ : K) < x := lt_of_le_of_ne h1 hi
    have hf : ⌊-x⌋ = -⌊x⌋ - 1 := by
      rw [Int.floor_eq_iff]; push_cast; constructor <;> linarith
    unfold Ext.rhe
    rw [hf]
    push_cast
    by_cases a : x - ⌊x⌋ < 1 / 2
    · have b : ¬ (-x - (-(⌊x⌋ : K) - 1) < 1 / 2) := by push Not; linarith
      have c : 1 / 2 < -x - (-(⌊x⌋ : K) - 1) := by linarith
      rw [if_pos a, if_neg b, if_pos c]; ring
    · by_cases b : 1 / 2 < x - ⌊x⌋
      · have c : -x - (-(⌊x⌋ : K) - 1) < 1 / 2 := by linarith
        rw [if_neg a, if_pos b, if_pos c]; ring
      · have c : ¬ (-x - (-(⌊x⌋ : K) - 1) < 1 / 2) := by push Not; push Not at b; linarith
        have d : ¬ (1 / 2 < -x - (-(⌊x⌋ : K) - 1)) := by push Not; push Not at a; linarith
        rw [if_neg a, if_neg b, if_neg c, if_neg d]
        split <;> split <;> omega

omit [Pow10 K] in
theorem sigVal_neg (p : Int) (x : K) : sigVal p (-x) = -sigVal p x := by
  unfold sigVal
  rw [abs_neg, neg_mul, rhe_neg]
  push_cast
  rw [neg_div]

omit [Pow10 K] in
theorem sigVal_pos {p : Int} (hp : 1 ≤ p) {x : K} (hx : 0 < x) : 0 < sigVal p x :=
  lt_of_lt_of_le (by positivity) (sigVal_decade hp hx).1

omit [Pow10 K] in
theorem sigVal_sign_neg {p : Int} (hp : 1 ≤ p) {x : K} (hx : x < 0) : sigVal p x < 0 := by
  have := sigVal_pos hp (neg_pos.2 hx)
  rw [sigVal_neg] at this
  linarith

omit [Pow10 K] in
/-- Numbers in the same decade have the same exponent. -/
theorem log_eq {y : K} {e : Int} (h1 : (10 : K) ^ e ≤ y) (h2 : y < (10 : K) ^ (e + 1)) :
    Int.log 10 |y| = e := by
  have hy : 0 < y := lt_of_lt_of_le (by positivity) h1
  rw [abs_of_pos hy]
  have a : e ≤ Int.log 10 y := (Int.zpow_le_iff_le_log (by norm_num) hy).1 (by exact_mod_cast h1)
  have b : Int.log 10 y < e + 1 := (Int.lt_zpow_iff_log_lt (by norm_num) hy).1 (by exact_mod_cast h2)
  omega

omit [Pow10 K] in
theorem sigVal_idem_pos {p : Int} (hp : 1 ≤ p) {x : K} (hx : 0 < x) :
    sigVal p (sigVal p x) = sigVal p x := by
  obtain ⟨h1, h2⟩ := sigVal_decade hp hx
  rcases lt_or_eq_of_le h2 with h | h
  · -- same decade
    have he := log_eq h1 h
    have hu : sigUnit p (sigVal p x) = sigUnit p x := by
      unfold sigUnit; rw [he]
    rw [sigVal_eq p (sigVal p x), hu]
    have hv := sigVal_eq p x
    have hpos := sigUnit_pos p x
    have hq : sigVal p x / sigUnit p x = (Ext.rhe (x / sigUnit p x) : K) := by
      rw [hv, mul_div_cancel_right₀ _ hpos.ne']
    rw [hq, rhe_int, ← hv]
  · -- rounded up to the next power of ten
    rw [h]
    set e := Int.log 10 |x| + 1 with hedef
    have he : Int.log 10 |(10 : K) ^ e| = e := by
      exact log_eq le_rfl (zpow_lt_zpow_right₀ (by norm_num) (by omega))
    obtain ⟨n, hn⟩ : ∃ n : Nat, p - 1 = n := ⟨(p - 1).toNat, by omega⟩
    have hpos := sigUnit_pos p ((10 : K) ^ e)
    have e1 : (10 : K) ^ e = (tenPow n : K) * sigUnit p ((10 : K) ^ e) := by
      rw [tenPow_cast]; unfold sigUnit; rw [he, ← zpow_add₀ (by norm_num)]; congr 1; omega
    rw [sigVal_eq]
    have hq : (10 : K) ^ e / sigUnit p ((10 : K) ^ e) = (tenPow n : K) := by
      rw [div_eq_iff hpos.ne']; exact e1
    rw [hq, rhe_int]; exact e1.symm

omit [Pow10 K] in
theorem sigVal_idem {p : Int} (hp : 1 ≤ p) {x : K} (hx : x ≠ 0) :
    sigVal p (sigVal p x) = sigVal p x := by
  rcases lt_or_gt_of_ne hx with h | h
  · have := sigVal_idem_pos hp (neg_pos.2 h)
    rw [sigVal_neg, sigVal_neg] at this
    exact neg_injective this
  · exact sigVal_idem_pos hp h

omit [Pow10 K] in
theorem sigVal_mono_pos {p : Int} (hp : 1 ≤ p) {x y : K} (hx : 0 < x) (h : x ≤ y) :
    sigVal p x ≤ sigVal p y := by
  have hy := lt_of_lt_of_le hx h
  have hlog : Int.log 10 |x| ≤ Int.log 10 |y| := by
    rw [abs_of_pos hx, abs_of_pos hy]
    exact Int.log_mono_right hx h
  rcases lt_or_eq_of_le hlog with hl | hl
  · refine (sigVal_decade hp hx).2.trans (le_trans ?_ (sigVal_decade hp hy).1)
    exact zpow_le_zpow_right₀ (by norm_num) (by omega)
  · have hu : sigUnit p x = sigUnit p y := by unfold sigUnit; rw [hl]
    rw [sigVal_eq, sigVal_eq, hu]
    have hpos := sigUnit_pos p y
    apply mul_le_mul_of_nonneg_right _ hpos.le
    have : Ext.rhe (x / sigUnit p y) ≤ Ext.rhe (y / sigUnit p y) :=
      rhe_mono (div_le_div_of_nonneg_right h hpos.le)
    exact_mod_cast this

omit [Pow10 K] in
/-- Rounding is monotone on nonzero numbers. -/
theorem sigVal_mono {p : Int} (hp : 1 ≤ p) {x y : K} (hx : x ≠ 0) (hy : y ≠ 0) (h : x ≤ y) :
    sigVal p x ≤ sigVal p y := by
  rcases lt_or_gt_of_ne hx with hx' | hx'
  · rcases lt_or_gt_of_ne hy with hy' | hy'
    · have := sigVal_mono_pos hp (neg_pos.2 hy') (neg_le_neg h)
      rw [sigVal_neg, sigVal_neg] at this
      linarith
    · exact (sigVal_sign_neg hp hx').le.trans (sigVal_pos hp hy').le
  · exact sigVal_mono_pos hp hx' h

end Gerabaldi
