import Verif.Lemmas.MinimizeField
import Verif.Props.Minimize
import Mathlib.Analysis.Complex.Exponential
import Mathlib.Tactic.LinearCombination

/-!
# Running the search with intervals

Real numbers enclosed in intervals with binary fractions as bounds. The search run with intervals gives no result
when a comparison is not decided by the bounds; when it gives one, the search with real numbers is enclosed in it.
-/

namespace Gerabaldi

/-- An interval, bounds in units of `2 ^ -160`. -/
structure Iv where
  lo : Int
  hi : Int
  deriving DecidableEq

namespace Iv

/-- One, in the units of the bounds. -/
def one : Int := ((2 ^ 160 : Nat) : Int)

theorem one_pos : 0 < one := by decide +kernel

/-- The real number is in the interval. -/
def In (r : ℝ) (i : Iv) : Prop := (i.lo : ℝ) ≤ r * one ∧ r * one ≤ i.hi

/-- The quotient rounded up. -/
def up (a b : Int) : Int := -((-a) / b)

def zero : Iv := ⟨0, 0⟩
def add (i j : Iv) : Iv := ⟨i.lo + j.lo, i.hi + j.hi⟩
def sub (i j : Iv) : Iv := ⟨i.lo - j.hi, i.hi - j.lo⟩
def neg (i : Iv) : Iv := ⟨-i.hi, -i.lo⟩
def abs (i : Iv) : Iv := if 0 ≤ i.lo then i else if i.hi ≤ 0 then i.neg else ⟨0, max (-i.lo) i.hi⟩
def mul (i j : Iv) : Iv :=
  ⟨min (min (i.lo * j.lo) (i.lo * j.hi)) (min (i.hi * j.lo) (i.hi * j.hi)) / one,
    up (max (max (i.lo * j.lo) (i.lo * j.hi)) (max (i.hi * j.lo) (i.hi * j.hi))) one⟩
/-- By a positive interval. -/
def div (i j : Iv) : Iv :=
  ⟨min (i.lo * one / j.lo) (i.lo * one / j.hi), max (up (i.hi * one) j.lo) (up (i.hi * one) j.hi)⟩
def scale (n : Int) (i : Iv) : Iv := ⟨n * i.lo, n * i.hi⟩
def part (n : Int) (i : Iv) : Iv := ⟨i.lo / n, up i.hi n⟩
/-- The fraction `a / b`. -/
def frac (a b : Int) : Iv := ⟨a * one / b, up (a * one) b⟩

/-- Comparisons, when the bounds decide them. -/
def lt (i j : Iv) : Option Bool := if i.hi < j.lo then some true else if j.hi ≤ i.lo then some false else none
def le (i j : Iv) : Option Bool := if i.hi ≤ j.lo then some true else if j.hi < i.lo then some false else none
def eq (i j : Iv) : Option Bool :=
  if i.hi < j.lo ∨ j.hi < i.lo then some false
  else if i.lo = i.hi ∧ j.lo = j.hi ∧ i.lo = j.lo then some true else none

theorem oneR : (0 : ℝ) < (one : ℝ) := by exact_mod_cast one_pos

theorem down_le {a b : Int} (hb : 0 < b) : ((a / b : Int) : ℝ) * b ≤ a := by
  exact_mod_cast Int.ediv_mul_le a hb.ne'

theorem le_up {a b : Int} (hb : 0 < b) : (a : ℝ) ≤ (up a b : ℝ) * b := by
  have := down_le (a := -a) hb
  unfold up
  push_cast at this ⊢
  linarith

theorem In.zero : In 0 zero := by simp [In, Iv.zero]

theorem In.add {r t : ℝ} {i j : Iv} (h : In r i) (k : In t j) : In (r + t) (i.add j) := by
  simp only [In, Iv.add] at *
  push_cast
  constructor <;> linarith

theorem In.sub {r t : ℝ} {i j : Iv} (h : In r i) (k : In t j) : In (r - t) (i.sub j) := by
  simp only [In, Iv.sub] at *
  push_cast
  constructor <;> linarith

theorem In.neg {r : ℝ} {i : Iv} (h : In r i) : In (-r) i.neg := by
  simp only [In, Iv.neg] at *
  push_cast
  constructor <;> linarith

theorem In.abs {r : ℝ} {i : Iv} (h : In r i) : In |r| i.abs := by
  have ho := oneR
  unfold Iv.abs
  split
  · rename_i h0
    have h0 : (0 : ℝ) ≤ i.lo := by exact_mod_cast h0
    have : 0 ≤ r := by
      by_contra hr
      have := mul_neg_of_neg_of_pos (not_le.1 hr) ho
      linarith [h.1]
    rwa [abs_of_nonneg this]
  · split
    · rename_i h0
      have h0 : (i.hi : ℝ) ≤ 0 := by exact_mod_cast h0
      have : r ≤ 0 := by
        by_contra hr
        have := mul_pos (not_le.1 hr) ho
        linarith [h.2]
      rw [abs_of_nonpos this]
      exact h.neg
    · simp only [In] at *
      push_cast
      refine ⟨by positivity, ?_⟩
      rcases abs_cases r with ⟨e, -⟩ | ⟨e, -⟩ <;> rw [e]
      · exact le_max_of_le_right h.2
      · exact le_max_of_le_left (by linarith)

theorem corner {a b x y : ℝ} {p q : ℝ} (ha : a ≤ x) (hb : x ≤ b) (hp : p ≤ y) (hq : y ≤ q) :
    min (min (a * p) (a * q)) (min (b * p) (b * q)) ≤ x * y ∧
      x * y ≤ max (max (a * p) (a * q)) (max (b * p) (b * q)) := by
  have e1 : ∀ z, min (z * p) (z * q) ≤ z * y ∧ z * y ≤ max (z * p) (z * q) := by
    intro z
    rcases le_total 0 z with h | h
    · exact ⟨min_le_of_left_le (mul_le_mul_of_nonneg_left hp h), le_max_of_le_right (mul_le_mul_of_nonneg_left hq h)⟩
    · exact ⟨min_le_of_right_le (mul_le_mul_of_nonpos_left hq h), le_max_of_le_left (mul_le_mul_of_nonpos_left hp h)⟩
  have e2 : min (a * y) (b * y) ≤ x * y ∧ x * y ≤ max (a * y) (b * y) := by
    rcases le_total 0 y with h | h
    · exact ⟨min_le_of_left_le (mul_le_mul_of_nonneg_right ha h), le_max_of_le_right (mul_le_mul_of_nonneg_right hb h)⟩
    · exact ⟨min_le_of_right_le (mul_le_mul_of_nonpos_right hb h), le_max_of_le_left (mul_le_mul_of_nonpos_right ha h)⟩
  exact ⟨(min_le_min (e1 a).1 (e1 b).1).trans e2.1, e2.2.trans (max_le_max (e1 a).2 (e1 b).2)⟩

theorem In.mul {r t : ℝ} {i j : Iv} (h : In r i) (k : In t j) : In (r * t) (i.mul j) := by
  have ho := oneR
  obtain ⟨c1, c2⟩ := corner h.1 h.2 k.1 k.2
  have e : r * one * (t * one) = r * t * one * one := by ring
  rw [e] at c1 c2
  unfold Iv.mul
  refine ⟨?_, ?_⟩
  · have := down_le (a := min (min (i.lo * j.lo) (i.lo * j.hi)) (min (i.hi * j.lo) (i.hi * j.hi))) one_pos
    have h2 := this.trans (by push_cast; exact c1)
    exact le_of_mul_le_mul_right h2 ho
  · have := le_up (a := max (max (i.lo * j.lo) (i.lo * j.hi)) (max (i.hi * j.lo) (i.hi * j.hi))) one_pos
    refine le_of_mul_le_mul_right (c2.trans ?_) ho
    push_cast at this
    exact this

theorem In.scale {r : ℝ} {i : Iv} (h : In r i) {n : Int} (hn : 0 ≤ n) : In (n * r) (i.scale n) := by
  have hn : (0 : ℝ) ≤ n := by exact_mod_cast hn
  simp only [In, Iv.scale] at *
  push_cast
  constructor <;> nlinarith

theorem In.part {r : ℝ} {i : Iv} (h : In r i) {n : Int} (hn : 0 < n) : In (r / n) (i.part n) := by
  have hn' : (0 : ℝ) < n := by exact_mod_cast hn
  have e : r / n * one = r * one / n := by ring
  unfold In
  rw [e, le_div_iff₀ hn', div_le_iff₀ hn']
  exact ⟨(down_le hn).trans h.1, h.2.trans (le_up hn)⟩

theorem In.frac (a : Int) {b : Int} (hb : 0 < b) : In ((a : ℝ) / b) (frac a b) := by
  have hn' : (0 : ℝ) < b := by exact_mod_cast hb
  have e : (a : ℝ) / b * one = a * one / b := by ring
  unfold In Iv.frac
  rw [e, le_div_iff₀ hn', div_le_iff₀ hn']
  have h1 := down_le (a := a * one) hb
  have h2 := le_up (a := a * one) hb
  push_cast at h1 h2
  exact ⟨h1, h2⟩

theorem In.div {r t : ℝ} {i j : Iv} (h : In r i) (k : In t j) (hj : 0 < j.lo) : In (r / t) (i.div j) := by
  have ho := oneR
  have hjl : (0 : ℝ) < j.lo := by exact_mod_cast hj
  have hjh : (0 : ℝ) < j.hi := by linarith [k.1, k.2]
  have hjh' : 0 < j.hi := by exact_mod_cast hjh
  have ht : 0 < t := by
    by_contra hr
    have := mul_nonpos_of_nonpos_of_nonneg (not_lt.1 hr) ho.le
    linarith [k.1]
  have hto : 0 < t * one := mul_pos ht ho
  have e : r / t * one = r * one * one / (t * one) := by field_simp
  unfold In Iv.div
  push_cast
  rw [e, le_div_iff₀ hto, div_le_iff₀ hto]
  constructor
  · refine le_trans ?_ (mul_le_mul_of_nonneg_right h.1 ho.le)
    have d1 := down_le (a := i.lo * one) hj
    have d2 := down_le (a := i.lo * one) hjh'
    push_cast at d1 d2
    generalize ((i.lo * one / j.lo : Int) : ℝ) = A at *
    generalize ((i.lo * one / j.hi : Int) : ℝ) = B at *
    rcases le_total 0 (min A B) with hs | hs
    · refine le_trans (mul_le_mul_of_nonneg_left k.2 hs) (le_trans ?_ d2)
      exact mul_le_mul_of_nonneg_right (min_le_right _ _) hjh.le
    · refine le_trans (mul_le_mul_of_nonpos_left k.1 hs) (le_trans ?_ d1)
      exact mul_le_mul_of_nonneg_right (min_le_left _ _) hjl.le
  · refine le_trans (mul_le_mul_of_nonneg_right h.2 ho.le) ?_
    have d1 := le_up (a := i.hi * one) hj
    have d2 := le_up (a := i.hi * one) hjh'
    push_cast at d1 d2
    generalize (up (i.hi * one) j.lo : ℝ) = A at *
    generalize (up (i.hi * one) j.hi : ℝ) = B at *
    rcases le_total 0 (max A B) with hs | hs
    · refine le_trans d1 (le_trans ?_ (mul_le_mul_of_nonneg_left k.1 hs))
      exact mul_le_mul_of_nonneg_right (le_max_left _ _) hjl.le
    · refine le_trans d2 (le_trans ?_ (mul_le_mul_of_nonpos_left k.2 hs))
      exact mul_le_mul_of_nonneg_right (le_max_right _ _) hjh.le

theorem lt_of {r t : ℝ} {i j : Iv} {b : Bool} (h : In r i) (k : In t j) (hb : lt i j = some b) :
    decide (r < t) = b := by
  have ho := oneR
  unfold lt at hb
  split at hb
  · cases hb
    rename_i hc
    have hc : (i.hi : ℝ) < j.lo := by exact_mod_cast hc
    exact decide_eq_true (lt_of_mul_lt_mul_right (by linarith [h.2, k.1]) ho.le)
  · split at hb
    · cases hb
      rename_i hc
      have hc : (j.hi : ℝ) ≤ i.lo := by exact_mod_cast hc
      exact decide_eq_false (not_lt.2 (le_of_mul_le_mul_right (by linarith [h.1, k.2]) ho))
    · cases hb

theorem le_of {r t : ℝ} {i j : Iv} {b : Bool} (h : In r i) (k : In t j) (hb : le i j = some b) :
    decide (r ≤ t) = b := by
  have ho := oneR
  unfold le at hb
  split at hb
  · cases hb
    rename_i hc
    have hc : (i.hi : ℝ) ≤ j.lo := by exact_mod_cast hc
    exact decide_eq_true (le_of_mul_le_mul_right (by linarith [h.2, k.1]) ho)
  · split at hb
    · cases hb
      rename_i hc
      have hc : (j.hi : ℝ) < i.lo := by exact_mod_cast hc
      exact decide_eq_false (not_le.2 (lt_of_mul_lt_mul_right (by linarith [h.1, k.2]) ho.le))
    · cases hb

theorem eq_of {r t : ℝ} {i j : Iv} {b : Bool} (h : In r i) (k : In t j) (hb : eq i j = some b) :
    decide (r = t) = b := by
  have ho := oneR
  unfold eq at hb
  split at hb
  · cases hb
    rename_i hc
    refine decide_eq_false fun e => ?_
    subst e
    rcases hc with hc | hc
    · have hc : (i.hi : ℝ) < j.lo := by exact_mod_cast hc
      linarith [h.2, k.1]
    · have hc : (j.hi : ℝ) < i.lo := by exact_mod_cast hc
      linarith [h.1, k.2]
  · split at hb
    · cases hb
      rename_i hc
      obtain ⟨h1, h2, h3⟩ := hc
      have h1 : (i.lo : ℝ) = i.hi := by exact_mod_cast h1
      have h2 : (j.lo : ℝ) = j.hi := by exact_mod_cast h2
      have h3 : (i.lo : ℝ) = j.lo := by exact_mod_cast h3
      refine decide_eq_true (mul_right_cancel₀ ho.ne' ?_)
      exact le_antisymm (by linarith [h.2, k.1]) (by linarith [h.1, k.2])
    · cases hb

/-- Away from zero, the absolute value has a positive lower bound. -/
theorem abs_pos {r : ℝ} {i : Iv} (hr : In r i) (h : eq i zero = some false) : 0 < i.abs.lo := by
  have hle : i.lo ≤ i.hi := by exact_mod_cast hr.1.trans hr.2
  unfold eq at h
  split at h
  · rename_i hc
    simp only [zero] at hc
    unfold Iv.abs
    rcases hc with hc | hc
    · by_cases h0 : 0 ≤ i.lo
      · omega
      · rw [if_neg h0, if_pos hc.le]
        simp only [neg]
        omega
    · rw [if_pos hc.le]
      exact hc
  · split at h <;> cases h

end Iv

/-! ## The search -/

namespace IvSearch

def gf2 : Iv := Iv.frac 215027748241771 562949953421312
def relTol : Iv := Iv.frac 6369051672525773 604462909807314587353088
def absTol : Iv := Iv.frac 1 300000

def mid (s : BState Iv) : Iv := (s.b.add s.a).part 2
def tol (s : BState Iv) : Iv := (relTol.mul s.x.abs).add absTol
def tol2 (s : BState Iv) : Iv := (tol s).scale 2

def done (s : BState Iv) : Option Bool := Iv.lt (s.x.sub (mid s)).abs ((tol2 s).sub (s.b.sub (mid s)))

/-- Denominator and numerator of the parabolic step, given whether it is considered. -/
def paraQ (s : BState Iv) (up0 : Bool) : Iv :=
  (((if up0 then s.x.sub s.v else .zero).mul (s.fx.sub s.fw)).sub
    ((if up0 then s.x.sub s.w else .zero).mul (s.fx.sub s.fv))).scale 2

def paraP (s : BState Iv) (up0 : Bool) : Iv :=
  ((if up0 then s.x.sub s.v else .zero).mul ((if up0 then s.x.sub s.v else .zero).mul (s.fx.sub s.fw))).sub
    ((if up0 then s.x.sub s.w else .zero).mul ((if up0 then s.x.sub s.w else .zero).mul (s.fx.sub s.fv)))

/-- Whether to use the golden section instead of the parabola; one reason is enough. -/
def change (s : BState Iv) (up : Bool) (st : Iv) : Option Bool :=
  if up then
    if Iv.lt (s.e.abs.part 2) st.abs = some true then pure true
    else do
      let c1 ← Iv.lt s.b (s.x.add st)
      let c2 ← Iv.lt (s.x.add st) s.a
      let c3 ← Iv.lt (s.e.abs.part 2) st.abs
      pure (c1 || c2 || c3)
  else pure false

/-- The step after the choice between parabola and golden section. -/
def clamp (s : BState Iv) (st : Iv) : Option Iv := do
  let c1 ← Iv.lt ((s.x.add st).sub s.a) (tol2 s)
  let c2 ← Iv.lt (s.b.sub (s.x.add st)) (tol2 s)
  if c1 || c2 then do
    let c3 ← Iv.lt s.x (mid s)
    pure (if c3 then tol s else (tol s).neg)
  else do
    let c4 ← Iv.lt st.abs (tol s)
    let c5 ← Iv.lt .zero st
    pure (if c4 then (if c5 then tol s else (tol s).neg) else st)

def step (s : BState Iv) : Option Iv := do
  let up0 ← Iv.lt (tol s) s.e.abs
  let z ← Iv.eq (paraQ s up0) .zero
  let pos ← Iv.lt .zero (paraQ s up0)
  let further ← Iv.le (mid s) s.x
  let p := if up0 && !z then paraP s up0 else .zero
  let gold := gf2.mul ((if further then s.a else s.b).sub s.x)
  let step0 := if up0 && !z then (if pos then p.neg else p).div (paraQ s up0).abs else gold
  let ch ← change s (up0 && !z) step0
  clamp s (if ch then gold else step0)

def update (s : BState Iv) (stp fu : Iv) : Option (BState Iv) := do
  let u := s.x.add stp
  let less ← Iv.le fu s.fx
  let right ← Iv.le s.x u
  let lw ← Iv.le fu s.fw
  let lv ← Iv.le fu s.fv
  let wx ← Iv.eq s.w s.x
  let vw ← Iv.eq s.v s.w
  let vx ← Iv.eq s.v s.x
  let vCond1 := less || lw || wx
  let vCond2 := lv || vw || vx
  let wCond := lw || wx
  pure { a := if less && right then s.x else if !less && !right then u else s.a
         b := if less && !right then s.x else if !less && right then u else s.b
         v := if vCond1 then s.w else if vCond2 then u else s.v
         fv := if vCond1 then s.fw else if vCond2 then fu else s.fv
         w := if less then s.x else if wCond then u else s.w
         fw := if less then s.fx else if wCond then fu else s.fw
         x := if less then u else s.x
         fx := if less then fu else s.fx
         e := s.d
         d := stp }

/-- One round, with enclosures of the residue from `g`. -/
def advance (g : Iv → Option Iv) (s : BState Iv) : Option (BState Iv) := do
  let st ← step s
  let fu ← g (s.x.add st)
  update s st fu

def x0 : Iv := (Iv.frac (-3) 1).add (gf2.mul ((Iv.frac 10 1).sub (Iv.frac (-3) 1)))

def init (f0 : Iv) : BState Iv where
  a := Iv.frac (-3) 1
  b := Iv.frac 10 1
  v := x0
  w := x0
  x := x0
  fv := f0
  fw := f0
  fx := f0
  d := .zero
  e := .zero

/-- `n` rounds from the start. -/
def run (g : Iv → Option Iv) : Nat → Option (BState Iv)
  | 0 => do
    let f0 ← g x0
    pure (init f0)
  | n + 1 => do
    let s ← run g n
    advance g s

/-! ### Soundness -/

/-- The loop variables are enclosed. -/
structure Enc (s : BState ℝ) (i : BState Iv) : Prop where
  a : Iv.In s.a i.a
  b : Iv.In s.b i.b
  v : Iv.In s.v i.v
  w : Iv.In s.w i.w
  x : Iv.In s.x i.x
  fv : Iv.In s.fv i.fv
  fw : Iv.In s.fw i.fw
  fx : Iv.In s.fx i.fx
  d : Iv.In s.d i.d
  e : Iv.In s.e i.e

section
attribute [local instance] fieldArith
open Iv (In)
open Gerabaldi.Props (cfgR)

theorem as_in {r t : ℝ} {i : Iv} (h : In r i) (e : t = r) : In t i := e ▸ h

theorem ite_in {b : Bool} {r t : ℝ} {i j : Iv} (h : In r i) (k : In t j) :
    In (if b then r else t) (if b then i else j) := by
  cases b
  · exact k
  · exact h

variable {s : BState ℝ} {i : BState Iv}

theorem gf2_in : In cfgR.gf2 gf2 := by
  have := Iv.In.frac 215027748241771 (b := 562949953421312) (by decide)
  refine as_in (this) ?_
  simp only [cfgR]
  norm_num

theorem tol_in (h : Enc s i) : In (s.tol cfgR) (tol i) := by
  have h1 := Iv.In.frac 6369051672525773 (b := 604462909807314587353088) (by decide)
  have h2 := Iv.In.frac 1 (b := 300000) (by decide)
  refine as_in ((h1.mul h.x.abs).add h2) ?_
  simp only [BState.tol, cfgR, fa_add, fa_mul, fa_abs]
  norm_num

theorem tol2_in (h : Enc s i) : In (s.tol2 cfgR) (tol2 i) := by
  refine as_in ((tol_in h).scale (n := 2) (by decide)) ?_
  simp only [BState.tol2, fa_mul, fa_ofRat]
  push_cast
  ring

theorem mid_in (h : Enc s i) : In s.mid (mid i) := by
  refine as_in ((h.b.add h.a).part (n := 2) (by decide)) ?_
  simp only [BState.mid, fa_add, fa_div, fa_ofRat]
  push_cast
  rfl

theorem done_of (h : Enc s i) {b : Bool} (hb : done i = some b) : s.done cfgR = b :=
  Iv.lt_of (h.x.sub (mid_in h)).abs ((tol2_in h).sub (h.b.sub (mid_in h))) hb

theorem paraQ_in (h : Enc s i) {up0 : Bool} (hu : PyArith.gt (PyArith.abs s.e) (s.tol cfgR) = up0) :
    In (s.paraQ cfgR) (paraQ i up0) := by
  have h1 := ((ite_in (b := up0) (h.x.sub h.v) Iv.In.zero).mul (h.fx.sub h.fw)).sub
    ((ite_in (b := up0) (h.x.sub h.w) Iv.In.zero).mul (h.fx.sub h.fv))
  refine as_in (h1.scale (n := 2) (by decide)) ?_
  unfold BState.paraQ
  rw [hu]
  simp only [fa_mul, fa_sub, fa_ofRat]
  push_cast
  rfl

theorem paraP_in (h : Enc s i) {up0 : Bool} (hu : PyArith.gt (PyArith.abs s.e) (s.tol cfgR) = up0) :
    In (s.paraP cfgR) (paraP i up0) := by
  have h1 := ((ite_in (b := up0) (h.x.sub h.v) Iv.In.zero).mul
      ((ite_in (b := up0) (h.x.sub h.v) Iv.In.zero).mul (h.fx.sub h.fw))).sub
    ((ite_in (b := up0) (h.x.sub h.w) Iv.In.zero).mul
      ((ite_in (b := up0) (h.x.sub h.w) Iv.In.zero).mul (h.fx.sub h.fv)))
  refine as_in (h1) ?_
  unfold BState.paraP
  rw [hu]
  simp only [fa_mul, fa_sub, fa_ofRat]
  push_cast
  rfl

theorem clamp_in (h : Enc s i) {st : ℝ} {j k : Iv} (hs : In st j) (hk : clamp i j = some k) :
    In (s.clamp cfgR st) k := by
  unfold clamp at hk
  simp only [Option.bind_eq_bind, Option.bind_eq_some_iff] at hk
  obtain ⟨c1, e1, c2, e2, hk⟩ := hk
  have e1 := Iv.lt_of ((h.x.add hs).sub h.a) (tol2_in h) e1
  have e2 := Iv.lt_of (h.b.sub (h.x.add hs)) (tol2_in h) e2
  unfold BState.clamp
  simp only [PyArith.gt, fa_add, fa_sub, fa_lt, fa_abs, fa_neg, fa_ofRat, Rat.cast_zero] at e1 e2 ⊢
  rw [e1, e2]
  cases hc : (c1 || c2) with
  | true =>
    rw [hc] at hk
    simp only [if_true, Option.bind_eq_some_iff, Option.pure_def, Option.some.injEq] at hk
    obtain ⟨c3, e3, rfl⟩ := hk
    have e3 := Iv.lt_of h.x (mid_in h) e3
    rw [e3]
    simp only [if_true]
    have key : ¬ |if c3 = true then s.tol cfgR else -s.tol cfgR| < s.tol cfgR := by
      cases c3 <;> simp [le_abs_self]
    rw [decide_eq_false key]
    simp only [Bool.false_eq_true, if_false]
    exact ite_in (tol_in h) (tol_in h).neg
  | false =>
    rw [hc] at hk
    simp only [Bool.false_eq_true, if_false, Option.bind_eq_some_iff, Option.pure_def, Option.some.injEq] at hk
    obtain ⟨c4, e4, c5, e5, rfl⟩ := hk
    have e4 := Iv.lt_of hs.abs (tol_in h) e4
    have e5 := Iv.lt_of Iv.In.zero hs e5
    simp only [Bool.false_eq_true, if_false]
    rw [e4, e5]
    exact ite_in (ite_in (tol_in h) (tol_in h).neg) hs

theorem change_of (h : Enc s i) {up : Bool} {st : ℝ} {j : Iv} (hs : In st j) {b : Bool}
    (hb : change i up j = some b) :
    (up && (PyArith.lt s.b (PyArith.add s.x st) || PyArith.gt s.a (PyArith.add s.x st) ||
      PyArith.gt (PyArith.abs st) (PyArith.mul (PyArith.ofRat (1 / 2)) (PyArith.abs s.e)))) = b := by
  have hh : In (PyArith.mul (PyArith.ofRat (1 / 2)) (PyArith.abs s.e)) (i.e.abs.part 2) := by
    refine as_in (h.e.abs.part (n := 2) (by decide)) ?_
    simp only [fa_mul, fa_ofRat, fa_abs]
    push_cast
    ring
  unfold change at hb
  cases up with
  | false => simpa using hb
  | true =>
    simp only [if_true] at hb
    split at hb
    · rename_i hc
      have e3 := Iv.lt_of hh hs.abs hc
      cases hb
      simp only [PyArith.gt, fa_lt, fa_abs] at e3 ⊢
      rw [e3]
      simp
    · simp only [Option.bind_eq_bind, Option.bind_eq_some_iff, Option.pure_def, Option.some.injEq] at hb
      obtain ⟨c1, e1, c2, e2, c3, e3, rfl⟩ := hb
      have e1 := Iv.lt_of h.b (h.x.add hs) e1
      have e2 := Iv.lt_of (h.x.add hs) h.a e2
      have e3 := Iv.lt_of hh hs.abs e3
      simp only [PyArith.gt, fa_lt, fa_abs, fa_add] at e1 e2 e3 ⊢
      rw [e1, e2, e3, Bool.true_and]

theorem step_in (h : Enc s i) {k : Iv} (hk : step i = some k) : In (s.step cfgR) k := by
  unfold step at hk
  simp only [Option.bind_eq_bind, Option.bind_eq_some_iff] at hk
  obtain ⟨up0, e1, z, e2, pos, e3, fu, e4, ch, e5, hk⟩ := hk
  have e1 : PyArith.gt (PyArith.abs s.e) (s.tol cfgR) = up0 := Iv.lt_of (tol_in h) h.e.abs e1
  have hq := paraQ_in h e1
  have e2' : PyArith.eq (s.paraQ cfgR) (PyArith.ofRat 0) = z := by
    have := Iv.eq_of hq Iv.In.zero e2
    simpa [fa_eq, fa_ofRat] using this
  have e3 : PyArith.gt (s.paraQ cfgR) (PyArith.ofRat 0) = pos := by
    have := Iv.lt_of Iv.In.zero hq e3
    simpa [PyArith.gt, fa_lt, fa_ofRat] using this
  have e4 : PyArith.ge s.x s.mid = fu := Iv.le_of (mid_in h) h.x e4
  have hup : s.usePara cfgR = (up0 && !z) := by
    unfold BState.usePara
    rw [e1, e2']
  have hgold := gf2_in.mul ((ite_in (b := fu) h.a h.b).sub h.x)
  have hp : In (if pos then -(if (up0 && !z) then s.paraP cfgR else 0) else if (up0 && !z) then s.paraP cfgR else 0)
      (if pos then (if up0 && !z then paraP i up0 else .zero).neg else if up0 && !z then paraP i up0 else .zero) :=
    ite_in (ite_in (paraP_in h e1) Iv.In.zero).neg (ite_in (paraP_in h e1) Iv.In.zero)
  have h0 : In (if (up0 && !z) = true then
      (if pos then -(if (up0 && !z) then s.paraP cfgR else 0) else if (up0 && !z) then s.paraP cfgR else 0) /
        |s.paraQ cfgR| else cfgR.gf2 * ((if fu then s.a else s.b) - s.x))
      (if (up0 && !z) = true then ((if pos then (if up0 && !z then paraP i up0 else .zero).neg
        else if up0 && !z then paraP i up0 else .zero)).div (paraQ i up0).abs
        else gf2.mul ((if fu then i.a else i.b).sub i.x)) := by
    cases hc : (up0 && !z) with
    | false => simpa using hgold
    | true =>
      rw [hc] at hp
      simp only [if_true] at hp ⊢
      refine hp.div hq.abs (Iv.abs_pos hq ?_)
      rw [e2]
      simp only [Bool.and_eq_true, Bool.not_eq_true'] at hc
      rw [hc.2]
  have hch := change_of h h0 e5
  rw [BState.step_eq, hup]
  have h1 := ite_in (b := ch) hgold h0
  have h2 := clamp_in h h1 hk
  unfold BState.stepTail
  simp only [e3, e4]
  simp only [fa_mul, fa_sub, fa_div, fa_neg, fa_abs, fa_ofRat, Rat.cast_zero] at hch ⊢
  rw [hch]
  refine as_in (h2) ?_
  unfold BState.clamp
  simp only [fa_sub, fa_neg, fa_abs, fa_ofRat, Rat.cast_zero, fa_add]
  cases ch <;> rfl

theorem update_in (h : Enc s i) {st fu : ℝ} {j k : Iv} (hs : In st j) (hf : In fu k) {i' : BState Iv}
    (hi : update i j k = some i') : Enc (s.update st fu) i' := by
  unfold update at hi
  simp only [Option.bind_eq_bind, Option.bind_eq_some_iff, Option.pure_def, Option.some.injEq] at hi
  obtain ⟨less, e1, right, e2, lw, e3, lv, e4, wx, e5, vw, e6, vx, e7, rfl⟩ := hi
  have hu := h.x.add hs
  have e1 := Iv.le_of hf h.fx e1
  have e2 := Iv.le_of h.x hu e2
  have e3 := Iv.le_of hf h.fw e3
  have e4 := Iv.le_of hf h.fv e4
  have e5 := Iv.eq_of h.w h.x e5
  have e6 := Iv.eq_of h.v h.w e6
  have e7 := Iv.eq_of h.v h.x e7
  have e2' : decide (s.x + st < s.x) = !right := by rw [← e2, ← decide_not]; simp only [not_le]
  unfold BState.update
  simp only [PyArith.ge, fa_le, fa_add, fa_eq, fa_lt, e1, e2, e3, e4, e5, e6, e7, e2']
  exact ⟨ite_in h.x (ite_in hu h.a), ite_in h.x (ite_in hu h.b), ite_in h.w (ite_in hu h.v),
    ite_in h.x (ite_in hu h.w), ite_in hu h.x, ite_in h.fw (ite_in hf h.fv), ite_in h.fx (ite_in hf h.fw),
    ite_in hf h.fx, hs, h.d⟩

theorem x0_in : In cfgR.x0 x0 := by
  have h1 := Iv.In.frac (-3) (b := 1) (by decide)
  have h2 := Iv.In.frac 10 (b := 1) (by decide)
  refine as_in (h1.add (gf2_in.mul (h2.sub h1))) ?_
  simp only [MinCfg.x0, cfgR, fa_add, fa_sub, fa_mul]
  norm_num

/-- The search with real numbers is enclosed in the search with intervals. -/
theorem run_in {G : ℝ → ℝ} {g : Iv → Option Iv} (hg : ∀ u j k, In u j → g j = some k → In (G u) k) (n : Nat) {i : BState Iv}
    (hi : run g n = some i) :
    Enc ((fun s => s.update (s.step cfgR) (G (s.x + s.step cfgR)))^[n] (cfgR.init (G cfgR.x0))) i := by
  induction n generalizing i with
  | zero =>
    unfold run at hi
    simp only [Option.bind_eq_bind, Option.bind_eq_some_iff, Option.pure_def, Option.some.injEq] at hi
    obtain ⟨f0, h1, rfl⟩ := hi
    have hf := hg _ _ _ x0_in h1
    have h1 := Iv.In.frac (-3) (b := 1) (by decide)
    have h2 := Iv.In.frac 10 (b := 1) (by decide)
    have h0 := Iv.In.zero
    refine ⟨?_, ?_, x0_in, x0_in, x0_in, hf, hf, hf, ?_, ?_⟩
    · refine as_in (h1) ?_
      simp only [Function.iterate_zero, id, MinCfg.init, cfgR]
      norm_num
    · refine as_in (h2) ?_
      simp only [Function.iterate_zero, id, MinCfg.init, cfgR]
      norm_num
    · refine as_in (h0) ?_
      simp only [Function.iterate_zero, id, MinCfg.init, fa_ofRat, Rat.cast_zero]
    · refine as_in (h0) ?_
      simp only [Function.iterate_zero, id, MinCfg.init, fa_ofRat, Rat.cast_zero]
  | succ n ih =>
    unfold run at hi
    simp only [Option.bind_eq_bind, Option.bind_eq_some_iff] at hi
    obtain ⟨j, h1, h2⟩ := hi
    unfold advance at h2
    simp only [Option.bind_eq_bind, Option.bind_eq_some_iff] at h2
    obtain ⟨st, h3, fu, h4, h5⟩ := h2
    have hE := ih h1
    rw [Function.iterate_succ_apply']
    exact update_in hE (step_in hE h3) (hg _ _ _ (hE.x.add (step_in hE h3)) h4) h5

/-! ### The power series -/

/-- The first `n` terms of the power series of the exponential function, nested. -/
noncomputable def nest (z : ℝ) : Nat → Nat → ℝ
  | _, 0 => 1
  | j, n + 1 => 1 + z / ((j + 1 : Int) : ℝ) * nest z (j + 1) n

theorem nest_sum (z : ℝ) (j n : Nat) :
    nest z j n = ∑ m ∈ Finset.range (n + 1), z ^ m * (j.factorial : ℝ) / ((j + m).factorial : ℝ) := by
  induction n generalizing j with
  | zero =>
    have : (j.factorial : ℝ) ≠ 0 := by exact_mod_cast j.factorial_ne_zero
    simp [nest, this]
  | succ n ih =>
    rw [nest, ih, Finset.sum_range_succ' _ (n + 1), Finset.mul_sum, add_comm]
    have hj : (j.factorial : ℝ) ≠ 0 := by exact_mod_cast j.factorial_ne_zero
    congr 1
    · refine Finset.sum_congr rfl fun m _ => ?_
      rw [show j + 1 + m = j + (m + 1) by omega, Nat.factorial_succ j]
      have h1 : ((j : ℝ) + 1) ≠ 0 := by positivity
      push_cast
      field_simp
      exact (pow_succ' z m).symm
    · simp [hj]

theorem nest_exp {z : ℝ} (hz : |z| ≤ 1 / 4) : |Real.exp z - nest z 0 30| * (2 ^ 160 : ℝ) ≤ 1 := by
  have h := Real.exp_bound (x := z) (by linarith) (n := 31) (by norm_num)
  rw [nest_sum]
  simp only [Nat.factorial_zero, Nat.cast_one, mul_one, Nat.zero_add]
  have h1 : |z| ^ 31 ≤ (1 / 4) ^ 31 := pow_le_pow_left₀ (abs_nonneg _) hz 31
  have h2 : |z| ^ 31 * ((31 : Nat).succ / ((31 : Nat).factorial * (31 : Nat)) : ℝ) ≤
      (1 / 4) ^ 31 * ((31 : Nat).succ / ((31 : Nat).factorial * (31 : Nat)) : ℝ) :=
    mul_le_mul_of_nonneg_right h1 (by positivity)
  have h3 := mul_le_mul_of_nonneg_right (h.trans h2) (by positivity : (0 : ℝ) ≤ 2 ^ 160)
  refine h3.trans ?_
  norm_num [Nat.factorial]

end

/-- Enclosures of the nested power series. -/
def taylor (z : Iv) : Nat → Nat → Iv
  | _, 0 => Iv.frac 1 1
  | j, n + 1 => (Iv.frac 1 1).add ((z.part (j + 1)).mul (taylor z (j + 1) n))

/-- Enclosures of `exp z` for small `z`. -/
def smallExp (z : Iv) : Option Iv :=
  if -Iv.one ≤ 4 * z.lo ∧ 4 * z.hi ≤ Iv.one then some ((taylor z 0 30).add ⟨-1, 1⟩) else none

/-- Enclosures of `exp (u / 2)`. -/
def expHalf (u : Iv) : Option Iv := do
  let z ← smallExp (u.part 64)
  let z2 := z.mul z
  let z4 := z2.mul z2
  let z8 := z4.mul z4
  let z16 := z8.mul z8
  pure (z16.mul z16)

theorem taylor_in {z : ℝ} {i : Iv} (h : Iv.In z i) (j n : Nat) : Iv.In (nest z j n) (taylor i j n) := by
  have h1 : Iv.In 1 (Iv.frac 1 1) := as_in (Iv.In.frac 1 (b := 1) (by decide)) (by norm_num)
  induction n generalizing j with
  | zero => exact h1
  | succ n ih => exact h1.add ((h.part (by omega)).mul (ih _))

theorem smallExp_in {z : ℝ} {i k : Iv} (h : Iv.In z i) (hk : smallExp i = some k) : Iv.In (Real.exp z) k := by
  unfold smallExp at hk
  split at hk
  · rename_i hc
    cases hk
    have ho := Iv.oneR
    have hone : (Iv.one : ℝ) = 2 ^ 160 := by
      unfold Iv.one
      norm_num
    have c1 : -(Iv.one : ℝ) ≤ 4 * i.lo := by exact_mod_cast hc.1
    have c2 : 4 * (i.hi : ℝ) ≤ Iv.one := by exact_mod_cast hc.2
    have hz : |z| ≤ 1 / 4 := by
      refine abs_le.2 ⟨?_, ?_⟩
      · refine le_of_mul_le_mul_right ?_ ho
        linarith [h.1]
      · refine le_of_mul_le_mul_right ?_ ho
        linarith [h.2]
    have he : |(Real.exp z - nest z 0 30) * Iv.one| ≤ 1 := by
      rw [abs_mul, abs_of_pos ho, hone]
      exact nest_exp hz
    rw [abs_le] at he
    have ht := taylor_in h 0 30
    unfold Iv.In Iv.add at *
    push_cast
    constructor <;> linarith [he.1, he.2, ht.1, ht.2]
  · cases hk

theorem expHalf_in {u : ℝ} {i k : Iv} (h : Iv.In u i) (hk : expHalf i = some k) : Iv.In (Real.exp (u / 2)) k := by
  unfold expHalf at hk
  simp only [Option.bind_eq_bind, Option.bind_eq_some_iff, Option.pure_def, Option.some.injEq] at hk
  obtain ⟨z, h1, rfl⟩ := hk
  have h2 := smallExp_in (h.part (n := 64) (by decide)) h1
  have key : ∀ {x : ℝ} {j : Iv}, Iv.In (Real.exp x) j → Iv.In (Real.exp (x + x)) (j.mul j) := by
    intro x j hx
    rw [Real.exp_add]
    exact hx.mul hx
  have h3 := key (key (key (key (key h2))))
  refine as_in h3 (congrArg _ ?_)
  push_cast
  ring

end IvSearch

/-! ## Scaling the residue

The search compares residues only with each other, so that a residue in other units leads to the same points. -/

section
attribute [local instance] fieldArith

/-- The loop variables with residues in other units. -/
def BState.rescale (κ : ℝ) (s : BState ℝ) : BState ℝ :=
  { s with fv := κ * s.fv, fw := κ * s.fw, fx := κ * s.fx }

variable {κ : ℝ} (hκ : 0 < κ)

include hκ in
theorem rescale_step (s : BState ℝ) (c : MinCfg ℝ) : (s.rescale κ).step c = s.step c := by
  have ht : PyArith.gt (PyArith.abs (s.rescale κ).e) ((s.rescale κ).tol c) =
    PyArith.gt (PyArith.abs s.e) (s.tol c) := rfl
  have hq : (s.rescale κ).paraQ c = κ * s.paraQ c := by
    unfold BState.paraQ
    rw [ht]
    generalize PyArith.gt (PyArith.abs s.e) (s.tol c) = b
    simp only [BState.rescale, fa_mul, fa_sub, fa_ofRat]
    ring
  have hp : (s.rescale κ).paraP c = κ * s.paraP c := by
    unfold BState.paraP
    rw [ht]
    generalize PyArith.gt (PyArith.abs s.e) (s.tol c) = b
    simp only [BState.rescale, fa_mul, fa_sub, fa_ofRat]
    ring
  have hu : (s.rescale κ).usePara c = s.usePara c := by
    unfold BState.usePara
    rw [hq]
    have : PyArith.eq (κ * s.paraQ c) (PyArith.ofRat 0) = PyArith.eq (s.paraQ c) (PyArith.ofRat 0) := by
      simp only [fa_eq, fa_ofRat, Rat.cast_zero, mul_eq_zero, hκ.ne', false_or]
    rw [this]
    rfl
  have hg : PyArith.gt (κ * s.paraQ c) (PyArith.ofRat 0) = PyArith.gt (s.paraQ c) (PyArith.ofRat 0) := by
    simp only [PyArith.gt, fa_lt, fa_ofRat, Rat.cast_zero, mul_pos_iff_of_pos_left hκ]
  have hd : ∀ x y : ℝ, κ * x / |κ * y| = x / |y| := by
    intro x y
    rw [abs_mul, abs_of_pos hκ, mul_div_mul_left _ _ hκ.ne']
  rw [BState.step_eq, BState.step_eq, hu, hp, hq, hg]
  have key : (PyArith.div (if PyArith.gt (s.paraQ c) (PyArith.ofRat 0) then
        PyArith.neg (if s.usePara c then κ * s.paraP c else PyArith.ofRat 0)
        else if s.usePara c then κ * s.paraP c else PyArith.ofRat 0) (PyArith.abs (κ * s.paraQ c)) : ℝ) =
      PyArith.div (if PyArith.gt (s.paraQ c) (PyArith.ofRat 0) then
        PyArith.neg (if s.usePara c then s.paraP c else PyArith.ofRat 0)
        else if s.usePara c then s.paraP c else PyArith.ofRat 0) (PyArith.abs (s.paraQ c)) := by
    generalize PyArith.gt (s.paraQ c) (PyArith.ofRat 0) = b
    generalize s.usePara c = u
    simp only [fa_div, fa_abs, fa_neg, fa_ofRat, Rat.cast_zero]
    conv_rhs => rw [← hd]
    congr 1
    cases b <;> cases u <;> simp
  rw [key]
  rfl

include hκ in
theorem rescale_update (s : BState ℝ) (st fu : ℝ) :
    (s.rescale κ).update st (κ * fu) = (s.update st fu).rescale κ := by
  have hle : ∀ x y : ℝ, decide (κ * x ≤ κ * y) = decide (x ≤ y) := fun x y => by
    simp only [mul_le_mul_iff_right₀ hκ]
  have hi : ∀ (b : Bool) (x y : ℝ), (if b then κ * x else κ * y) = κ * (if b then x else y) := fun b x y => by
    cases b <;> rfl
  simp only [BState.update, BState.rescale, PyArith.ge, fa_add, fa_le, fa_lt, fa_eq, hle, hi]
  rfl

include hκ in
theorem rescale_run (c : MinCfg ℝ) (G : ℝ → ℝ) (n : Nat) :
    (fun s => s.update (s.step c) (κ * G (s.x + s.step c)))^[n] (c.init (κ * G c.x0)) =
      ((fun s => s.update (s.step c) (G (s.x + s.step c)))^[n] (c.init (G c.x0))).rescale κ := by
  induction n with
  | zero => rfl
  | succ n ih =>
    rw [Function.iterate_succ_apply', Function.iterate_succ_apply', ih]
    simp only [rescale_step hκ]
    exact rescale_update hκ _ _ _

end

end Gerabaldi
