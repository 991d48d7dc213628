import Verif.Lemmas.BrentMove
import Mathlib.Tactic.IntervalCases

/-!
# The search on an increasing residue that flattens out stops within 49 iterations

Golden steps shrink the distance to the lower end by a fixed factor. Between them a bounded number of
parabolic steps is possible: they halve the distances, and are rejected once the distances are small. The
possible sequences are covered by a table of distances that is checked by computation.
-/

namespace Gerabaldi

attribute [local instance] fieldArith

open PyArith Props

/-! ## The table -/

namespace Brent

/-- Upper bounds for `b - x` and `|e|` in units of 1e-5, whether the last move was to the right, and the
number of iterations left until the last level. -/
abbrev Node := Nat × Nat × Bool × Nat

/-- Bounds for `b - x` after the golden step from each level. -/
def gz : List Nat :=
  [117227, 72451, 44778, 27675, 17104, 10571, 6534, 4038, 2496, 1543, 954, 590, 365, 226, 140, 86, 54, 33,
    21, 13, 8, 5, 3, 2, 2, 1]

/-- For each level the distances that can occur. -/
def table : List (List Node) :=
  [
    [(13172, 22261, true, 36), (22261, 22261, false, 36), (22261, 37622, false, 37),
      (22261, 37622, true, 36), (37622, 37622, false, 38), (37622, 63582, false, 39),
      (37622, 63582, true, 39), (63582, 63582, false, 40), (63582, 107454, false, 41),
      (63582, 107454, true, 41), (107454, 107454, false, 42), (107454, 181597, false, 43),
      (107454, 181597, true, 43), (107454, 189800, true, 43), (181597, 189800, false, 44),
      (189800, 306900, false, 45)],
    [(2099, 4038, true, 30), (4038, 7794, true, 30), (4038, 63582, false, 32), (4038, 63582, true, 32),
      (7794, 13172, true, 30), (7794, 63582, false, 32), (7794, 63582, true, 32), (7794, 117227, false, 34),
      (7794, 117227, true, 34), (13172, 22261, true, 30), (13172, 37622, false, 30),
      (13172, 37622, true, 30), (13172, 63582, false, 32), (13172, 63582, true, 32),
      (13172, 117227, false, 34), (13172, 117227, true, 34), (22261, 22261, false, 30),
      (22261, 37622, false, 31), (22261, 37622, true, 30), (22261, 63582, false, 32),
      (22261, 63582, true, 32), (22261, 117227, false, 34), (22261, 117227, true, 34),
      (37622, 4038, false, 31), (37622, 7794, false, 31), (37622, 13172, false, 31),
      (37622, 22261, false, 31), (37622, 37622, false, 32), (37622, 63582, false, 33),
      (37622, 63582, true, 33), (37622, 117227, false, 34), (37622, 117227, true, 34),
      (63582, 7794, false, 33), (63582, 13172, false, 33), (63582, 22261, false, 33),
      (63582, 37622, false, 33), (63582, 63582, false, 34), (63582, 107454, false, 35),
      (63582, 107454, true, 35), (63582, 117227, false, 35), (63582, 117227, true, 35),
      (107454, 117227, false, 36), (117227, 13172, false, 35), (117227, 13172, true, 33),
      (117227, 22261, false, 35), (117227, 22261, true, 33), (117227, 37622, false, 35),
      (117227, 37622, true, 33), (117227, 63582, false, 35), (117227, 63582, true, 35),
      (117227, 107454, false, 36), (117227, 107454, true, 36), (117227, 181597, false, 37),
      (117227, 181597, true, 37), (117227, 189800, false, 37), (117227, 189800, true, 37)],
    [(735, 1242, true, 26), (1242, 2099, true, 26), (1242, 72451, false, 28), (1242, 72451, true, 28),
      (2099, 4038, true, 26), (2099, 72451, false, 28), (2099, 72451, true, 28), (4038, 7794, true, 26),
      (4038, 72451, false, 28), (4038, 72451, true, 28), (7794, 13172, true, 26), (7794, 72451, false, 28),
      (7794, 72451, true, 28), (13172, 22261, true, 27), (13172, 37622, false, 27), (13172, 37622, true, 27),
      (13172, 72451, false, 28), (13172, 72451, true, 28), (22261, 22261, false, 27),
      (22261, 37622, false, 28), (22261, 37622, true, 27), (22261, 72451, false, 29),
      (22261, 72451, true, 29), (37622, 1242, false, 27), (37622, 2099, false, 27), (37622, 4038, false, 27),
      (37622, 7794, false, 27), (37622, 13172, false, 27), (37622, 22261, false, 28),
      (37622, 37622, false, 29), (37622, 63582, false, 30), (37622, 63582, true, 30),
      (37622, 72451, false, 30), (37622, 72451, true, 30), (63582, 72451, false, 31),
      (72451, 2099, false, 29), (72451, 2099, true, 27), (72451, 4038, false, 29), (72451, 4038, true, 27),
      (72451, 7794, false, 29), (72451, 7794, true, 27), (72451, 13172, false, 29), (72451, 13172, true, 27),
      (72451, 22261, false, 29), (72451, 22261, true, 27), (72451, 37622, false, 30),
      (72451, 37622, true, 27), (72451, 63582, false, 31), (72451, 63582, true, 31),
      (72451, 107454, false, 32), (72451, 107454, true, 32), (72451, 117227, false, 32),
      (72451, 117227, true, 32)],
    [(4038, 7794, true, 23), (7794, 13172, true, 23), (7794, 44778, false, 23), (7794, 44778, true, 25),
      (13172, 22261, true, 23), (13172, 44778, false, 25), (13172, 44778, true, 25),
      (17104, 27675, false, 23), (17104, 27675, true, 23), (22261, 27675, false, 23),
      (22261, 37622, true, 23), (22261, 44778, false, 25), (22261, 44778, true, 25),
      (27675, 7794, false, 24), (27675, 13172, false, 24), (27675, 22261, false, 24),
      (27675, 27675, false, 24), (27675, 37622, false, 24), (27675, 44778, true, 25),
      (37622, 44778, false, 25), (44778, 735, false, 25), (44778, 735, true, 25), (44778, 1242, false, 25),
      (44778, 1242, true, 25), (44778, 2099, false, 25), (44778, 2099, true, 25), (44778, 4038, false, 25),
      (44778, 4038, true, 25), (44778, 7794, false, 25), (44778, 7794, true, 25), (44778, 13172, false, 26),
      (44778, 13172, true, 25), (44778, 22261, false, 26), (44778, 22261, true, 25),
      (44778, 37622, false, 26), (44778, 37622, true, 25), (44778, 63582, false, 26),
      (44778, 63582, true, 26), (44778, 72451, false, 26), (44778, 72451, true, 26)],
    [(17104, 27675, false, 22), (17104, 27675, true, 22), (22261, 27675, false, 22),
      (27675, 4038, false, 22), (27675, 4038, true, 22), (27675, 7794, false, 22), (27675, 7794, true, 22),
      (27675, 13172, false, 22), (27675, 13172, true, 22), (27675, 17104, false, 22),
      (27675, 17104, true, 22), (27675, 22261, false, 22), (27675, 22261, true, 22),
      (27675, 27675, false, 23), (27675, 27675, true, 22), (27675, 37622, false, 23),
      (27675, 37622, true, 22), (27675, 44778, false, 24), (27675, 44778, true, 24)],
    [(17104, 17104, false, 21), (17104, 17104, true, 21), (17104, 22261, false, 21),
      (17104, 22261, true, 21), (17104, 27675, false, 21), (17104, 27675, true, 21)],
    [(10571, 17104, false, 20), (10571, 17104, true, 20)],
    [(6534, 10571, false, 19), (6534, 10571, true, 19)],
    [(4038, 6534, false, 18), (4038, 6534, true, 18)],
    [(2496, 4038, false, 17), (2496, 4038, true, 17)],
    [(1543, 2496, false, 16), (1543, 2496, true, 16)],
    [(954, 1543, false, 15), (954, 1543, true, 15)],
    [(590, 954, false, 14), (590, 954, true, 14)],
    [(365, 590, false, 13), (365, 590, true, 13)],
    [(226, 365, false, 12), (226, 365, true, 12)],
    [(140, 226, false, 11), (140, 226, true, 11)],
    [(86, 140, false, 10), (86, 140, true, 10)],
    [(54, 86, false, 9), (54, 86, true, 9)],
    [(33, 54, false, 8), (33, 54, true, 8)],
    [(21, 33, false, 7), (21, 33, true, 7)],
    [(13, 21, false, 6), (13, 21, true, 6)],
    [(8, 13, false, 5), (8, 13, true, 5)],
    [(5, 8, false, 4), (5, 8, true, 4)],
    [(3, 5, false, 3), (3, 5, true, 3)],
    [(2, 3, false, 2), (2, 3, true, 2)],
    [(2, 2, false, 1), (2, 2, true, 1)]]

/-- `table` has an entry with at least these distances and at most `r` iterations left. -/
def covers (r i d e : Nat) (R : Bool) : Bool :=
  if i = 26 then decide (d ≤ 10000) && decide (e ≤ 10000)
  else (table.getD i []).any fun m => decide (d ≤ m.1) && decide (e ≤ m.2.1) && (m.2.2.1 == R) &&
    decide (m.2.2.2 ≤ r)

/-- All successors of an entry are covered. -/
def nodeOk (i : Nat) (n : Node) : Bool :=
  let d := n.1
  let e := n.2.1
  let r := n.2.2.2
  decide (0 < r) && covers (r - 1) (i + 1) (gz.getD i 0) d false &&
    covers (r - 1) (i + 1) (gz.getD i 0) d true &&
    (!(if n.2.2.1 then decide (40000 < e) else decide (53000 < d + e)) ||
      (covers (r - 1) i ((e + 1) / 2) d false && covers (r - 1) i ((min d e + 1) / 2) d true))

theorem table_ok : ((List.range 26).all fun i => (table.getD i []).all (nodeOk i)) = true := by
  decide +kernel

theorem table_start : covers 45 0 189800 306900 false = true := by decide +kernel

theorem covers_pred {r i d e : Nat} {R : Bool} (hi : i < 26) (h : covers r i d e R = true) :
    ∃ d' e', d ≤ d' ∧ e ≤ e' ∧ 0 < r ∧ covers (r - 1) (i + 1) (gz.getD i 0) d' false = true ∧
      covers (r - 1) (i + 1) (gz.getD i 0) d' true = true ∧
      ((if R then 40000 < e' else 53000 < d' + e') →
        covers (r - 1) i ((e' + 1) / 2) d' false = true ∧
        covers (r - 1) i ((min d' e' + 1) / 2) d' true = true) := by
  have mono : ∀ {r r' i d e R}, r ≤ r' → covers r i d e R = true → covers r' i d e R = true := by
    intro r r' i d e R hr h
    unfold covers at h ⊢
    by_cases hi : i = 26
    · rw [if_pos hi] at h ⊢; exact h
    · rw [if_neg hi] at h ⊢
      rw [List.any_eq_true] at h ⊢
      obtain ⟨m, h1, h2⟩ := h
      refine ⟨m, h1, ?_⟩
      simp only [Bool.and_eq_true, decide_eq_true_eq] at h2 ⊢
      exact ⟨h2.1, h2.2.trans hr⟩
  have hc := h
  unfold covers at hc
  rw [if_neg (by omega), List.any_eq_true] at hc
  obtain ⟨⟨d', e', R', r'⟩, hm, hm'⟩ := hc
  simp only [Bool.and_eq_true, decide_eq_true_eq, beq_iff_eq] at hm'
  obtain ⟨⟨⟨h1, h2⟩, rfl⟩, h4⟩ := hm'
  have ht := table_ok
  rw [List.all_eq_true] at ht
  have ht2 := ht i (List.mem_range.2 hi)
  rw [List.all_eq_true] at ht2
  have hn := ht2 _ hm
  simp only [nodeOk, Bool.and_eq_true, decide_eq_true_eq, Bool.or_eq_true, Bool.not_eq_true'] at hn
  obtain ⟨⟨⟨h5, h6⟩, h7⟩, h8⟩ := hn
  have hr : r' - 1 ≤ r - 1 := by omega
  refine ⟨d', e', h1, h2, by omega, mono hr h6, mono hr h7, fun hf => ?_⟩
  rcases h8 with h8 | h8
  · exfalso
    cases R' <;> simp at h8 hf <;> omega
  · exact ⟨mono hr h8.1, mono hr h8.2⟩

end Brent

/-! ## Levels -/

/-- Bound of the distance to the lower end after `i` golden steps. -/
noncomputable def lvl (i : Nat) : ℝ := 30690 / 10000 * (61804 / 100000) ^ i

theorem lvl_succ (i : Nat) : lvl (i + 1) = 61804 / 100000 * lvl i := by
  unfold lvl; rw [pow_succ]; ring

theorem lvl_end : 339 / 100 * tau ≤ lvl 26 ∧ lvl 26 ≤ 35 / 10 * tau := by
  unfold lvl tau; norm_num

theorem lvl_anti {i j : Nat} (h : i ≤ j) : lvl j ≤ lvl i := by
  unfold lvl
  exact mul_le_mul_of_nonneg_left (pow_le_pow_of_le_one (by norm_num) (by norm_num) h) (by norm_num)

theorem lvl_gz {i : Nat} (h : i < 26) : 38197 / 100000 * lvl i ≤ (Brent.gz.getD i 0 : ℕ) / 100000 := by
  unfold lvl
  interval_cases i <;> norm_num [Brent.gz]

/-- The distances are bounded by `Z`. -/
structure Lev (Z : ℝ) (s : BState ℝ) : Prop where
  a : s.a = -3
  P : s.x - s.a ≤ Z
  B : s.b - s.a ≤ Z ∨ s.b - s.x ≤ s.x - s.a
  D : tau ≤ s.b - s.x

theorem tau_pos : (0 : ℝ) < tau := by unfold tau; norm_num

theorem MoveL.dist {s s' : BState ℝ} {c : ℝ} (m : MoveL s s' c) : s'.b - s'.x = c := by
  rw [m.b, m.x]; ring

theorem MoveR.dist {s s' : BState ℝ} {c : ℝ} (m : MoveR s s' c) : s'.b - s'.x = c := by
  rw [m.b, m.x]; ring

theorem Lev.para {Z : ℝ} {s s' : BState ℝ} (h : Lev Z s) {c : ℝ} (c0 : tau ≤ c)
    (m : MoveL s s' c ∨ (MoveR s s' c ∧ 2 * c ≤ s.b - s.x)) : Lev Z s' := by
  have ht := tau_pos
  obtain ⟨h1, h2, h3, h4⟩ := h
  rcases m with m | ⟨m, hc⟩
  · refine ⟨m.a.trans h1, ?_, .inl ?_, by rw [m.dist]; exact c0⟩
    · rw [m.x, m.a]; linarith
    · rw [m.b, m.a]; exact h2
  · refine ⟨m.a.trans h1, ?_, ?_, by rw [m.dist]; exact c0⟩
    · rw [m.x, m.a]; exact h2
    · rw [m.dist, m.b, m.a, m.x]
      rcases h3 with h3 | h3
      · left; linarith
      · right; linarith

theorem Lev.left {Z : ℝ} {s s' : BState ℝ} (h : Lev Z s) (hZ : 339 / 100 * tau ≤ 61804 / 100000 * Z)
    {c : ℝ} (hDP : s.b - s.x ≤ s.x - s.a) (c0 : tau ≤ c) (m : MoveL s s' c)
    (hc : c = cfgR.gf2 * (s.x - s.a) ∨ (c ≤ 102 / 100 * tau ∧ tau ≤ c ∧ 2 * c ≤ s.x - s.a ∧
        (s.x - s.a < 331 / 100 * tau ∨ s.b - s.x + cfgR.gf2 * (s.x - s.a) < 204 / 100 * tau))) :
    Lev (61804 / 100000 * Z) s' ∧ c ≤ 38197 / 100000 * Z := by
  have ht := tau_pos
  obtain ⟨g1, g2⟩ := gf2_bounds
  obtain ⟨h1, h2, h3, h4⟩ := h
  have hP : 0 < s.x - s.a := by linarith
  rcases hc with rfl | ⟨k1, k2, k3, k4⟩
  · have e1 : cfgR.gf2 * (s.x - s.a) ≤ 38197 / 100000 * (s.x - s.a) :=
      mul_le_mul_of_nonneg_right g2 hP.le
    have e2 : 38196 / 100000 * (s.x - s.a) ≤ cfgR.gf2 * (s.x - s.a) :=
      mul_le_mul_of_nonneg_right g1 hP.le
    refine ⟨⟨m.a.trans h1, ?_, .inr ?_, by rw [m.dist]; exact c0⟩, by linarith⟩
    · rw [m.x, m.a]; linarith
    · rw [m.dist, m.x, m.a]; linarith
  · have hP2 : s.x - s.a < 331 / 100 * tau := by
      rcases k4 with k4 | k4
      · exact k4
      · have e2 : 38196 / 100000 * (s.x - s.a) ≤ cfgR.gf2 * (s.x - s.a) :=
          mul_le_mul_of_nonneg_right g1 hP.le
        linarith
    refine ⟨⟨m.a.trans h1, ?_, .inr ?_, by rw [m.dist]; exact c0⟩, by linarith⟩
    · rw [m.x, m.a]; linarith
    · rw [m.dist, m.x, m.a]; linarith

theorem Lev.right {Z : ℝ} {s s' : BState ℝ} (h : Lev Z s) (hZ : 339 / 100 * tau ≤ 61804 / 100000 * Z)
    (hax : s.a < s.x) {c : ℝ} (hDP : s.x - s.a < s.b - s.x) (c0 : tau ≤ c) (m : MoveR s s' c)
    (hc : c = cfgR.gf2 * (s.b - s.x) ∨ (c ≤ 102 / 100 * tau ∧ tau ≤ c)) :
    Lev (61804 / 100000 * Z) s' ∧ c ≤ 38197 / 100000 * Z := by
  have ht := tau_pos
  obtain ⟨g1, g2⟩ := gf2_bounds
  obtain ⟨h1, h2, h3, h4⟩ := h
  have hB : s.b - s.a ≤ Z := by rcases h3 with h3 | h3 <;> linarith
  have hD : 0 < s.b - s.x := by linarith
  rcases hc with rfl | ⟨k1, k2⟩
  · have e1 : cfgR.gf2 * (s.b - s.x) ≤ 38197 / 100000 * (s.b - s.x) :=
      mul_le_mul_of_nonneg_right g2 hD.le
    refine ⟨⟨m.a.trans h1, ?_, ?_, by rw [m.dist]; exact c0⟩, by linarith⟩
    · rw [m.x, m.a]; linarith
    · rw [m.dist, m.b, m.x, m.a]
      rcases le_or_gt (cfgR.gf2 * (s.b - s.x)) (s.x - s.a) with h5 | h5
      · right; exact h5
      · left; linarith
  · refine ⟨⟨m.a.trans h1, ?_, ?_, by rw [m.dist]; exact c0⟩, by linarith⟩
    · rw [m.x, m.a]; linarith
    · rw [m.dist, m.b, m.x, m.a]
      rcases le_or_gt c (s.x - s.a) with h5 | h5
      · right; exact h5
      · left; linarith

/-! ## A converged element stays converged -/

theorem tol_mono {q q' : BState ℝ} (h : |q.x| ≤ |q'.x|) : q.tol cfgR ≤ q'.tol cfgR := by
  have := mul_le_mul_of_nonneg_left h cfgR_tol.1
  simp only [BState.tol, fa_add, fa_mul, fa_abs]
  linarith

theorem done_stays {g : ℝ → ℝ} (hg : Gentle g) {s : BState ℝ} (hfx : s.fx = g s.x) (hx : s.x ≤ 0)
    (hd : s.done cfgR = true) :
    (s.update (s.step cfgR) (g (s.x + s.step cfgR))).fx = g (s.update (s.step cfgR) (g (s.x + s.step cfgR))).x ∧
    (s.update (s.step cfgR) (g (s.x + s.step cfgR))).x ≤ 0 ∧
    (s.update (s.step cfgR) (g (s.x + s.step cfgR))).done cfgR = true := by
  have ht := tol_pos cfgR_tol.1 cfgR_tol.2 s
  have hi := update_increasing hg.mono s (s.step cfgR) (step_ne_zero cfgR_tol.1 cfgR_tol.2 s) hfx
  have hst : s.step cfgR = s.tol cfgR ∨ s.step cfgR = -s.tol cfgR := by
    have key : ∀ st, s.clamp cfgR st = s.tol cfgR ∨ s.clamp cfgR st = -s.tol cfgR := by
      intro st
      rw [done_iff] at hd
      rcases clamp_cases s ht st with ⟨-, ⟨-, h⟩ | ⟨-, h⟩⟩ | ⟨h1, h2, -⟩
      · exact .inl h
      · exact .inr h
      · exfalso
        rcases le_or_gt 0 st with h | h <;> linarith
    rcases step_cases (k := cfgR) s with h | ⟨st, -, h⟩
    · rw [h]; exact key _
    · rw [h]; exact key _
  rw [done_iff] at hd
  rw [done_iff, hi.1]
  refine ⟨hi.2, ?_⟩
  rcases hst with h | h
  · rw [h]
    have h5 : ¬ g (s.x + s.tol cfgR) ≤ s.fx := by rw [hfx]; exact not_le.2 (hg.mono _ _ (by linarith))
    have h3 : s.x ≤ s.x + s.tol cfgR := by linarith
    have h4 : ¬ s.x + s.tol cfgR < s.x := by linarith
    have hx' : (s.update (s.tol cfgR) (g (s.x + s.tol cfgR))).x = s.x := by
      simp [BState.update, fa_add, fa_le, h5]
    have hb' : (s.update (s.tol cfgR) (g (s.x + s.tol cfgR))).b = s.x + s.tol cfgR := by
      simp [BState.update, fa_add, fa_le, fa_lt, PyArith.ge, h5, h3]
    have htol : (s.update (s.tol cfgR) (g (s.x + s.tol cfgR))).tol cfgR = s.tol cfgR := by
      apply le_antisymm <;> apply tol_mono <;> rw [hx']
    rw [htol, hx', hb']
    exact ⟨hx, by linarith, by linarith⟩
  · rw [h]
    have h5 : g (s.x + -s.tol cfgR) ≤ s.fx := by rw [hfx]; exact (hg.mono _ _ (by linarith)).le
    have h3 : ¬ s.x ≤ s.x + -s.tol cfgR := by linarith
    have h4 : s.x + -s.tol cfgR < s.x := by linarith
    have hx' : (s.update (-s.tol cfgR) (g (s.x + -s.tol cfgR))).x = s.x - s.tol cfgR := by
      simp [BState.update, fa_add, fa_le, h5, sub_eq_add_neg]
    have hb' : (s.update (-s.tol cfgR) (g (s.x + -s.tol cfgR))).b = s.x := by
      simp only [BState.update, fa_add, fa_le, fa_lt, h5, h4, decide_true, Bool.and_self, if_true]
    have htol : s.tol cfgR ≤ (s.update (-s.tol cfgR) (g (s.x + -s.tol cfgR))).tol cfgR := by
      apply tol_mono
      rw [hx', abs_of_nonpos hx, abs_of_nonpos (by linarith)]
      linarith
    rw [hx', hb']
    exact ⟨by linarith, by linarith, by linarith⟩

theorem Trace.stays {g : ℝ → ℝ} (hg : Gentle g) {s s' : BState ℝ} {us : List (ℝ × ℝ)}
    (h : Trace cfgR s us s') (hv : ∀ e ∈ us, e.2 = g e.1) (hfx : s.fx = g s.x) (hx : s.x ≤ 0)
    (hd : s.done cfgR = true) : s'.done cfgR = true := by
  induction h with
  | nil s => exact hd
  | @cons s s' fu es _ ih =>
    have h1 := hv _ List.mem_cons_self
    simp only [cfgR, fa_add] at h1
    change fu = g (s.x + s.step cfgR) at h1
    subst h1
    obtain ⟨h2, h3, h4⟩ := done_stays hg hfx hx hd
    exact ih (fun e he => hv e (List.mem_cons_of_mem _ he)) h2 h3 h4

/-! ## The run -/

/-- The distances of `s` are bounded by level `i` and a table entry. -/
structure Cov (i d e : Nat) (R : Bool) (s : BState ℝ) : Prop where
  lev : Lev (lvl i) s
  D : s.b - s.x ≤ (d : ℝ) / 100000
  E : |s.e| ≤ (e : ℝ) / 100000
  L : R = false → s.v = s.b + |s.e|
  R : R = true → s.v = s.x + |s.e|

/-- Both distances are small and the bracket is a few tolerances wide. -/
theorem end_two {s s' : BState ℝ} (h : Lev (lvl 26) s) (hD : s.b - s.x ≤ 1 / 10) (hE : |s.e| ≤ 1 / 10)
    (hax : s.a < s.x) (m : Move s s') :
    (s'.b - s'.x < 2 * tau ∧ s'.x - s'.a < 2 * tau) ∨
      (s'.b - s'.x < 2 * tau ∧ s'.x - s'.a ≤ 5 / 2 * tau ∧ |s'.e| ≤ 1 / 10) := by
  have ht := tau_pos
  have hl := lvl_end.2
  obtain ⟨g1, g2⟩ := gf2_bounds
  obtain ⟨h1, h2, h3, h4⟩ := h
  cases m with
  | para c far c0 hc m => rcases far with ⟨-, h⟩ | ⟨-, h⟩ <;> linarith
  | gl c hDP c0 m hc =>
    right
    rw [m.dist, m.x, m.a, m.e]
    have e1 : cfgR.gf2 * (s.x - s.a) ≤ 38197 / 100000 * (s.x - s.a) :=
      mul_le_mul_of_nonneg_right g2 (by linarith)
    refine ⟨?_, by linarith, hD⟩
    rcases hc with rfl | ⟨k1, -⟩ <;> linarith
  | gr c hDP c0 m h22 hc =>
    left
    have hB : s.b - s.a ≤ lvl 26 := by rcases h3 with h3 | h3 <;> linarith
    rw [m.dist, m.x, m.a]
    have e1 : cfgR.gf2 * (s.b - s.x) ≤ 38197 / 100000 * (s.b - s.x) :=
      mul_le_mul_of_nonneg_right g2 (by linarith)
    refine ⟨?_, by linarith⟩
    rcases hc with rfl | ⟨k1, -⟩ <;> linarith

theorem end_one {s s' : BState ℝ} (hP : s.x - s.a ≤ 5 / 2 * tau)
    (hD : s.b - s.x < 2 * tau) (hE : |s.e| ≤ 1 / 10) (hax : s.a < s.x) (m : Move s s')
    (hnd : 2 * tau ≤ s.b - s.x ∨ 2 * tau ≤ s.x - s.a) :
    s'.b - s'.x < 2 * tau ∧ s'.x - s'.a < 2 * tau := by
  have ht := tau_pos
  have ht1 : tau ≤ 1 / 100 := by unfold tau; norm_num
  obtain ⟨g1, g2⟩ := gf2_bounds
  cases m with
  | para c far c0 hc m => rcases far with ⟨-, h⟩ | ⟨-, h⟩ <;> linarith
  | gl c hDP c0 m hc =>
    rw [m.dist, m.x, m.a]
    have e1 : cfgR.gf2 * (s.x - s.a) ≤ 38197 / 100000 * (s.x - s.a) :=
      mul_le_mul_of_nonneg_right g2 (by linarith)
    refine ⟨?_, by linarith⟩
    rcases hc with rfl | ⟨k1, -⟩ <;> linarith
  | gr c hDP c0 m h22 hc => rcases hnd with h | h <;> linarith

theorem done_of_tau {s : BState ℝ} (h1 : -4 ≤ s.x) (h2 : s.x ≤ 6) (hD : s.b - s.x < 2 * tau)
    (hP : s.x - s.a < 2 * tau) : s.done cfgR = true := by
  have := (tol_bounds s h1 h2).1
  rw [done_iff]
  constructor <;> linarith

theorem tau_of_not_done {s : BState ℝ} (h1 : -4 ≤ s.x) (h2 : s.x ≤ 6) (h : s.done cfgR = false) :
    2 * tau ≤ s.b - s.x ∨ 2 * tau ≤ s.x - s.a := by
  have := (tol_bounds s h1 h2).1
  rw [not_done_iff] at h
  rcases h with h | h
  · left; linarith
  · right; linarith

/-- A table entry covers the state after a move. -/
theorem Cov.move {i d e : Nat} {R : Bool} {s s' : BState ℝ} (h : Cov i d e R s) (hi : i < 26)
    (hax : s.a < s.x) (hxb : s.x < s.b) (hE : 0 < |s.e|) (m : Move s s') {r : Nat}
    (hc : Brent.covers r i d e R = true) :
    0 < r ∧ ∃ i' d' e' R', i' ≤ 26 ∧ Cov i' d' e' R' s' ∧ Brent.covers (r - 1) i' d' e' R' = true := by
  obtain ⟨d', e', h1, h2, h3, h4, h5, h6⟩ := Brent.covers_pred hi hc
  have ht := tau_pos
  refine ⟨h3, ?_⟩
  have hD : s.b - s.x ≤ (d' : ℝ) / 100000 := by
    have : (d : ℝ) ≤ d' := by exact_mod_cast h1
    linarith [h.D]
  have hE' : |s.e| ≤ (e' : ℝ) / 100000 := by
    have : (e : ℝ) ≤ e' := by exact_mod_cast h2
    linarith [h.E]
  have hZ : 339 / 100 * tau ≤ 61804 / 100000 * lvl i := by
    rw [← lvl_succ]
    exact lvl_end.1.trans (lvl_anti (by omega))
  have hgz := lvl_gz hi
  have hd1 : 1 ≤ d' := by
    by_contra hz
    have : d' = 0 := by omega
    rw [this] at hD
    norm_num at hD
    linarith
  have he1 : 1 ≤ e' := by
    by_contra hz
    have : e' = 0 := by omega
    rw [this] at hE'
    norm_num at hE'
    rw [hE'] at hE; simp at hE
  have htau : 2 * tau ≤ 1 / 100000 := by unfold tau; norm_num
  cases m with
  | para c far c0 hcm m =>
    have hf : if R then 40000 < e' else 53000 < d' + e' := by
      cases R with
      | false =>
        have hv := h.L rfl
        rcases far with ⟨-, hf⟩ | ⟨hf, -⟩
        · have : (53000 : ℝ) < (d' : ℝ) + e' := by linarith
          simp only [Bool.false_eq_true, if_false]
          exact_mod_cast this
        · exfalso; rw [hv] at hf; linarith
      | true =>
        have hv := h.R rfl
        rcases far with ⟨hf, -⟩ | ⟨-, hf⟩
        · exfalso; rw [hv] at hf; linarith
        · have : (40000 : ℝ) < (e' : ℝ) := by linarith
          simp only [if_true]
          exact_mod_cast this
    obtain ⟨h7, h8⟩ := h6 hf
    have half : ∀ n : Nat, 1 ≤ n → (n : ℝ) / 2 ≤ ((n + 1) / 2 : ℕ) ∧ (1 : ℝ) ≤ ((n + 1) / 2 : ℕ) := by
      intro n hn
      constructor
      · have : n ≤ 2 * ((n + 1) / 2) := by omega
        have : (n : ℝ) ≤ 2 * ((n + 1) / 2 : ℕ) := by exact_mod_cast this
        linarith
      · have : 1 ≤ (n + 1) / 2 := by omega
        exact_mod_cast this
    have hcE : c ≤ ((e' + 1) / 2 : ℕ) / 100000 := by
      obtain ⟨k1, k2⟩ := half e' he1
      refine hcm.trans (max_le ?_ ?_) <;> linarith
    rcases m with m | ⟨m, hm⟩
    · exact ⟨i, _, d', false, hi.le, ⟨h.lev.para c0 (.inl m), by rw [m.dist]; exact hcE,
        by rw [m.e]; exact hD, fun _ => m.v, fun hh => (by cases hh)⟩, h7⟩
    · refine ⟨i, _, d', true, hi.le, ⟨h.lev.para c0 (.inr ⟨m, hm⟩), ?_, by rw [m.e]; exact hD,
        fun hh => (by cases hh), fun _ => m.v⟩, h8⟩
      rw [m.dist]
      rcases le_total d' e' with hde | hde
      · rw [min_eq_left hde]
        have := (half d' hd1).1
        linarith
      · rw [min_eq_right hde]; exact hcE
  | gl c hDP c0 m hcm =>
    obtain ⟨k1, k2⟩ := h.lev.left hZ hDP c0 m hcm
    rw [← lvl_succ] at k1
    exact ⟨i + 1, _, d', false, hi, ⟨k1, by rw [m.dist]; linarith, by rw [m.e]; exact hD,
      fun _ => m.v, fun hh => (by cases hh)⟩, h4⟩
  | gr c hDP c0 m h22 hcm =>
    obtain ⟨k1, k2⟩ := h.lev.right hZ hax hDP c0 m hcm
    rw [← lvl_succ] at k1
    exact ⟨i + 1, _, d', true, hi, ⟨k1, by rw [m.dist]; linarith, by rw [m.e]; exact hD,
      fun hh => (by cases hh), fun _ => m.v⟩, h5⟩

/-- What is known about an element while the search goes on. -/
inductive Ahead (s : BState ℝ) : Nat → Prop
  | far (i d e : Nat) (R : Bool) (r : Nat) (hi : i ≤ 26) (h : Cov i d e R s)
      (hc : Brent.covers r i d e R = true) : Ahead s (r + 2)
  | near (n : Nat) (a : s.a = -3) (hP : s.x - s.a ≤ 5 / 2 * tau) (hD : s.b - s.x < 2 * tau)
      (hE : |s.e| ≤ 1 / 10) : Ahead s (n + 1)

theorem Trace.ahead {g : ℝ → ℝ} (hg : Gentle g) {s s' : BState ℝ} {us : List (ℝ × ℝ)}
    (h : Trace cfgR s us s') (hv : ∀ e ∈ us, e.2 = g e.1) (hr : Rising g s) (ha : s.a = -3)
    (hax : s.a < s.x) (hx : s.x ≤ 6) {n : Nat} (hn : Ahead s n) (hlen : n ≤ us.length) :
    s'.done cfgR = true := by
  induction h generalizing n with
  | nil s =>
    simp only [List.length_nil, Nat.le_zero] at hlen
    subst hlen
    cases hn
  | @cons s s' fu es htr ih =>
    have h1 := hv _ List.mem_cons_self
    simp only [cfgR, fa_add] at h1
    change fu = g (s.x + s.step cfgR) at h1
    subst h1
    have hv' : ∀ e ∈ es, e.2 = g e.1 := fun e he => hv e (List.mem_cons_of_mem _ he)
    have h4 : -4 ≤ s.x := by linarith
    by_cases hd : s.done cfgR = true
    · have hx0 : s.x ≤ 0 := by
        have := (tol_bounds s h4 hx).2
        have ht : tau ≤ 1 / 100 := by unfold tau; norm_num
        rw [done_iff] at hd
        linarith [hd.2]
      obtain ⟨e1, e2, e3⟩ := done_stays hg hr.fx hx0 hd
      exact htr.stays hg hv' e1 e2 e3
    · rw [Bool.not_eq_true] at hd
      obtain ⟨m1, m2, m3, m4⟩ := hr.move hg h4 hx hax hd
      have ha' := (update_increasing hg.mono s (s.step cfgR)
        (step_ne_zero cfgR_tol.1 cfgR_tol.2 s) hr.fx).1
      generalize hs' : s.update (s.step cfgR) (g (s.x + s.step cfgR)) = t at *
      simp only [List.length_cons] at hlen
      have hat : t.a = -3 := ha'.trans ha
      have ht4 : -4 ≤ t.x := by linarith
      have ht6 : t.x ≤ 6 := by linarith
      have hfin : t.b - t.x < 2 * tau → t.x - t.a < 2 * tau → s'.done cfgR = true := by
        intro k1 k2
        have ht1 : tau ≤ 1 / 100 := by unfold tau; norm_num
        exact htr.stays hg hv' m1.fx (by linarith) (done_of_tau ht4 ht6 k1 k2)
      cases hn with
      | far i d e R r hi hcov hc =>
        rcases hi.lt_or_eq with hi | rfl
        · obtain ⟨k1, i', d', e', R', k2, k3, k4⟩ := hcov.move hi hax hr.xb hr.e m2 hc
          exact ih hv' m1 hat (by linarith) ht6 (.far i' d' e' R' (r - 1) k2 k3 k4) (by omega)
        · have hc' := hc
          unfold Brent.covers at hc'
          rw [if_pos rfl, Bool.and_eq_true, decide_eq_true_eq, decide_eq_true_eq] at hc'
          have hd1 : (d : ℝ) ≤ 10000 := by exact_mod_cast hc'.1
          have he1 : (e : ℝ) ≤ 10000 := by exact_mod_cast hc'.2
          have k1 := hcov.D
          have k2 := hcov.E
          rcases end_two hcov.lev (by linarith) (by linarith) hax m2 with ⟨k3, k4⟩ | ⟨k3, k4, k5⟩
          · exact hfin k3 k4
          · exact ih hv' m1 hat (by linarith) ht6 (.near 0 hat k4 k3 k5) (by omega)
      | near n a hP hD hE =>
        obtain ⟨k3, k4⟩ := end_one hP hD hE hax m2 (tau_of_not_done h4 hx hd)
        exact hfin k3 k4

/-! ## The first two iterations -/

/-- Without a previous step the step is golden. -/
theorem step_first (s : BState ℝ) (he : s.e = 0) : s.step cfgR = s.clamp cfgR (s.gold cfgR) := by
  rcases step_cases (k := cfgR) s with h | ⟨st, hp, -⟩
  · exact h
  · have := hp.big
    have ht := tol_pos cfgR_tol.1 cfgR_tol.2 s
    rw [he, abs_zero] at this
    linarith

/-- Away from the ends a golden step is not corrected. -/
theorem clamp_id (s : BState ℝ) (h1 : -4 ≤ s.x) (h2 : s.x ≤ 6) {st : ℝ} (hl : 1 / 100 ≤ s.x + st - s.a)
    (hu : 1 / 100 ≤ s.b - (s.x + st)) (hs : 1 / 100 ≤ |st|) : s.clamp cfgR st = st := by
  obtain ⟨t1, t2⟩ := tol_bounds s h1 h2
  have ht1 : tau ≤ 1 / 1000 := by unfold tau; norm_num
  have ht := tau_pos
  rcases clamp_cases s (by linarith : 0 < s.tol cfgR) st with ⟨h | h, -⟩ | ⟨-, -, ⟨-, h⟩ | ⟨h, h', -⟩ | ⟨h, h', -⟩⟩
  · linarith
  · linarith
  · exact h
  · rw [abs_of_pos h] at hs; linarith
  · rw [abs_of_nonpos h] at hs; linarith

/-- The state after two iterations. -/
theorem first_two {g : ℝ → ℝ} (hg : Gentle g) :
    ∃ s1 s2, (cfgR.init (g cfgR.x0)).update ((cfgR.init (g cfgR.x0)).step cfgR)
        (g ((cfgR.init (g cfgR.x0)).x + (cfgR.init (g cfgR.x0)).step cfgR)) = s1 ∧
      s1.update (s1.step cfgR) (g (s1.x + s1.step cfgR)) = s2 ∧
      Rising g s2 ∧ s2.a = -3 ∧ s2.a < s2.x ∧ s2.x ≤ 6 ∧ Ahead s2 47 := by
  obtain ⟨g1, g2⟩ := gf2_bounds
  set G := cfgR.gf2 with hG
  have hx0 : cfgR.x0 = -3 + 13 * G := by
    simp only [MinCfg.x0, fa_add, fa_mul, fa_sub, ← hG]
    simp only [cfgR]; push_cast; ring
  have hlo : cfgR.lo = -3 := by simp only [cfgR]; norm_num
  have hhi : cfgR.hi = 10 := by simp only [cfgR]; norm_num
  have hGG1 : 38196 / 100000 * G ≤ G * G := mul_le_mul_of_nonneg_right g1 (by linarith)
  have hGG2 : G * G ≤ 38197 / 100000 * G := mul_le_mul_of_nonneg_right g2 (by linarith)
  -- first iteration
  have e1 : (cfgR.init (g cfgR.x0)).step cfgR = G * (13 - 13 * G) := by
    rw [step_first _ (by simp [MinCfg.init, fa_ofRat])]
    have hgold : (cfgR.init (g cfgR.x0)).gold cfgR = G * (13 - 13 * G) := by
      simp only [BState.gold, MinCfg.init, hx0, hlo, hhi]
      rw [if_neg (by linarith)]; ring
    rw [hgold]
    have hp : 1 ≤ G * (13 - 13 * G) := by nlinarith
    apply clamp_id
    · simp only [MinCfg.init, hx0]; linarith
    · simp only [MinCfg.init, hx0]; linarith
    · simp only [MinCfg.init, hx0, hlo]; linarith
    · simp only [MinCfg.init, hx0, hhi]; nlinarith
    · rw [abs_of_pos (by linarith)]; linarith
  have hp : 1 ≤ G * (13 - 13 * G) := by nlinarith
  set c1 := G * (13 - 13 * G) with hc1
  have hx : (cfgR.init (g cfgR.x0)).x = -3 + 13 * G := by simp only [MinCfg.init, hx0]
  have hup : g (-3 + 13 * G) < g (-3 + 13 * G + c1) := hg.mono _ _ (by linarith)
  refine ⟨⟨-3, -3 + 13 * G + c1, -3 + 13 * G, -3 + 13 * G + c1, -3 + 13 * G, g (-3 + 13 * G),
    g (-3 + 13 * G + c1), g (-3 + 13 * G), c1, 0⟩, _, ?_, rfl, ?_⟩
  · rw [e1, hx]
    simp only [BState.update, MinCfg.init, hx0, hlo, hhi, fa_add, fa_le, fa_lt, fa_eq, fa_ofRat, PyArith.ge,
      not_le.2 hup]
    have h3 : -3 + 13 * G ≤ -3 + 13 * G + c1 := by linarith
    simp [h3]
    intro h4
    linarith
  · -- second iteration
    set s1 : BState ℝ := ⟨-3, -3 + 13 * G + c1, -3 + 13 * G, -3 + 13 * G + c1, -3 + 13 * G,
      g (-3 + 13 * G), g (-3 + 13 * G + c1), g (-3 + 13 * G), c1, 0⟩ with hs1
    have e2 : s1.step cfgR = -(G * (13 * G)) := by
      rw [step_first _ rfl]
      have hgold : s1.gold cfgR = -(G * (13 * G)) := by
        simp only [BState.gold, hs1]
        rw [if_pos (by rw [hc1]; nlinarith)]; ring
      rw [hgold]
      apply clamp_id
      · simp only [hs1]; linarith
      · simp only [hs1]; linarith
      · simp only [hs1]; nlinarith
      · simp only [hs1]; nlinarith
      · rw [abs_neg, abs_of_pos (by nlinarith)]; nlinarith
    rw [e2]
    have hlt : G * (13 * G) ≤ 1898 / 1000 ∧ 1896 / 1000 ≤ G * (13 * G) := by
      constructor <;> nlinarith
    have hlow : g (s1.x + -(G * (13 * G))) ≤ s1.fx :=
      (hg.mono _ _ (by linarith : s1.x + -(G * (13 * G)) < s1.x)).le
    have h3 : ¬ s1.x ≤ s1.x + -(G * (13 * G)) := by linarith
    have h4 : s1.x + -(G * (13 * G)) < s1.x := by linarith
    have hs2 : s1.update (-(G * (13 * G))) (g (s1.x + -(G * (13 * G)))) =
        ⟨-3, -3 + 13 * G, -3 + 13 * G + c1, -3 + 13 * G, -3 + 13 * G + -(G * (13 * G)),
          g (-3 + 13 * G + c1), g (-3 + 13 * G), g (-3 + 13 * G + -(G * (13 * G))),
          -(G * (13 * G)), c1⟩ := by
      simp only [BState.update, fa_add, fa_le, fa_lt, PyArith.ge, hlow, h3, h4, decide_true, decide_false,
        Bool.true_and, Bool.and_false, Bool.true_or, if_true, Bool.false_eq_true, if_false, Bool.not_true,
        Bool.false_and]
      rfl
    rw [hs2]
    have hc1' : c1 ≤ 3069 / 1000 := by rw [hc1]; nlinarith
    have hc0 : 0 < c1 := by linarith
    refine ⟨⟨rfl, rfl, rfl, rfl, ?_, ?_, ?_, .inl ?_⟩, rfl, ?_, ?_, ?_⟩
    · simp only [abs_neg]; rw [abs_of_pos (by linarith)]; ring
    · simp only; linarith
    · simp only; rw [abs_of_pos hc0]; exact hc0
    · simp only; rw [abs_of_pos hc0]
    · simp only; linarith
    · simp only; linarith
    · refine Ahead.far 0 189800 306900 false 45 (by norm_num) ⟨⟨rfl, ?_, .inr ?_, ?_⟩, ?_, ?_, ?_, ?_⟩
        Brent.table_start
      · simp only [lvl]; norm_num; linarith
      · simp only; linarith
      · simp only [tau]; linarith
      · simp only; push_cast; linarith
      · simp only; rw [abs_of_pos hc0]; push_cast; linarith
      · intro _; simp only; rw [abs_of_pos hc0]
      · intro hh; cases hh

/-- An element whose residue grows gently is converged after 49 iterations. -/
theorem Gentle.search_done {g : ℝ → ℝ} (hg : Gentle g) {us : List (ℝ × ℝ)} {s' : BState ℝ}
    (h : Trace cfgR (cfgR.init (g cfgR.x0)) us s') (hv : ∀ e ∈ us, e.2 = g e.1)
    (hlen : 49 ≤ us.length) : s'.done cfgR = true := by
  obtain ⟨s1, s2, e1, e2, h1, h2, h3, h4, h5⟩ := first_two hg
  cases h with
  | nil => simp at hlen
  | @cons _ _ fu es htr =>
    have k1 := hv _ List.mem_cons_self
    simp only [cfgR, fa_add] at k1
    change fu = g ((cfgR.init (g cfgR.x0)).x + (cfgR.init (g cfgR.x0)).step cfgR) at k1
    subst k1
    rw [e1] at htr
    cases htr with
    | nil => simp at hlen
    | @cons _ _ fu es htr =>
      have k1 := hv _ (List.mem_cons_of_mem _ List.mem_cons_self)
      simp only [cfgR, fa_add] at k1
      change fu = g (s1.x + s1.step cfgR) at k1
      subst k1
      rw [e2] at htr
      refine htr.ahead hg (fun e he => hv e (List.mem_cons_of_mem _ (List.mem_cons_of_mem _ he))) h1 h2 h3 h4
        h5 ?_
      simp only [List.length_cons] at hlen
      omega

end Gerabaldi
