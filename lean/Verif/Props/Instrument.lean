import Verif.Lemmas.Instrument
import Verif.Spec.CountRng

/-! # Properties of measurement instruments: C20, C21, C22, C23 -/

set_option linter.unusedSectionVars false

namespace Gerabaldi.Props
open Gerabaldi Gerabaldi.Spec

variable {W : Type}

/-- For examples only: powers of ten on the rationals (not used by measurement). -/
@[local instance, instance_reducible] def ratPow10 : Pow10 ℚ := ⟨fun x => (10 : ℚ) ^ ⌊x⌋⟩

section order
variable {K : Type} [Field K] [LinearOrder K]

theorem ext_le_refl {x : Ext K} (h : x ≠ .nan) : PyArith.le x x = true := by
  show (Ext.lt x x || Ext.eq x x) = true
  cases x <;> simp_all [Ext.lt, Ext.eq]

theorem ext_le_of_not_lt {x y : Ext K} (hx : x ≠ .nan) (hy : y ≠ .nan)
    (h : PyArith.lt y x = false) : PyArith.le x y = true := by
  change Ext.lt y x = false at h
  show (Ext.lt x y || Ext.eq x y) = true
  cases x <;> cases y <;> simp_all [Ext.lt, Ext.eq]
  exact lt_or_eq_of_le h

theorem ext_not_lt_of_le {x y : Ext K} (h : PyArith.le x y = true) : PyArith.lt y x = false := by
  change (Ext.lt x y || Ext.eq x y) = true at h
  show Ext.lt y x = false
  cases x <;> cases y <;> simp_all [Ext.lt, Ext.eq]
  rcases h with h | h
  · exact h.le
  · exact h.le

theorem ext_le_nan {x y : Ext K} (h : PyArith.le x y = true) : x ≠ .nan ∧ y ≠ .nan := by
  change (Ext.lt x y || Ext.eq x y) = true at h
  cases x <;> cases y <;> simp_all [Ext.lt, Ext.eq]

variable [FloorRing K] [Pow10 K]

theorem clip1_within {lo hi : Ext K} (h : PyArith.le lo hi = true) (x : Ext K) :
    clip1 lo hi x = .nan ∨ Within lo hi (clip1 lo hi x) := by
  obtain ⟨hlo, hhi⟩ := ext_le_nan h
  have hn := ext_not_lt_of_le h
  unfold clip1 Within
  simp only [hn, Bool.false_eq_true, if_false]
  by_cases hx : x = .nan
  · subst hx
    left
    have a : PyArith.lt (Ext.nan : Ext K) lo = false := by
      show Ext.lt Ext.nan lo = false
      cases lo <;> rfl
    have b : PyArith.lt hi (Ext.nan : Ext K) = false := by
      show Ext.lt hi Ext.nan = false
      cases hi <;> rfl
    simp [a, b]
  · right
    by_cases a : PyArith.lt x lo = true
    · simp only [a, if_true, hn, Bool.false_eq_true, if_false]
      exact ⟨ext_le_refl hlo, h⟩
    · have a' : PyArith.lt x lo = false := by simpa using a
      simp only [a', Bool.false_eq_true, if_false]
      by_cases b : PyArith.lt hi x = true
      · simp only [b, if_true]
        exact ⟨h, ext_le_refl hhi⟩
      · have b' : PyArith.lt hi x = false := by simpa using b
        simp only [b', Bool.false_eq_true, if_false]
        exact ⟨ext_le_of_not_lt hlo hx a', ext_le_of_not_lt hx hhi b'⟩

theorem clip1_inside {lo hi : Ext K} (h : PyArith.le lo hi = true) {x : Ext K}
    (hx : Within lo hi x) : clip1 lo hi x = x := by
  have hn := ext_not_lt_of_le h
  have a := ext_not_lt_of_le hx.1
  have b := ext_not_lt_of_le hx.2
  unfold clip1
  simp [hn, a, b]

end order

/-! ## C20: readings stay within the instrument's range -/

/-- The parts of a successful measurement. -/
theorem measureVals_ok {V : Type} [PyNum V] [Rng W V] {ins : Instrument V} {xs ys : List V}
    {w w' : W} : ins.measureVals xs w = (.ok ys, w') ↔ ∃ noisy rounded,
      ins.addNoise xs w = (.ok noisy, w') ∧ ins.applyPrecision noisy = .ok rounded ∧
      ys = ins.applyRange rounded := by
  unfold Instrument.measureVals
  constructor
  · intro h
    obtain ⟨noisy, w1, h1, h⟩ := M.bind_eq_ok.1 h
    obtain ⟨rounded, w2, h2, h⟩ := M.bind_eq_ok.1 h
    simp only [M.ofExcept_run, Prod.mk.injEq] at h2
    obtain ⟨h2, rfl⟩ := h2
    cases h
    exact ⟨noisy, rounded, h1, h2, rfl⟩
  · rintro ⟨noisy, rounded, h1, h2, rfl⟩
    rw [M.bind_ok h1, h2]
    rfl

theorem measure_ok {V : Type} [PyNum V] [Rng W V] {ins : Instrument V} {c c' : Container}
    {xs ys : List V} {w w' : W} : ins.measure c xs w = (.ok (c', ys), w') ↔
      c' = c.result ∧ ins.measureVals xs w = (.ok ys, w') := by
  unfold Instrument.measure
  constructor
  · intro h
    obtain ⟨zs, w1, h1, h⟩ := M.bind_eq_ok.1 h
    cases h
    exact ⟨rfl, h1⟩
  · rintro ⟨rfl, h⟩
    rw [M.bind_ok h]
    rfl

/-- What limits do to a measurement. -/
theorem measure_range {V : Type} [PyNum V] [Rng W V] (ins : Instrument V) {lo hi : V}
    (hr : ins.range = some (lo, hi)) {xs ys : List V} {w w' : W}
    (h : ins.measureVals xs w = (.ok ys, w')) :
    ∃ zs, ({ ins with range := none } : Instrument V).measureVals xs w = (.ok zs, w') ∧
      ys = zs.map (clip1 lo hi) := by
  obtain ⟨noisy, rounded, h1, h2, rfl⟩ := measureVals_ok.1 h
  refine ⟨rounded, measureVals_ok.2 ⟨noisy, rounded, h1, h2, rfl⟩, ?_⟩
  unfold Instrument.applyRange
  rw [hr]

variable {K : Type} [Field K] [LinearOrder K] [FloorRing K] [Pow10 K]

/-- C20: whatever noise, precision and true values, every reading that is a number lies within the
limits. -/
theorem C20_in_range [Rng W (Ext K)] (ins : Instrument (Ext K)) {lo hi : Ext K}
    (hr : ins.range = some (lo, hi)) (hle : PyArith.le lo hi = true) {c c' : Container}
    {xs ys : List (Ext K)} {w w' : W} (h : ins.measure c xs w = (.ok (c', ys), w')) :
    ∀ y ∈ ys, y ≠ .nan → Within lo hi y := by
  obtain ⟨zs, w1, h1, h2⟩ := M.bind_eq_ok.1 h
  cases h2
  obtain ⟨zs, _, rfl⟩ := measure_range ins hr h1
  intro y hy hn
  obtain ⟨z, _, rfl⟩ := List.mem_map.1 hy
  rcases clip1_within hle z with h | h
  · exact absurd h hn
  · exact h

/-- C20: readings that are already inside are not moved: compare with the same measurement by an
instrument without limits. -/
theorem C20_inside_not_moved [Rng W (Ext K)] (ins : Instrument (Ext K)) {lo hi : Ext K}
    (hr : ins.range = some (lo, hi)) (hle : PyArith.le lo hi = true) {c c' : Container}
    {xs ys : List (Ext K)} {w w' : W} (h : ins.measure c xs w = (.ok (c', ys), w')) :
    ∃ zs, ({ ins with range := none } : Instrument (Ext K)).measure c xs w = (.ok (c', zs), w') ∧
      zs.length = ys.length ∧
      ∀ (i : Nat) (z : Ext K), zs[i]? = some z → Within lo hi z → ys[i]? = some z := by
  obtain ⟨ys', w1, h1, h2⟩ := M.bind_eq_ok.1 h
  cases h2
  obtain ⟨zs, hz, rfl⟩ := measure_range ins hr h1
  refine ⟨zs, ?_, by simp, ?_⟩
  · unfold Instrument.measure
    rw [M.bind_ok hz]; rfl
  · intro i z hi hw
    rw [List.getElem?_map, hi, Option.map_some, clip1_inside hle hw]

/-- A noisy instrument with range 0 to 250 (noise 100, 101, ...). -/
def exInstm : Instrument (Ext ℚ) :=
  { precision := some 2, error := some ⟨1, .normal (.fin 0) (.fin 1), none⟩,
    range := some (.fin 0, .fin 250) }

example : (exInstm.measure .series [.fin 5, .fin 1000, .fin (-400), .pinf] Counts.start).1 =
    .ok (.series, [.fin 100, .fin 250, .fin 0, .fin 250]) := by decide +kernel

/-! ## C21: default instruments are exact -/

/-- The kind of container, Python and numpy numbers both being scalars. -/
def kind : Container → String
  | .series => "series"
  | .ndarray => "array"
  | .pyNum => "scalar"
  | .npNum => "scalar"
  | .list => "list"

/-- C21: without error, precision and limits the values are unchanged, no randomness is consumed, and
for the documented argument types the container is kept. -/
theorem C21_exact_partial {V : Type} [PyNum V] [Rng W V] (ins : Instrument V)
    (he : ins.error = none) (hp : ins.precision = none ∨ ins.precision = some 0)
    (hr : ins.range = none) (c : Container) (hc : c = .series ∨ c = .ndarray ∨ c = .pyNum)
    (xs : List V) (w : W) :
    ∃ c', ins.measure c xs w = (.ok (c', xs), w) ∧ kind c' = kind c := by
  have h : ins.measureVals xs w = (.ok xs, w) := by
    refine measureVals_ok.2 ⟨xs, xs, ?_, ?_, ?_⟩
    · unfold Instrument.addNoise; rw [he]; rfl
    · unfold Instrument.applyPrecision
      rcases hp with hp | hp <;> rw [hp] <;> rfl
    · unfold Instrument.applyRange; rw [hr]
  refine ⟨c.result, ?_, ?_⟩
  · unfold Instrument.measure
    rw [M.bind_ok h]; rfl
  · rcases hc with rfl | rfl | rfl <;> rfl

example : (({} : Instrument (Ext ℚ)).measure .ndarray [.fin (1 / 3), .nan, .pinf] Counts.start).1 =
    .ok (.ndarray, [.fin (1 / 3), .nan, .pinf]) := by decide +kernel

/-- C21 is violated for numpy scalars and lists: they come back as a Series. -/
theorem C21_container_violated {V : Type} [PyNum V] [Rng W V] (v : V) (w : W) :
    ({} : Instrument V).measure .npNum [v] w = (.ok (.series, [v]), w) ∧
    ({} : Instrument V).measure .list [v] w = (.ok (.series, [v]), w) := ⟨rfl, rfl⟩

/-! ## C22: rounding to significant figures -/

variable [IsStrictOrderedRing K]

theorem sigReading_sigRound {p : Int} (hp : 1 ≤ p) {x y : Ext K} (h : sigRound p x = .ok y) :
    SigReading p x y := by
  cases x with
  | nan => rw [sigRound_nan] at h; cases h
  | pinf => rw [sigRound_pinf] at h; cases h; rfl
  | ninf => rw [sigRound_ninf] at h; cases h; rfl
  | fin x =>
    by_cases hx : x = 0
    · subst hx
      rw [sigRound_zero] at h
      cases h
      simp [SigReading]
    · rw [sigRound_fin p hx] at h
      cases h
      simp only [SigReading, if_neg hx]
      refine ⟨sigUnit p x, sigVal p x, rfl, sigUnit_isUnit p hx, sigVal_close p x, ⟨_, sigVal_eq p x⟩,
        fun h => sigVal_pos hp h, fun h => sigVal_sign_neg hp h⟩

theorem mapExcept_forall2 {α β : Type} {f : α → Except Err β} {xs : List α} {ys : List β}
    (h : mapExcept f xs = .ok ys) : List.Forall₂ (fun x y => f x = .ok y) xs ys := by
  induction xs generalizing ys with
  | nil => cases h; exact .nil
  | cons x xs ih =>
    simp only [mapExcept] at h
    split at h
    · cases h
    · rename_i y hy
      split at h
      · cases h
      · rename_i ys' hys
        cases h
        exact .cons hy (ih hys)

theorem mapExcept_of_forall2 {α β : Type} {f : α → Except Err β} {xs : List α} {ys : List β}
    (h : List.Forall₂ (fun x y => f x = .ok y) xs ys) : mapExcept f xs = .ok ys := by
  induction h with
  | nil => rfl
  | cons h1 _ ih => simp only [mapExcept, h1, ih]

/-- C22: with precision `p ≥ 1` every reading of a successful measurement is the noisy value (that of
the same instrument without precision) read with `p` significant figures. -/
theorem C22_sound [Rng W (Ext K)] (ins : Instrument (Ext K)) {p : Int} (hp : 1 ≤ p)
    (hprec : ins.precision = some p) (hr : ins.range = none) {c c' : Container}
    {xs ys : List (Ext K)} {w w' : W} (h : ins.measure c xs w = (.ok (c', ys), w')) :
    ∃ noisy, ({ ins with precision := none } : Instrument (Ext K)).measure c xs w =
        (.ok (c', noisy), w') ∧ List.Forall₂ (SigReading p) noisy ys := by
  obtain ⟨rfl, hv⟩ := measure_ok.1 h
  obtain ⟨noisy, rounded, h1, h2, rfl⟩ := measureVals_ok.1 hv
  have h3 : ins.applyRange rounded = rounded := by unfold Instrument.applyRange; rw [hr]
  unfold Instrument.applyPrecision at h2
  rw [hprec] at h2
  simp only [show ¬ p = 0 by omega, if_false] at h2
  rw [h3]
  refine ⟨noisy, measure_ok.2 ⟨rfl, measureVals_ok.2 ⟨noisy, noisy, h1, rfl, ?_⟩⟩,
    (mapExcept_forall2 h2).imp fun x y h => sigReading_sigRound hp h⟩
  unfold Instrument.applyRange
  simp only [hr]

/-- C22: measuring a reading again with the same precision does not change it. -/
theorem C22_idempotent [Rng W (Ext K)] (ins : Instrument (Ext K)) {p : Int} (hp : 1 ≤ p)
    (hprec : ins.precision = some p) (hr : ins.range = none) {c c' : Container}
    {xs ys : List (Ext K)} {w w' : W} (h : ins.measure c xs w = (.ok (c', ys), w')) (w2 : W) :
    ({ precision := some p } : Instrument (Ext K)).measureVals ys w2 = (.ok ys, w2) := by
  obtain ⟨rfl, hv⟩ := measure_ok.1 h
  obtain ⟨noisy, rounded, h1, h2, rfl⟩ := measureVals_ok.1 hv
  have h3 : ins.applyRange rounded = rounded := by unfold Instrument.applyRange; rw [hr]
  have hp0 : ¬ p = 0 := by omega
  unfold Instrument.applyPrecision at h2
  rw [hprec] at h2
  simp only [hp0, if_false] at h2
  rw [h3]
  have key : mapExcept (sigRound p) rounded = .ok rounded := by
    have hf := mapExcept_forall2 h2
    clear h2 h1 h h3 hv
    apply mapExcept_of_forall2
    induction hf with
    | nil => exact .nil
    | @cons x y _ _ hxy _ ih =>
      refine .cons ?_ ih
      cases x with
      | nan => rw [sigRound_nan] at hxy; cases hxy
      | pinf => rw [sigRound_pinf] at hxy; cases hxy; rfl
      | ninf => rw [sigRound_ninf] at hxy; cases hxy; rfl
      | fin x =>
        by_cases hx : x = 0
        · subst hx
          rw [sigRound_zero] at hxy
          cases hxy
          exact sigRound_zero p
        · rw [sigRound_fin p hx] at hxy
          cases hxy
          have hz : sigVal p x ≠ 0 := by
            rcases lt_or_gt_of_ne hx with h | h
            · exact (sigVal_sign_neg hp h).ne
            · exact (sigVal_pos hp h).ne'
          rw [sigRound_fin p hz, sigVal_idem hp hx]
  refine measureVals_ok.2 ⟨rounded, rounded, rfl, ?_, rfl⟩
  unfold Instrument.applyPrecision
  simp only [hp0, if_false, key]

/-- C22: order between values is preserved by rounding. -/
theorem C22_monotone {p : Int} (hp : 1 ≤ p) {x x' y y' : Ext K} (hxx : PyArith.le x x' = true)
    (h : sigRound p x = .ok y) (h' : sigRound p x' = .ok y') : PyArith.le y y' = true := by
  -- rounding of finite numbers, zero included
  have hfin : ∀ a : K, ∃ b : K, sigRound p (Ext.fin a) = .ok (.fin b) ∧
      (a = 0 → b = 0) ∧ (a ≠ 0 → b = sigVal p a) := by
    intro a
    by_cases ha : a = 0
    · exact ⟨0, by rw [ha, sigRound_zero], fun _ => rfl, fun h => absurd ha h⟩
    · exact ⟨_, sigRound_fin p ha, fun h => absurd h ha, fun _ => rfl⟩
  obtain ⟨hn, hn'⟩ := ext_le_nan hxx
  cases x with
  | nan => exact absurd rfl hn
  | ninf =>
    rw [sigRound_ninf] at h
    cases h
    cases x' with
    | nan => exact absurd rfl hn'
    | pinf => rw [sigRound_pinf] at h'; cases h'; rfl
    | ninf => rw [sigRound_ninf] at h'; cases h'; rfl
    | fin b => obtain ⟨c, hc, -⟩ := hfin b; rw [hc] at h'; cases h'; rfl
  | pinf =>
    cases x' with
    | pinf =>
      rw [sigRound_pinf] at h h'
      cases h; cases h'; rfl
    | _ => exact absurd hxx (by simp [PyArith.le, Ext.le, Ext.lt, Ext.eq])
  | fin a =>
    obtain ⟨b, hb, hb0, hbv⟩ := hfin a
    rw [hb] at h
    cases h
    cases x' with
    | nan => exact absurd rfl hn'
    | pinf => rw [sigRound_pinf] at h'; cases h'; rfl
    | ninf => exact absurd hxx (by simp [PyArith.le, Ext.le, Ext.lt, Ext.eq])
    | fin a' =>
      obtain ⟨b', hb', hb0', hbv'⟩ := hfin a'
      rw [hb'] at h'
      cases h'
      have haa : a ≤ a' := by
        have : (decide (a < a') || decide (a = a')) = true := hxx
        simp only [Bool.or_eq_true, decide_eq_true_eq] at this
        rcases this with h | h
        · exact h.le
        · exact h.le
      have hbb : b ≤ b' := by
        by_cases h0 : a = 0
        · rw [hb0 h0]
          by_cases h0' : a' = 0
          · rw [hb0' h0']
          · rw [hbv' h0']
            exact (sigVal_pos hp (lt_of_le_of_ne (h0 ▸ haa) (Ne.symm h0'))).le
        · rw [hbv h0]
          by_cases h0' : a' = 0
          · rw [hb0' h0']
            exact (sigVal_sign_neg hp (lt_of_le_of_ne (h0' ▸ haa) h0)).le
          · rw [hbv' h0']
            exact sigVal_mono hp h0 h0' haa
      show (decide (b < b') || decide (b = b')) = true
      simp only [Bool.or_eq_true, decide_eq_true_eq]
      exact lt_or_eq_of_le hbb

example : (({ precision := some 3 } : Instrument (Ext ℚ)).measure .series
      [.fin (-12345 / 100), .fin (9996 / 10), .fin 0, .ninf, .fin (1 / 3000)] Counts.start).1 =
    .ok (.series, [.fin (-123), .fin 1000, .fin 0, .ninf, .fin (333 / 1000000)]) := by
  decide +kernel

/-! ## C23: instruments accept every value -/

/-- C23: a measurement succeeds whenever the noisy values (those of the same instrument without
precision and limits) contain no NaN, or no precision is set. -/
theorem C23_total_partial [Rng W (Ext K)] (ins : Instrument (Ext K)) (c : Container)
    {c1 : Container} {xs noisy : List (Ext K)} {w w' : W}
    (h : ({ ins with precision := none, range := none } : Instrument (Ext K)).measure c xs w =
      (.ok (c1, noisy), w'))
    (hn : (ins.precision = none ∨ ins.precision = some 0) ∨ Ext.nan ∉ noisy) :
    ∃ r, ins.measure c xs w = (.ok r, w') := by
  obtain ⟨rfl, hv⟩ := measure_ok.1 h
  obtain ⟨nz, rounded, h1, h2, h3⟩ := measureVals_ok.1 hv
  obtain rfl : nz = rounded := Except.ok.inj h2
  obtain rfl : noisy = nz := h3
  change ins.addNoise xs w = (.ok noisy, w') at h1
  have hround : ∃ zs, ins.applyPrecision noisy = .ok zs := by
    unfold Instrument.applyPrecision
    rcases hn with (hn | hn) | hn
    · rw [hn]; exact ⟨_, rfl⟩
    · rw [hn]; exact ⟨_, rfl⟩
    · cases ins.precision with
      | none => exact ⟨_, rfl⟩
      | some p =>
        by_cases hp : p = 0
        · simp only [hp, if_true]; exact ⟨_, rfl⟩
        · simp only [hp, if_false]
          clear h h1 hv h2
          induction noisy with
          | nil => exact ⟨_, rfl⟩
          | cons x xs ih =>
            obtain ⟨zs, hzs⟩ := ih fun hm => hn (List.mem_cons_of_mem _ hm)
            have hx : x ≠ .nan := fun hx => hn (hx ▸ List.mem_cons_self)
            have : ∃ y, sigRound p x = .ok y := by
              cases x with
              | nan => exact absurd rfl hx
              | pinf => exact ⟨_, rfl⟩
              | ninf => exact ⟨_, rfl⟩
              | fin a =>
                by_cases ha : a = 0
                · exact ⟨_, by rw [ha, sigRound_zero]⟩
                · exact ⟨_, sigRound_fin p ha⟩
            obtain ⟨y, hy⟩ := this
            exact ⟨y :: zs, by simp only [mapExcept, hy, hzs]⟩
  obtain ⟨zs, hzs⟩ := hround
  exact ⟨_, measure_ok.2 ⟨rfl, measureVals_ok.2 ⟨noisy, zs, h1, hzs, rfl⟩⟩⟩

example : ∃ r, exInstm.measure .series [.fin 0, .pinf, .ninf, .fin (-3)] Counts.start = r ∧
    r.1.toOption.isSome = true := ⟨_, rfl, by decide +kernel⟩

/-- C23 is violated: an instrument with a precision raises `ValueError` on every list of values that
contains NaN. -/
theorem C23_nan_violated [Rng W (Ext K)] {p : Int} (hp : p ≠ 0) (r : Option (Ext K × Ext K))
    (c : Container) {xs : List (Ext K)} (hx : Ext.nan ∈ xs) (w : W) :
    ({ precision := some p, range := r } : Instrument (Ext K)).measure c xs w =
      (.error .valueError, w) := by
  have key : mapExcept (sigRound p) xs = .error .valueError := by
    induction xs with
    | nil => cases hx
    | cons x xs ih =>
      simp only [mapExcept]
      by_cases h : x = .nan
      · rw [h, sigRound_nan]
      · have hm : Ext.nan ∈ xs := by
          rcases List.mem_cons.1 hx with h' | h'
          · exact absurd h'.symm h
          · exact h'
        have : ∃ y, sigRound p x = .ok y := by
          cases x with
          | nan => exact absurd rfl h
          | pinf => exact ⟨_, rfl⟩
          | ninf => exact ⟨_, rfl⟩
          | fin a =>
            by_cases ha : a = 0
            · exact ⟨_, by rw [ha, sigRound_zero]⟩
            · exact ⟨_, sigRound_fin p ha⟩
        obtain ⟨y, hy⟩ := this
        rw [hy, ih hm]
  unfold Instrument.measure Instrument.measureVals Instrument.applyPrecision Instrument.addNoise
  simp only [hp, if_false, M.bind_assoc', M.pure_bind', key]
  rfl

example : (({ precision := some 4 } : Instrument (Ext ℚ)).measure .series [.fin 1, .nan]
    Counts.start).1 = .error .valueError := by decide +kernel

end Gerabaldi.Props
