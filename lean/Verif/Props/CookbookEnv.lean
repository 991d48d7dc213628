import Verif.Model.CookbookEnv
import Verif.Props.Readings

/-!
# C59: the prebuilt environments
-/

set_option linter.unusedSectionVars false

namespace Gerabaldi.Spec

variable {K : Type} [Field K] [LinearOrder K]

/-- The number `b` moved to the nearest number in `[lo, hi]`. -/
def limited (lo hi b : K) : K := max lo (min hi b)

/-- What the voltmeter shows for a voltage `z` (noise included). -/
def VoltRead (z y : Ext K) : Prop := ∀ a, z = .fin a → ∃ b, y = .fin (limited 0 12 b) ∧
  (|a| < 1 → |b - a| ≤ 1 / 2000) ∧ (1 ≤ |a| → ∃ m : Int, b = m / 100)

/-- What the thermometer shows for a temperature `z` in degrees Celsius (noise included). -/
def TempRead (z y : Ext K) : Prop := ∀ a, z = .fin a → ∃ b, y = .fin (limited (-40) 180 b) ∧
  (|a| < 1 → |b - a| ≤ 1 / 200) ∧ (10 ≤ |a| → ∃ m : Int, b = m) ∧ (100 ≤ |a| → ∃ m : Int, b = 10 * m)

end Gerabaldi.Spec

namespace Gerabaldi.Props

open Gerabaldi Gerabaldi.Spec

section
variable {W V : Type} [PyNum V]

theorem voltTempEnv_eq : ∃ temp volt : EnvVrtnMdl V, (voltTempEnv : Except Err (PhysTestEnv V)) =
    .ok ⟨[("temp", temp), ("vdd", volt)], [("temp", tempMeas), ("vdd", voltMeas)]⟩ :=
  ⟨_, _, rfl⟩

variable [Rng W V]

/-- **C59**, ideal environment: every condition is applied as requested, and every instrument is exact. -/
theorem C59_ideal {env : PhysTestEnv V} (h : (idealEnv : Except Err (PhysTestEnv V)) = .ok env)
    (prm : String) : env.vrtnMdl prm = EnvVrtnMdl.ideal ∧
      instrumentOf env prm = { precision := none, range := none, error := none } := by
  cases h
  exact ⟨rfl, rfl⟩

/-- **C59**: only temperature and voltage are affected by the prebuilt environment. -/
theorem C59_others {env : PhysTestEnv V} (h : (voltTempEnv : Except Err (PhysTestEnv V)) = .ok env)
    {prm : String} (h1 : prm ≠ "temp") (h2 : prm ≠ "vdd") : env.vrtnMdl prm = EnvVrtnMdl.ideal ∧
      instrumentOf env prm = { precision := none, range := none, error := none } := by
  obtain ⟨temp, volt, e⟩ := voltTempEnv_eq (V := V)
  rw [e] at h
  cases h
  unfold PhysTestEnv.vrtnMdl instrumentOf
  simp [Ne.symm h1, Ne.symm h2, Dict.get?]

end

section
variable {W K : Type} [Field K] [LinearOrder K] [IsStrictOrderedRing K] [FloorRing K] [Pow10 K]
  [Rng W (Ext K)]

theorem clip1_fin {lo hi : K} (h : lo ≤ hi) (b : K) :
    clip1 (.fin lo) (.fin hi) (.fin b : Ext K) = .fin (limited lo hi b) := by
  have key : ∀ x y : K, PyArith.lt (Ext.fin x) (Ext.fin y) = decide (x < y) := fun _ _ => rfl
  unfold clip1 limited
  simp only [key, not_lt.2 h, decide_false, Bool.false_eq_true, if_false, decide_eq_true_eq]
  by_cases h1 : b < lo
  · simp only [if_pos h1, decide_eq_true_eq, key, not_lt.2 h, if_false]
    rw [min_eq_right (h1.le.trans h), max_eq_left h1.le]
  · simp only [if_neg h1, key, decide_eq_true_eq]
    by_cases h2 : hi < b
    · rw [if_pos h2, min_eq_left h2.le, max_eq_right h]
    · rw [if_neg h2, min_eq_right (not_lt.1 h2), max_eq_right (not_lt.1 h1)]

theorem zpow10_le_iff (k j : Int) : (10 : K) ^ k ≤ (10 : K) ^ j ↔ k ≤ j :=
  zpow_le_zpow_iff_right₀ (by norm_num)

theorem zpow10_lt_iff (k j : Int) : (10 : K) ^ k < (10 : K) ^ j ↔ k < j :=
  zpow_lt_zpow_iff_right₀ (by norm_num)

/-- Reading finite numbers with `p` significant figures: close below `10^q`, coarse above. -/
theorem sigReading_fin {p : Int} {a : K} {y : Ext K} (h : SigReading p (.fin a) y) :
    ∃ b, y = .fin b ∧ (∀ q : Int, |a| < 10 ^ q → |b - a| ≤ (10 : K) ^ (q - p) / 2) ∧
      ∀ q : Int, (10 : K) ^ q ≤ |a| → ∃ m : Int, b = m * (10 : K) ^ (q - p + 1) := by
  simp only [SigReading] at h
  split at h
  · rename_i h0
    subst h0
    refine ⟨0, h, fun q _ => ?_, fun q hq => ?_⟩
    · rw [sub_self, abs_zero]; positivity
    · rw [abs_zero] at hq
      exact absurd (zpow_pos (by norm_num : (0 : K) < 10) q) (not_lt.2 hq)
  · obtain ⟨u, z, rfl, ⟨k, rfl, h1, h2⟩, h3, ⟨m, h4⟩, -⟩ := h
    refine ⟨z, rfl, fun q hq => ?_, fun q hq => ?_⟩
    · have : k ≤ q - p := by
        have h5 := lt_of_le_of_lt h1 hq
        rw [← zpow_add₀ (by norm_num), zpow10_lt_iff] at h5
        omega
      have := (zpow10_le_iff (K := K) _ _).2 this
      linarith
    · have : q - p + 1 ≤ k := by
        have h5 := lt_of_le_of_lt hq h2
        rw [← zpow_add₀ (by norm_num), zpow10_lt_iff] at h5
        omega
      obtain ⟨j, hj⟩ := Int.eq_ofNat_of_zero_le (sub_nonneg.2 this)
      refine ⟨m * 10 ^ j, ?_⟩
      have hk : k = (j : Int) + (q - p + 1) := by omega
      rw [h4, hk, zpow_add₀ (by norm_num), zpow_natCast]
      push_cast
      ring

/-- The readings of an instrument with precision and range, value by value. -/
theorem sig_limited {ins : Instrument (Ext K)} {p : Int} (hp : 1 ≤ p) (hpr : ins.precision = some p)
    {lo hi : K} (hr : ins.range = some (.fin lo, .fin hi)) {xs ys : List (Ext K)} {w w' : W}
    (h : ins.measureVals xs w = (.ok ys, w')) :
    ∃ noisy zs, ({ ins with precision := none, range := none } : Instrument (Ext K)).measureVals xs w =
        (.ok noisy, w') ∧ List.Forall₂ (SigReading p) noisy zs ∧
      ys = zs.map (clip1 (.fin lo) (.fin hi)) := by
  obtain ⟨zs, h1, rfl⟩ := measure_range ins hr h
  obtain ⟨noisy, h2, h3⟩ := C22_sound ({ ins with range := none }) hp hpr rfl (c := .series)
    (c' := .series) (measure_ok.2 ⟨rfl, h1⟩)
  exact ⟨noisy, zs, (measure_ok.1 h2).2, h3, rfl⟩

theorem forall₂_map_right' {α β γ : Type} {R : α → β → Prop} {S : α → γ → Prop} {g : β → γ}
    (hg : ∀ a b, R a b → S a (g b)) {as : List α} {bs : List β} (h : List.Forall₂ R as bs) :
    List.Forall₂ S as (bs.map g) := by
  induction h with
  | nil => exact .nil
  | cons h _ ih => exact .cons (hg _ _ h) ih

/-- **C59**, the voltmeter: it stays within 0 to 12 V; below 1 V it shows the nearest mV, from 1 V on only
multiples of 10 mV. -/
theorem C59_voltmeter_partial {env : PhysTestEnv (Ext K)}
    (he : (voltTempEnv : Except Err (PhysTestEnv (Ext K))) = .ok env) {xs ys : List (Ext K)} {w w' : W}
    (h : (instrumentOf env "vdd").measureVals xs w = (.ok ys, w')) :
    ∃ noisy, ({ instrumentOf env "vdd" with precision := none, range := none } :
        Instrument (Ext K)).measureVals xs w = (.ok noisy, w') ∧
      List.Forall₂ VoltRead noisy ys := by
  obtain ⟨temp, volt, e⟩ := voltTempEnv_eq (V := Ext K)
  rw [e] at he
  cases he
  have hr : (voltMeas : Instrument (Ext K)).range = some (.fin ((0 : ℚ) : K), .fin ((12 : ℚ) : K)) := rfl
  obtain ⟨noisy, zs, h1, h2, rfl⟩ := sig_limited (ins := voltMeas) (by decide) rfl hr h
  refine ⟨noisy, h1, forall₂_map_right' ?_ h2⟩
  rintro z y hzy a rfl
  obtain ⟨b, rfl, h3, h4⟩ := sigReading_fin hzy
  refine ⟨b, ?_, fun ha => ?_, fun ha => ?_⟩
  · rw [clip1_fin (by norm_num)]
    norm_num
  · have := h3 0 (by simpa using ha)
    norm_num at this ⊢
    exact this
  · obtain ⟨m, hm⟩ := h4 0 (by simpa using ha)
    refine ⟨m, hm.trans ?_⟩
    norm_num
    ring

/-- **C59**, the thermometer: it stays within -40 to 180 degrees; below one degree it shows the nearest
hundredth, from 10 degrees on only whole degrees, from 100 degrees on only multiples of 10 degrees. -/
theorem C59_thermometer_partial {env : PhysTestEnv (Ext K)}
    (he : (voltTempEnv : Except Err (PhysTestEnv (Ext K))) = .ok env) {xs ys : List (Ext K)} {w w' : W}
    (h : (instrumentOf env "temp").measureVals xs w = (.ok ys, w')) :
    ∃ noisy, ({ instrumentOf env "temp" with precision := none, range := none } :
        Instrument (Ext K)).measureVals xs w = (.ok noisy, w') ∧
      List.Forall₂ TempRead noisy ys := by
  obtain ⟨temp, volt, e⟩ := voltTempEnv_eq (V := Ext K)
  rw [e] at he
  cases he
  have hr : (tempMeas : Instrument (Ext K)).range =
    some (.fin ((-40 : ℚ) : K), .fin ((180 : ℚ) : K)) := rfl
  obtain ⟨noisy, zs, h1, h2, rfl⟩ := sig_limited (ins := tempMeas) (by decide) rfl hr h
  refine ⟨noisy, h1, forall₂_map_right' ?_ h2⟩
  rintro z y hzy a rfl
  obtain ⟨b, rfl, h3, h4⟩ := sigReading_fin hzy
  refine ⟨b, ?_, fun ha => ?_, fun ha => ?_, fun ha => ?_⟩
  · rw [clip1_fin (by norm_num)]
    norm_num
  · have := h3 0 (by simpa using ha)
    norm_num at this ⊢
    exact this
  · obtain ⟨m, hm⟩ := h4 1 (by simpa using ha)
    refine ⟨m, hm.trans ?_⟩
    norm_num
  · obtain ⟨m, hm⟩ := h4 2 (by norm_num; exact ha)
    refine ⟨m, hm.trans ?_⟩
    norm_num
    ring

/-- **C59** in every report: voltages lie within 0 to 12, temperatures within -40 to 180. -/
theorem C59_in_range {ord : SetOrder} {dev : DeviceMdl W (Ext K)} {env : PhysTestEnv (Ext K)}
    (he : (voltTempEnv : Except Err (PhysTestEnv (Ext K))) = .ok env) {test : TestSpec (Ext K)}
    {init : Option (SimState (Ext K))} {r : SimReport (Ext K)} {w w' : W}
    (h : simulate ord test dev env init w = (.ok r, w')) {x : MeasRow (Ext K)}
    (hx : x ∈ r.measurements) (hn : x.measured ≠ .nan) :
    (x.prm = "vdd" → Within (.fin 0) (.fin 12) x.measured) ∧
    (x.prm = "temp" → Within (.fin (-40)) (.fin 180) x.measured) := by
  obtain ⟨temp, volt, e⟩ := voltTempEnv_eq (V := Ext K)
  rw [e] at he
  cases he
  have key : ∀ a b : ℚ, a ≤ b → PyArith.le (PyArith.ofRat a : Ext K) (PyArith.ofRat b) = true := by
    intro a b hab
    have : (a : K) ≤ b := by exact_mod_cast hab
    show (decide ((a : K) < b) || decide ((a : K) = b)) = true
    rcases this.lt_or_eq with h | h
    · rw [decide_eq_true h, Bool.true_or]
    · rw [decide_eq_true h, Bool.or_true]
  constructor
  · intro hp
    have := C57_in_range h hx (ins := voltMeas) (by rw [hp]; rfl) rfl (key 0 12 (by norm_num)) hn
    have e0 : (PyArith.ofRat 0 : Ext K) = .fin 0 := by show Ext.fin ((0 : ℚ) : K) = _; norm_num
    have e1 : (PyArith.ofRat 12 : Ext K) = .fin 12 := by show Ext.fin ((12 : ℚ) : K) = _; norm_num
    rw [e0, e1] at this
    exact this
  · intro hp
    have := C57_in_range h hx (ins := tempMeas) (by rw [hp]; rfl) rfl (key (-40) 180 (by norm_num)) hn
    have e0 : (PyArith.ofRat (-40) : Ext K) = .fin (-40) := by
      show Ext.fin ((-40 : ℚ) : K) = _; norm_num
    have e1 : (PyArith.ofRat 180 : Ext K) = .fin 180 := by show Ext.fin ((180 : ℚ) : K) = _; norm_num
    rw [e0, e1] at this
    exact this

theorem limited_multiple {b : K} {m : Int} (h : b = m / 100) : ∃ j : Int, limited 0 12 b = j / 100 := by
  unfold limited
  rcases le_total 12 b with h1 | h1
  · exact ⟨1200, by rw [min_eq_left h1, max_eq_right (by norm_num)]; norm_num⟩
  · rw [min_eq_right h1]
    rcases le_total 0 b with h2 | h2
    · exact ⟨m, by rw [max_eq_right h2, h]⟩
    · exact ⟨0, by rw [max_eq_left h2]; norm_num⟩

/-- **C59**, resolution, fails: a voltage of 1 V or more that is not within half a mV of a multiple of 10 mV
is never shown to the nearest mV. -/
theorem C59_resolution_violated {env : PhysTestEnv (Ext K)}
    (he : (voltTempEnv : Except Err (PhysTestEnv (Ext K))) = .ok env) {x y : Ext K} {w w' : W}
    (h : (instrumentOf env "vdd").measureVals [x] w = (.ok [y], w')) {a : K}
    (hn : ({ instrumentOf env "vdd" with precision := none, range := none } :
        Instrument (Ext K)).measureVals [x] w = (.ok [.fin a], w'))
    (ha : 1 ≤ a) (hm : ∀ m : Int, 1 / 2000 < |(m : K) / 100 - a|) :
    ∃ b, y = .fin b ∧ 1 / 2000 < |b - a| := by
  obtain ⟨noisy, h1, h2⟩ := C59_voltmeter_partial he h
  rw [hn] at h1
  cases h1
  cases h2 with
  | cons h3 _ =>
    obtain ⟨b, rfl, -, h4⟩ := h3 a rfl
    obtain ⟨m, hb⟩ := h4 (ha.trans (le_abs_self a))
    obtain ⟨j, hj⟩ := limited_multiple hb
    exact ⟨_, rfl, by rw [hj]; exact hm j⟩

theorem limited_integer {b : K} {m : Int} (h : b = m) : ∃ j : Int, limited (-40) 180 b = j := by
  unfold limited
  rcases le_total 180 b with h1 | h1
  · exact ⟨180, by rw [min_eq_left h1, max_eq_right (by norm_num)]; norm_num⟩
  · rw [min_eq_right h1]
    rcases le_total (-40) b with h2 | h2
    · exact ⟨m, by rw [max_eq_right h2, h]⟩
    · exact ⟨-40, by rw [max_eq_left h2]; norm_num⟩

/-- **C59**, resolution, fails: a temperature of 10 degrees or more that is not within half a hundredth of a
whole number is never shown to the nearest hundredth. -/
theorem C59_temperature_violated {env : PhysTestEnv (Ext K)}
    (he : (voltTempEnv : Except Err (PhysTestEnv (Ext K))) = .ok env) {x y : Ext K} {w w' : W}
    (h : (instrumentOf env "temp").measureVals [x] w = (.ok [y], w')) {a : K}
    (hn : ({ instrumentOf env "temp" with precision := none, range := none } :
        Instrument (Ext K)).measureVals [x] w = (.ok [.fin a], w'))
    (ha : 10 ≤ a) (hm : ∀ m : Int, 1 / 200 < |(m : K) - a|) :
    ∃ b, y = .fin b ∧ 1 / 200 < |b - a| := by
  obtain ⟨noisy, h1, h2⟩ := C59_thermometer_partial he h
  rw [hn] at h1
  cases h1
  cases h2 with
  | cons h3 _ =>
    obtain ⟨b, rfl, -, h4, -⟩ := h3 a rfl
    obtain ⟨m, hb⟩ := h4 (ha.trans (le_abs_self a))
    obtain ⟨j, hj⟩ := limited_integer hb
    exact ⟨_, rfl, by rw [hj]; exact hm j⟩

end

/-! ## Examples -/

/-- Generators that always yield the mean. -/
structure MeanWorld where

instance : Rng MeanWorld (Ext ℚ) where
  draw := fun _ _ ps n w => (.ok (List.replicate n ((ps.get? "loc").getD (.fin 0))), w)

/-- A noise-free voltmeter shows 1.234 V as 1.23 V and 0.4567 V as 0.457 V; 300.65 K (27.5 degrees) are
shown as 28 degrees and 398.15 K (125 degrees) as 120 degrees. -/
example : ∃ env : PhysTestEnv (Ext ℚ), (voltTempEnv : Except Err (PhysTestEnv (Ext ℚ))) = .ok env ∧
    ((instrumentOf env "vdd").measureVals [.fin (1234 / 1000), .fin (4567 / 10000)] MeanWorld.mk).1 =
      .ok [.fin (123 / 100), .fin (457 / 1000)] ∧
    ((instrumentOf env "temp").measureVals [.fin (30065 / 100), .fin (39815 / 100)] MeanWorld.mk).1 =
      .ok [.fin 28, .fin 120] ∧
    ∀ m : Int, (1 : ℚ) / 2000 < |(m : ℚ) / 100 - 1234 / 1000| := by
  refine ⟨_, rfl, by decide +kernel, by decide +kernel, fun m => ?_⟩
  have : (m : ℚ) / 100 - 1234 / 1000 = ((10 * m - 1234 : Int) : ℚ) / 1000 := by push_cast; ring
  rw [this, abs_div]
  have h1 : (1 : ℚ) ≤ |((10 * m - 1234 : Int) : ℚ)| := by
    rw [← Int.cast_abs]
    exact_mod_cast Int.one_le_abs (by omega)
  have h2 : |(1000 : ℚ)| = 1000 := by norm_num
  rw [h2]
  linarith

/-- The hypotheses of `C59_temperature_violated` and `C59_resolution_violated` hold at 27.5 degrees and
1.234 V. -/
example : ∃ env : PhysTestEnv (Ext ℚ), (voltTempEnv : Except Err (PhysTestEnv (Ext ℚ))) = .ok env ∧
    ({ instrumentOf env "vdd" with precision := none, range := none } :
      Instrument (Ext ℚ)).measureVals [.fin (1234 / 1000)] MeanWorld.mk =
        (.ok [.fin (1234 / 1000)], MeanWorld.mk) ∧
    ({ instrumentOf env "temp" with precision := none, range := none } :
      Instrument (Ext ℚ)).measureVals [.fin (30065 / 100)] MeanWorld.mk =
        (.ok [.fin (275 / 10)], MeanWorld.mk) ∧
    ∀ m : Int, (1 : ℚ) / 200 < |(m : ℚ) - 275 / 10| := by
  refine ⟨_, rfl, Prod.ext (by decide +kernel) rfl, Prod.ext (by decide +kernel) rfl, fun m => ?_⟩
  have : (m : ℚ) - 275 / 10 = ((2 * m - 55 : Int) : ℚ) / 2 := by push_cast; ring
  rw [this, abs_div]
  have h1 : (1 : ℚ) ≤ |((2 * m - 55 : Int) : ℚ)| := by
    rw [← Int.cast_abs]
    exact_mod_cast Int.one_le_abs (by omega)
  have h2 : |(2 : ℚ)| = 2 := by norm_num
  rw [h2]
  linarith

/-- A test that measures voltage and temperature at 300.65 K and 1.234 V. -/
def meterTest : TestSpec Ex.Q :=
  { steps := [.meas ⟨[("vth", 1), ("delay", 1), ("temp", 1), ("vdd", 1)],
      [("temp", .fin (30065 / 100)), ("vdd", .fin (1234 / 1000))], "read"⟩],
    numChps := 1, numLots := 1, name := "meters", description := "" }

/-- Its simulation in the prebuilt environment finishes, so `C59_in_range` applies to its report. -/
example : ∃ env : PhysTestEnv Ex.Q, (voltTempEnv : Except Err (PhysTestEnv Ex.Q)) = .ok env ∧
    ∃ r, (simulate Ex.orderA meterTest Ex.dev env none Counts.start).1 = .ok r ∧
      ∀ x ∈ r.measurements, x.prm = "temp" → x.measured ≠ .nan →
        Within (.fin (-40)) (.fin 180) x.measured := by
  have key : ∃ r, (voltTempEnv (V := Ex.Q) >>= fun env =>
      (simulate Ex.orderA meterTest Ex.dev env none Counts.start).1) = .ok r ∧
      (r.measurements.length == 4) = true := exists_ok (by decide +kernel)
  obtain ⟨temp, volt, e⟩ := voltTempEnv_eq (V := Ex.Q)
  rw [e] at key
  obtain ⟨r, h, -⟩ := key
  refine ⟨_, e, r, h, fun x hx hp hn => ?_⟩
  exact (C59_in_range e (Prod.ext h rfl) hx hn).2 hp

end Gerabaldi.Props
