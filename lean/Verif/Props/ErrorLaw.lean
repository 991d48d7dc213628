import Verif.Props.EnvDefault
import Verif.Props.Noise

/-!
# What instruments do to the values they are shown (C20, C57, C59)
-/

namespace Gerabaldi.Props
open Gerabaldi Spec MeasureTheory ProbabilityTheory

/-! ## C57: one error for each reading, added to the true value -/

/-- **C57**: an instrument with an error draws one error for each value, adds it, and shows for the sum what it would
show for it without an error. -/
theorem C57_error {W V : Type} [PyNum V] [Rng W V] [LawfulRng W V] {ins : Instrument V} {r : RVar V}
    (hr : ins.error = some r) {xs ys : List V} {w w' : W} (h : ins.measureVals xs w = (.ok ys, w')) :
    ∃ es : List V, r.sample xs.length w = (.ok es, w') ∧ es.length = xs.length ∧ ys.length = xs.length ∧
      ∀ (i : Nat) (x e : V), xs[i]? = some x → es[i]? = some e → ∃ y, ys[i]? = some y ∧ ∀ u : W,
        ({ ins with error := none } : Instrument V).measureVals [PyArith.add x e] u = (.ok [y], u) := by
  obtain ⟨noisy, rounded, h1, h2, rfl⟩ := measureVals_ok.1 h
  unfold Instrument.addNoise at h1
  rw [hr] at h1
  obtain ⟨es, w1, h3, h4⟩ := M.bind_eq_ok.1 h1
  cases h4
  have hl : es.length = xs.length := sample_length h3
  have hlen : ∀ {zs rs : List V}, ins.applyPrecision zs = .ok rs → rs.length = zs.length ∧
      ∀ (i : Nat) z, zs[i]? = some z → ∃ q, rs[i]? = some q ∧ ins.applyPrecision [z] = .ok [q] := by
    intro zs rs h
    unfold Instrument.applyPrecision at h ⊢
    cases hp : ins.precision with
    | none =>
      rw [hp] at h
      cases h
      exact ⟨rfl, fun i z hz => ⟨z, hz, rfl⟩⟩
    | some p =>
      rw [hp] at h
      simp only at h ⊢
      by_cases h0 : p = 0
      · rw [if_pos h0] at h
        cases h
        exact ⟨rfl, fun i z hz => ⟨z, hz, by rw [if_pos h0]⟩⟩
      · rw [if_neg h0] at h
        simp only [if_neg h0]
        induction zs generalizing rs with
        | nil => cases h; exact ⟨rfl, fun i z hz => by simp at hz⟩
        | cons a zs ih =>
          simp only [mapExcept] at h
          cases ha : sigRound p a with
          | error e => rw [ha] at h; cases h
          | ok b =>
            rw [ha] at h
            simp only at h
            cases hb : mapExcept (sigRound p) zs with
            | error e => rw [hb] at h; cases h
            | ok bs =>
              rw [hb] at h
              cases h
              obtain ⟨g1, g2⟩ := ih hb
              refine ⟨by simp [g1], fun i z hz => ?_⟩
              cases i with
              | zero => cases hz; exact ⟨b, rfl, by simp only [mapExcept, ha]⟩
              | succ i => exact g2 i z hz
  obtain ⟨g1, g2⟩ := hlen h2
  refine ⟨es, h3, hl, ?_, fun i x e hx he => ?_⟩
  · have : (ins.applyRange rounded).length = rounded.length := by
      unfold Instrument.applyRange
      split <;> simp
    rw [this, g1, List.length_zipWith, hl, Nat.min_self]
  · obtain ⟨q, q1, q2⟩ := g2 i (PyArith.add x e) (by rw [List.getElem?_zipWith, hx, he])
    have q2' : ({ ins with error := none } : Instrument V).applyPrecision [PyArith.add x e] = .ok [q] := q2
    cases hr : ins.range with
    | none =>
      refine ⟨q, by unfold Instrument.applyRange; rw [hr]; exact q1, fun u => measureVals_ok.2 ⟨_, [q], rfl, q2', ?_⟩⟩
      unfold Instrument.applyRange
      simp only
    | some lh =>
      obtain ⟨lo, hi⟩ := lh
      refine ⟨clip1 lo hi q, by unfold Instrument.applyRange; rw [hr]; simp only [List.getElem?_map, q1]; rfl,
        fun u => measureVals_ok.2 ⟨_, [q], rfl, q2', ?_⟩⟩
      unfold Instrument.applyRange
      simp only
      rfl

section
open Ex

/-- A meter with two digits and an error. -/
def roughMeter : Instrument Q := { precision := some 2, error := some ⟨3, .normal (.fin 0) (.fin 1), none⟩ }

/-- It reads 5 and 7, the errors are 300 and 301: it shows for 7 what it would show for 308 without an error. -/
example : ∃ ys w', roughMeter.measureVals [.fin 5, .fin 7] Counts.start = (.ok ys, w') ∧ ∃ y, ys[1]? = some y ∧
    ∀ u : Counts, ({ roughMeter with error := none } : Instrument Q).measureVals [.fin 308] u = (.ok [y], u) := by
  obtain ⟨ys, h1, -⟩ : ∃ ys, (roughMeter.measureVals [.fin 5, .fin 7] Counts.start).1 = .ok ys ∧
      (fun _ => true) ys = true := exists_ok (by decide +kernel)
  have h : roughMeter.measureVals [.fin 5, .fin 7] Counts.start = (.ok ys, _) := Prod.ext h1 rfl
  obtain ⟨es, e1, -, -, e4⟩ := C57_error rfl h
  have e : ((⟨3, .normal (.fin 0) (.fin 1), none⟩ : RVar Q).sample 2 Counts.start).1 = .ok [.fin 300, .fin 301] := by
    decide +kernel
  have e2 : es = [.fin 300, .fin 301] := by
    have := (congrArg Prod.fst e1).symm.trans e
    cases this
    rfl
  subst e2
  obtain ⟨y, y1, y2⟩ := e4 1 _ _ rfl rfl
  refine ⟨ys, _, h, y, y1, fun u => ?_⟩
  rw [← y2 u]
  have : (PyArith.add (.fin 7) (.fin 301) : Q) = .fin 308 := by decide +kernel
  rw [this]

end

/-! ## C20: limits in either order -/

theorem clip1_exchange {K : Type} [Field K] [LinearOrder K] [FloorRing K] [Pow10 K] {lo hi : Ext K} (hlo : lo ≠ .nan)
    (hhi : hi ≠ .nan) (x : Ext K) : clip1 lo hi x = clip1 hi lo x := by
  have tri : PyArith.lt hi lo = false → PyArith.lt lo hi = false → lo = hi := by
    cases lo <;> cases hi <;> simp_all [PyArith.lt, Ext.lt]
    exact fun h1 h2 => le_antisymm h1 h2
  have asym : PyArith.lt hi lo = true → PyArith.lt lo hi = true → False := by
    cases lo <;> cases hi <;> simp_all [PyArith.lt, Ext.lt]
    exact fun h => h.le
  unfold clip1
  cases h1 : PyArith.lt hi lo <;> cases h2 : PyArith.lt lo hi
  · rw [tri h1 h2]
  · simp
  · simp
  · exact (asym h1 h2).elim

/-- **C20**: limits given in the wrong order are the same limits. -/
theorem C20_either_order {W K : Type} [Field K] [LinearOrder K] [FloorRing K] [Pow10 K] [Rng W (Ext K)]
    (ins : Instrument (Ext K)) {lo hi : Ext K} (hlo : lo ≠ .nan) (hhi : hi ≠ .nan) (c : Container) (xs : List (Ext K)) :
    ({ ins with range := some (lo, hi) } : Instrument (Ext K)).measure (W := W) c xs =
      ({ ins with range := some (hi, lo) } : Instrument (Ext K)).measure c xs := by
  have e : clip1 lo hi = clip1 hi lo := funext (clip1_exchange hlo hhi)
  unfold Instrument.measure Instrument.measureVals Instrument.applyRange
  simp only [e]
  rfl

/-- A voltmeter with the limits 12 and 0 shows 12 for 15. -/
example : (({ range := some (.fin 12, .fin 0) } : Instrument (Ext ℚ)).measure .series [.fin 15] Counts.start).1 =
    .ok (.series, [.fin 12]) := by
  rw [C20_either_order {} (by simp) (by simp)]
  decide +kernel

/-! ## C59: the errors of the prebuilt instruments -/

section
variable {N : Numpy} {Ω : Type} [MeasurableSpace Ω] {P : Measure Ω} {P₀ : Measure ℝ} {env : PhysTestEnv (Ext ℝ)}

/-- **C59**: the thermometer of the prebuilt environment reads kelvin in degrees Celsius, with a standard deviation of
0.2 degrees: the errors of C95 are distributed like this. -/
theorem C59_thermometerLaw (hN : N.Correct P₀) (he : (voltTempEnv : Except Err (PhysTestEnv (Ext ℝ))) = .ok env)
    {E : Ω → ℝ} (h : ErrorOf N P P₀ (instrumentOf env "temp") E) :
    P.map E = gaussianReal (-273.15) (0.2 ^ 2) := by
  have hd : ∃ r, (instrumentOf env "temp").error = some r ∧
      r.dist = .normal (.fin (((-27315 / 100 : ℚ)) : ℝ)) (.fin ((2 / 10 : ℚ) : ℝ)) := by
    cases he
    exact ⟨_, rfl, rfl⟩
  obtain ⟨r, h1, h2⟩ := hd
  unfold ErrorOf at h
  rw [h1] at h
  have h4 := h (N.normal (-273.15) (0.2 : NNReal)) (by
    rw [h2]
    show some (N.normal _ _) = _
    congr 2
    · norm_num
    · push_cast; norm_num)
  rw [h4, hN.gaussian]

/-- **C59**: the voltmeter of the prebuilt environment has no offset and a standard deviation of 0.2 mV. -/
theorem C59_voltmeterLaw (hN : N.Correct P₀) (he : (voltTempEnv : Except Err (PhysTestEnv (Ext ℝ))) = .ok env)
    {E : Ω → ℝ} (h : ErrorOf N P P₀ (instrumentOf env "vdd") E) :
    P.map E = gaussianReal 0 (0.0002 ^ 2) := by
  have hd : ∃ r, (instrumentOf env "vdd").error = some r ∧
      r.dist = .normal (.fin ((0 : ℚ) : ℝ)) (.fin ((2 / 10000 : ℚ) : ℝ)) := by
    cases he
    exact ⟨_, rfl, rfl⟩
  obtain ⟨r, h1, h2⟩ := hd
  unfold ErrorOf at h
  rw [h1] at h
  have h4 := h (N.normal 0 (0.0002 : NNReal)) (by
    rw [h2]
    show some (N.normal _ _) = _
    congr 2
    · norm_num
    · push_cast; norm_num)
  rw [h4, hN.gaussian]

/-- The errors of the prebuilt instruments are their own: whatever the device, if it does not use the generators of the
two instruments, C95 applies. -/
theorem C59_ownErrors {W : Type} {dev : DeviceMdl W (Ext ℝ)} (hd : OwnGenerators N {7, 8} dev ⟨[], []⟩)
    (he : (voltTempEnv : Except Err (PhysTestEnv (Ext ℝ))) = .ok env) : OwnGenerators N {7, 8} dev env := by
  obtain ⟨temp, volt, e⟩ := voltTempEnv_eq (V := Ext ℝ)
  cases he
  refine ⟨hd.names, ?_, ?_, hd.deg, hd.circ⟩
  · intro kv hkv r hr
    rcases List.mem_cons.1 hkv with rfl | hkv
    · cases hr
      exact ⟨.inr rfl, _, rfl⟩
    · rw [List.mem_singleton.1 hkv] at hr
      cases hr
      exact ⟨.inl rfl, _, rfl⟩
  · intro kv hkv
    rcases List.mem_cons.1 hkv with rfl | hkv
    · exact ⟨.inl (by show 6 ∉ _; simp), .inl (by show 5 ∉ _; simp), .inl (by show 4 ∉ _; simp)⟩
    · rw [List.mem_singleton.1 hkv]
      exact ⟨.inl (by show 3 ∉ _; simp), .inl (by show 2 ∉ _; simp), .inl (by show 1 ∉ _; simp)⟩

/-- **C59**, the report of a test in the prebuilt environment: each reading of a temperature is what the thermometer
shows for the true temperature in kelvin plus an error around -273.15, and each reading of a voltage what the voltmeter
shows for the true voltage plus an error around 0; all errors are independent. -/
theorem C59_readings {raw : Nat → Nat → Ω → ℝ} (hN : N.Correct P₀) (hr : Standard P P₀ raw)
    (he : (voltTempEnv : Except Err (PhysTestEnv (Ext ℝ))) = .ok env) {dev : DeviceMdl (Tapes N) (Ext ℝ)}
    (hd : OwnGenerators N {7, 8} dev ⟨[], []⟩) {ord : SetOrder}
    {test : TestSpec (Ext ℝ)} {init : Option (SimState (Ext ℝ))} {tape : Nat → Nat → ℝ} {next : Nat → Nat}
    {r₀ : SimReport (Ext ℝ)} {w₀ : Tapes N}
    (h0 : simulate ord test dev (exactEnv env) init ⟨tape, next⟩ = (.ok r₀, w₀))
    (hn : ∀ r ∈ r₀.measurements, r.measured ≠ .nan) :
    ∃ E : Fin r₀.measurements.length → Ω → ℝ, iIndepFun E P ∧
      (∀ j, r₀.measurements[j].prm = "temp" → P.map (E j) = gaussianReal (-273.15) (0.2 ^ 2)) ∧
      (∀ j, r₀.measurements[j].prm = "vdd" → P.map (E j) = gaussianReal 0 (0.0002 ^ 2)) ∧
      ∀ ω, ∃ rows w', simulate ord test dev env init (mixed {7, 8} raw tape next ω) =
          (.ok { r₀ with measurements := rows }, w') ∧ rows.length = r₀.measurements.length ∧
        ∀ j : Fin r₀.measurements.length, ∃ y, ShownFor N (instrumentOf env r₀.measurements[j].prm)
          (PyArith.add r₀.measurements[j].measured (.fin (E j ω))) y ∧
          rows[j.val]? = some { r₀.measurements[j] with measured := y } := by
  obtain ⟨E, e1, -, e3, e4⟩ := C95_errors hN hr (C59_ownErrors hd he) h0 hn
  refine ⟨E, e1, fun j hj => C59_thermometerLaw hN he (by rw [← hj]; exact e3 j),
    fun j hj => C59_voltmeterLaw hN he (by rw [← hj]; exact e3 j), e4⟩

end

/-- The errors of the thermometer with ideal generators. -/
example {env : PhysTestEnv (Ext ℝ)} (he : (voltTempEnv : Except Err (PhysTestEnv (Ext ℝ))) = .ok env) :
    ∃ E : ℝ → ℝ, ErrorOf linearNumpy (gaussianReal 0 1) (gaussianReal 0 1) (instrumentOf env "temp") E ∧
      (gaussianReal 0 1).map E = gaussianReal (-273.15) (0.2 ^ 2) := by
  have h : ∃ E : ℝ → ℝ, ErrorOf linearNumpy (gaussianReal 0 1) (gaussianReal 0 1) (instrumentOf env "temp") E := by
    cases he
    exact ⟨linearNumpy.normal _ _, fun f hf => by cases hf; rfl⟩
  obtain ⟨E, hE⟩ := h
  exact ⟨E, hE, C59_thermometerLaw linear_correct he hE⟩

end Gerabaldi.Props
