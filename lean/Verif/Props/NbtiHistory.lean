import Verif.Spec.NbtiHistory
import Verif.Props.Exposure
import Verif.Props.CondShift
import Verif.Props.FreshEx
import Verif.Lemmas.Interval

/-!
# C89: the prebuilt NBTI mechanism in tests with changing conditions
-/

namespace Gerabaldi.Props

open Gerabaldi Gerabaldi.Spec

variable {W : Type}

/-! ## Powers -/

theorem nbtiShift_one {a e T v α m t : ℝ} : nbtiShift a e T v α m t = nbtiShift a e T v α m 1 * t ^ m := by
  unfold nbtiShift
  rw [Real.one_rpow, mul_one]

theorem nbtiShift_pos {a e T v α m : ℝ} (ha : 0 < a) (hv : 0 < v) : 0 < nbtiShift a e T v α m 1 := by
  unfold nbtiShift
  have := Real.rpow_pos_of_pos hv α
  have := Real.exp_pos (e / (8617 / 100000000 * T))
  rw [Real.one_rpow, mul_one]
  positivity

theorem damage_power {m x : ℝ} (hm : 0 < m) (hx : 0 ≤ x) : damage m (x ^ m) = x := by
  unfold damage
  rw [← Real.rpow_mul hx, mul_one_div, div_self hm.ne', Real.rpow_one]

theorem power_damage {m x : ℝ} (hm : 0 < m) (hx : 0 ≤ x) : damage m x ^ m = x := by
  unfold damage
  rw [← Real.rpow_mul hx, one_div_mul_cancel hm.ne', Real.rpow_one]

theorem damage_time {a e T v α m t : ℝ} (ha : 0 < a) (hv : 0 < v) (hm : 0 < m) (ht : 0 ≤ t) :
    damage m (nbtiShift a e T v α m t) = damage m (nbtiShift a e T v α m 1) * t := by
  have h := (nbtiShift_pos (e := e) (T := T) (α := α) (m := m) ha hv).le
  rw [nbtiShift_one]
  conv_lhs => unfold damage
  rw [Real.mul_rpow h (Real.rpow_nonneg ht m)]
  congr 1
  exact damage_power hm ht

theorem exposure_damage {unit : TUnit} {a e α m : ℝ} {T v : Phase (Ext ℝ) → ℝ} (ha : 0 < a) (hm : 0 < m)
    {phases : List (Phase (Ext ℝ))} (hv : ∀ ph ∈ phases, 0 < v ph) (hl : ∀ ph ∈ phases, 0 ≤ Spec.timeVal ph.duration) :
    exposure unit (damageRate a e α m T v) phases = totalDamage unit a e α m T v phases := by
  unfold exposure totalDamage
  congr 1
  refine List.map_congr_left fun ph hp => ?_
  have hx : 0 ≤ lengthOf unit ph := by
    unfold lengthOf
    exact_mod_cast phaseTime_pos (unit := unit) (hl ph hp)
  rw [damage_time ha (hv ph hp) hm hx]
  rfl

/-- The mechanism follows a rate law: the shift is the `m`-th power of the damage. -/
theorem nbti_rate {lat : Dict (Arr3 (Ext ℝ))} {l c d : Nat} {a e α m : ℝ} {T v : Phase (Ext ℝ) → ℝ}
    {phases : List (Phase (Ext ℝ))} (h : NbtiPhases lat l c d a e α m T v phases) (ha : 0 < a) (hm : 0 < m) :
    RateLaw nbtiLaw lat l c d (fun x => x ^ m) (damageRate a e α m T v) phases where
  pos := fun ph hp => Real.rpow_pos_of_pos (nbtiShift_pos ha (h.pos ph hp).2) _
  long := h.long
  law := by
    intro ph hp t ht
    obtain ⟨⟨xT, hT1, hT2⟩, ⟨xv, hv1, hv2⟩, ⟨xa, ha1, ha2⟩, ⟨xe, he1, he2⟩, ⟨xα, hα1, hα2⟩, ⟨xn, hn1, hn2⟩⟩ :=
      h.sample ph hp
    obtain ⟨hT, hv⟩ := h.pos ph hp
    have kT : mechNames (.fin t) (condAt lat l c d) (condAt ph.conds l c d) "temp" = .fin (T ph) := by
      simp [mechNames, condAt, h.temp, hT1, hT2]
    have kv : mechNames (.fin t) (condAt lat l c d) (condAt ph.conds l c d) "vdd" = .fin (v ph) := by
      simp [mechNames, condAt, h.vdd, hv1, hv2]
    have ka : mechNames (.fin t) (condAt lat l c d) (condAt ph.conds l c d) "a_0" = .fin a := by
      simp [mechNames, condAt, ha1, ha2]
    have ke : mechNames (.fin t) (condAt lat l c d) (condAt ph.conds l c d) "e_aa" = .fin e := by
      simp [mechNames, condAt, he1, he2]
    have kα : mechNames (.fin t) (condAt lat l c d) (condAt ph.conds l c d) "alpha" = .fin α := by
      simp [mechNames, condAt, hα1, hα2]
    have kn : mechNames (.fin t) (condAt lat l c d) (condAt ph.conds l c d) "n" = .fin m := by
      simp [mechNames, condAt, hn1, hn2]
    have kt : mechNames (.fin t) (condAt lat l c d) (condAt ph.conds l c d) "time" = .fin t := by
      simp [mechNames, condAt, h.time.1, h.time.2 ph hp]
    generalize mechNames (.fin t) (condAt lat l c d) (condAt ph.conds l c d) = env at *
    unfold nbtiLaw nbtiExpr
    simp only [exprOn]
    rw [kT, kv, ka, ke, kα, kn, kt]
    have hb : ((8617 / 100000000 : ℚ) : ℝ) * T ph ≠ 0 := by
      have : (0 : ℝ) < ((8617 / 100000000 : ℚ) : ℝ) := by norm_num
      positivity
    have e1 : PyArith.div (Ext.fin e) (PyArith.mul (PyArith.ofRat (8617 / 100000000)) (.fin (T ph))) =
        .fin (e / (8617 / 100000000 * T ph)) := by
      show (if ((8617 / 100000000 : ℚ) : ℝ) * T ph = 0 then _ else _) = _
      rw [if_neg hb]
      norm_num
    have e2 : ∀ x y : ℝ, 0 < x → PyTrans.pow (Ext.fin x) (.fin y) = .fin (x ^ y) := by
      intro x y hx
      show (if 0 < x then _ else _) = _
      rw [if_pos hx]
    rw [e1, e2 _ α hv, e2 t m ht]
    show Ext.fin (nbtiShift a e (T ph) (v ph) α m t) = _
    congr 1
    have hd : 0 ≤ damage m (nbtiShift a e (T ph) (v ph) α m 1) :=
      Real.rpow_nonneg (nbtiShift_pos ha hv).le _
    unfold damageRate
    rw [Real.mul_rpow hd ht.le, power_damage hm (nbtiShift_pos ha hv).le, ← nbtiShift_one]

theorem power_mono {m : ℝ} (hm : 0 < m) : StrictMonoOn (fun x : ℝ => x ^ m) (Set.Ioi 0) :=
  fun _ ha _ _ hab => Real.rpow_lt_rpow (le_of_lt ha) hab hm

theorem power_fresh {m : ℝ} (hm : 0 < m) (hm1 : m ≤ 1) : FreshCurve (fun x : ℝ => x ^ m) 0 := by
  have := FreshCurve.power (A := 1) one_pos hm hm1
  simpa using this

/-! ## C89 -/

section
variable [Rng W (Ext ℝ)] {k : MechMdl W (Ext ℝ)} {unit : TUnit} {lat : Dict (Arr3 (Ext ℝ))} {L C n l c d : Nat}
  {a e α m : ℝ} {T v : Phase (Ext ℝ) → ℝ}

/-- **C89**, used devices: the damage of a sample after stress phases at any temperatures and voltages is its damage
before plus the damages that the phases do to new samples, up to the factor `slack` of one search for each phase. -/
theorem C89_used (hk : IsNbti k) (ha : 0 < a) (hm : 0 < m) {phases : List (Phase (Ext ℝ))}
    (h : NbtiPhases lat l c d a e α m T v phases) {y : ℝ} (hy : 0 < y) {V : Nat → Nat → Nat → Ext ℝ}
    (hV : V l c d = .fin y) (hr : InReach unit (damageRate a e α m T v) 0 0 (damage m y) phases)
    (hf : Finishes k nbtiLaw unit lat L C n l c d V phases) :
    ∃ x : ℝ, 0 < x ∧ phases.foldl (phaseValues k nbtiLaw unit lat L C n) V l c d = .fin x ∧
      (damage m y + totalDamage unit a e α m T v phases) / slack ^ phases.length ≤ damage m x ∧
      damage m x ≤ (damage m y + totalDamage unit a e α m T v phases) * slack ^ phases.length := by
  obtain ⟨D, h1, h2, h3, h4⟩ := C75_exposure (nbti_eq hk).1 (.inl (power_mono hm)) (nbti_rate h ha hm) hr hf
    (Real.rpow_pos_of_pos hy _) (by rw [hV]; exact congrArg _ (power_damage hm hy.le).symm)
  rw [exposure_damage ha hm (fun ph hp => (h.pos ph hp).2) h.long] at h3 h4
  refine ⟨D ^ m, Real.rpow_pos_of_pos h1 m, h2, ?_, ?_⟩
  · rwa [damage_power hm h1.le]
  · rwa [damage_power hm h1.le]

/-- **C89**, new devices: after stress phases at any temperatures and voltages the damage of a sample is the sum of
the damages that the phases do to new samples, up to the tolerance of the searches and 0.0011 units of time in the
first phase. -/
theorem C89_new (hk : IsNbti k) (ha : 0 < a) (hm : 0 < m) (hm1 : m ≤ 1) {ph : Phase (Ext ℝ)}
    {rest : List (Phase (Ext ℝ))} (h : NbtiPhases lat l c d a e α m T v (ph :: rest))
    (h0 : lengthOf unit ph + 11 / 10000 ≤ 9000000000)
    (hr : InReach unit (damageRate a e α m T v) (damageRate a e α m T v ph * (11 / 10000)) 0
      (damageRate a e α m T v ph * lengthOf unit ph) rest)
    (hf : Finishes k nbtiLaw unit lat L C n l c d
      (phaseValues k nbtiLaw unit lat L C n (fun _ _ _ => k.unitary) ph) rest)
    (hl : l < L) (hc : c < C) (hd : d < n) :
    ∃ x : ℝ, 0 < x ∧ mechHistory k nbtiLaw unit lat L C n (ph :: rest) l c d = .fin x ∧
      totalDamage unit a e α m T v (ph :: rest) / slack ^ rest.length ≤ damage m x ∧
      damage m x ≤ (totalDamage unit a e α m T v (ph :: rest) +
        damage m (nbtiShift a e (T ph) (v ph) α m (11 / 10000))) * slack ^ rest.length := by
  obtain ⟨D, h1, h2, h3, h4⟩ := C75_new (nbti_eq hk).1 (nbti_eq hk).2.1 (power_fresh hm hm1) (nbti_rate h ha hm) h0
    hr hf hl hc hd
  rw [exposure_damage ha hm (fun ph hp => (h.pos ph hp).2) h.long] at h3 h4
  refine ⟨D ^ m, Real.rpow_pos_of_pos h1 m, h2, ?_, ?_⟩
  · rwa [damage_power hm h1.le]
  · rw [damage_power hm h1.le, damage_time ha (h.pos ph List.mem_cons_self).2 hm (by norm_num)]
    exact h4

theorem damage_constant {phases : List (Phase (Ext ℝ))} (ha : 0 < a) (hm : 0 < m) {T₀ v₀ : ℝ} (hv : 0 < v₀)
    (hT : ∀ ph ∈ phases, T ph = T₀ ∧ v ph = v₀) (hl : ∀ ph ∈ phases, 0 ≤ Spec.timeVal ph.duration) :
    totalDamage unit a e α m T v phases =
      damage m (nbtiShift a e T₀ v₀ α m 1) * (phases.map (lengthOf unit)).sum := by
  unfold totalDamage
  rw [← List.sum_map_mul_left]
  congr 1
  refine List.map_congr_left fun ph hp => ?_
  have hx : 0 ≤ lengthOf unit ph := by
    unfold lengthOf
    exact_mod_cast phaseTime_pos (unit := unit) (hl ph hp)
  rw [(hT ph hp).1, (hT ph hp).2, damage_time ha hv hm hx]

/-- **C89**, constant conditions: a sample with its JEDEC shift for the time `t` gets, in however many phases the
stress is divided, its JEDEC shift for `t` and the total time, up to the tolerance. -/
theorem C89_constant (hk : IsNbti k) (ha : 0 < a) (hm : 0 < m) {phases : List (Phase (Ext ℝ))}
    (h : NbtiPhases lat l c d a e α m T v phases) {T₀ v₀ : ℝ} (hv : 0 < v₀)
    (hT : ∀ p ∈ phases, T p = T₀ ∧ v p = v₀) {t : ℝ} (ht : 0 < t) {V : Nat → Nat → Nat → Ext ℝ}
    (hV : V l c d = .fin (nbtiShift a e T₀ v₀ α m t))
    (hr : InReach unit (damageRate a e α m T v) 0 0 (damage m (nbtiShift a e T₀ v₀ α m t)) phases)
    (hf : Finishes k nbtiLaw unit lat L C n l c d V phases) :
    ∃ x : ℝ, phases.foldl (phaseValues k nbtiLaw unit lat L C n) V l c d = .fin x ∧
      nbtiShift a e T₀ v₀ α m ((t + (phases.map (lengthOf unit)).sum) / slack ^ phases.length) ≤ x ∧
      x ≤ nbtiShift a e T₀ v₀ α m ((t + (phases.map (lengthOf unit)).sum) * slack ^ phases.length) := by
  have hy : 0 < nbtiShift a e T₀ v₀ α m t := by
    rw [nbtiShift_one]
    exact mul_pos (nbtiShift_pos ha hv) (Real.rpow_pos_of_pos ht m)
  obtain ⟨x, h1, h2, h3, h4⟩ := C89_used hk ha hm h hy hV hr hf
  have hS : 0 ≤ (phases.map (lengthOf unit)).sum := by
    refine List.sum_nonneg fun y hy => ?_
    obtain ⟨q, hq, rfl⟩ := List.mem_map.1 hy
    unfold lengthOf
    exact_mod_cast phaseTime_pos (unit := unit) (h.long q hq)
  have hs : 0 < slack ^ phases.length := pow_pos (lt_trans one_pos slack_one) _
  rw [damage_constant ha hm hv hT h.long, damage_time ha hv hm ht.le, ← mul_add] at h3 h4
  generalize (phases.map (lengthOf unit)).sum = S at *
  have hR : 0 ≤ damage m (nbtiShift a e T₀ v₀ α m 1) := Real.rpow_nonneg (nbtiShift_pos ha hv).le _
  have key : ∀ t : ℝ, 0 ≤ t → (damage m (nbtiShift a e T₀ v₀ α m 1) * t) ^ m = nbtiShift a e T₀ v₀ α m t := by
    intro t ht
    rw [Real.mul_rpow hR ht, power_damage hm (nbtiShift_pos ha hv).le, ← nbtiShift_one]
  refine ⟨x, h2, ?_, ?_⟩
  · rw [← key _ (by positivity), ← power_damage hm h1.le]
    refine Real.rpow_le_rpow (by positivity) ?_ hm.le
    rwa [← mul_div_assoc]
  · rw [← key _ (by positivity), ← power_damage hm h1.le]
    refine Real.rpow_le_rpow (Real.rpow_nonneg h1.le _) ?_ hm.le
    rwa [← mul_assoc]

/-- **C89**, constant conditions for new devices: into however many phases the stress is divided, a new sample gets its own JEDEC
shift for the total time, up to the tolerance. -/
theorem C89_constant_new (hk : IsNbti k) (ha : 0 < a) (hm : 0 < m) (hm1 : m ≤ 1) {ph : Phase (Ext ℝ)}
    {rest : List (Phase (Ext ℝ))} (h : NbtiPhases lat l c d a e α m T v (ph :: rest)) {T₀ v₀ : ℝ}
    (hT : ∀ p ∈ ph :: rest, T p = T₀ ∧ v p = v₀)
    (h0 : lengthOf unit ph + 11 / 10000 ≤ 9000000000)
    (hr : InReach unit (damageRate a e α m T v) (damageRate a e α m T v ph * (11 / 10000)) 0
      (damageRate a e α m T v ph * lengthOf unit ph) rest)
    (hf : Finishes k nbtiLaw unit lat L C n l c d
      (phaseValues k nbtiLaw unit lat L C n (fun _ _ _ => k.unitary) ph) rest)
    (hl : l < L) (hc : c < C) (hd : d < n) :
    ∃ x : ℝ, mechHistory k nbtiLaw unit lat L C n (ph :: rest) l c d = .fin x ∧
      nbtiShift a e T₀ v₀ α m (((ph :: rest).map (lengthOf unit)).sum / slack ^ rest.length) ≤ x ∧
      x ≤ nbtiShift a e T₀ v₀ α m ((((ph :: rest).map (lengthOf unit)).sum + 11 / 10000) * slack ^ rest.length) := by
  obtain ⟨x, h1, h2, h3, h4⟩ := C89_new hk ha hm hm1 h h0 hr hf hl hc hd
  obtain ⟨hT0, hv0⟩ := hT ph List.mem_cons_self
  have hv : 0 < v₀ := hv0 ▸ (h.pos ph List.mem_cons_self).2
  have hS : 0 ≤ ((ph :: rest).map (lengthOf unit)).sum := by
    refine List.sum_nonneg fun y hy => ?_
    obtain ⟨q, hq, rfl⟩ := List.mem_map.1 hy
    unfold lengthOf
    exact_mod_cast phaseTime_pos (unit := unit) (h.long q hq)
  have hs : 0 < slack ^ rest.length := pow_pos (lt_trans one_pos slack_one) _
  rw [damage_constant ha hm hv hT h.long] at h3 h4
  rw [hT0, hv0, damage_time ha hv hm (by norm_num : (0 : ℝ) ≤ 11 / 10000), ← mul_add] at h4
  generalize ((ph :: rest).map (lengthOf unit)).sum = S at *
  have hR : 0 ≤ damage m (nbtiShift a e T₀ v₀ α m 1) := Real.rpow_nonneg (nbtiShift_pos ha hv).le _
  have key : ∀ t : ℝ, 0 ≤ t → (damage m (nbtiShift a e T₀ v₀ α m 1) * t) ^ m = nbtiShift a e T₀ v₀ α m t := by
    intro t ht
    rw [Real.mul_rpow hR ht, power_damage hm (nbtiShift_pos ha hv).le, ← nbtiShift_one]
  refine ⟨x, h2, ?_, ?_⟩
  · rw [← key _ (by positivity), ← power_damage hm h1.le]
    refine Real.rpow_le_rpow (by positivity) ?_ hm.le
    rwa [← mul_div_assoc]
  · rw [← key _ (by positivity), ← power_damage hm h1.le]
    refine Real.rpow_le_rpow (Real.rpow_nonneg h1.le _) ?_ hm.le
    rwa [← mul_assoc]

/-- **C89**, simulations: in every simulation from new devices, every sample of every prebuilt NBTI mechanism has had
the sum of the damages of the stress phases, within the same limits. -/
theorem C89_run {ord : SetOrder} {dev : DeviceMdl W (Ext ℝ)} {env : PhysTestEnv (Ext ℝ)}
    (hnd : dev.prms.Nodup) (hmn : ∀ p d, dev.prms.get? p = some (.deg d) → d.mechs.Nodup) {N : Nat → Prop}
    (hs : ∀ p d, dev.prms.get? p = some (.deg d) → DegShapes d N) {test : TestSpec (Ext ℝ)}
    {s0 s : SimState (Ext ℝ)} {r0 r : SimReport (Ext ℝ)} {w w0 w' : W}
    (h1 : simStart dev test none w = (.ok (s0, r0), w0)) {steps : List (Step (Ext ℝ))}
    (h2 : runSteps ord dev env 0 steps (s0, r0) w0 = (.ok (s, r), w'))
    {prm : String} {md : DegPrmMdl W (Ext ℝ)} (hmd : dev.prms.get? prm = some (.deg md)) (ho : OwnNames md)
    {gm : String → (String → Ext ℝ) → Ext ℝ} {um : String → TUnit} (he : MechEquations md gm um N)
    {n : Nat} (hq : r0.devCounts.get? prm = some n) (hN : SizesIn N r0.info := by intro _ _ _; trivial) :
    ∃ phases lat, List.Forall₂ (PhaseOf (W := W) ord dev env r0.info prm) (stressSteps steps) phases ∧
      s.latents.get? prm = some lat ∧
      ∀ mech k, md.mechs.get? mech = some k → IsNbti k → gm mech = nbtiLaw → ∃ V, mechVal s prm mech = some V ∧
        ∀ l < test.numLots, ∀ c < test.numChps, ∀ d < n, ∀ (a e α m : ℝ) (T v : Phase (Ext ℝ) → ℝ) ph rest,
          phases = ph :: rest → 0 < a → 0 < m → m ≤ 1 →
          (∀ q ∈ phases, NbtiSample q.conds (partLatents lat mech) l c d a e (T q) (v q) α m) →
          (∀ q ∈ phases, 0 < T q ∧ 0 < v q ∧ 0 ≤ Spec.timeVal q.duration ∧ q.conds.get? "time" = none) →
          lengthOf (um mech) ph + 11 / 10000 ≤ 9000000000 →
          InReach (um mech) (damageRate a e α m T v) (damageRate a e α m T v ph * (11 / 10000)) 0
            (damageRate a e α m T v ph * lengthOf (um mech) ph) rest →
          Finishes k nbtiLaw (um mech) (partLatents lat mech) test.numLots test.numChps n l c d
            (phaseValues k nbtiLaw (um mech) (partLatents lat mech) test.numLots test.numChps n
              (fun _ _ _ => k.unitary) ph) rest →
          ∃ x : ℝ, 0 < x ∧ V.at' l c d = .fin x ∧
            totalDamage (um mech) a e α m T v phases / slack ^ rest.length ≤ damage m x ∧
            damage m x ≤ (totalDamage (um mech) a e α m T v phases +
              damage m (nbtiShift a e (T ph) (v ph) α m (11 / 10000))) * slack ^ rest.length := by
  obtain ⟨phases, lat, f1, -, f3, -, f5⟩ := C74_mechanisms hnd hmn hs h1 h2 hmd ho he hq hN
  refine ⟨phases, lat, f1, f3, fun mech k hk hnb hgm => ?_⟩
  obtain ⟨V, b1, b2, b3⟩ := f5 mech k hk
  refine ⟨V, b1, ?_⟩
  rintro l hl c hc d hd a e α m T v ph rest rfl ha hm hm1 hsm hps h0 hr hf
  have hkeys := (nbti_eq hnb).2.2.2
  have hno : ∀ x, x ∉ ["a_0", "e_aa", "alpha", "n"] → (partLatents lat mech).get? x = none := by
    intro x hx
    refine b2.2 x ?_
    rw [← hkeys] at hx
    exact (Dict.get?_eq_none_iff _ _).2 hx
  rw [b3 l hl c hc d hd, hgm]
  exact C89_new hnb ha hm hm1 ⟨hsm, fun q hq => ⟨(hps q hq).1, (hps q hq).2.1⟩, fun q hq => (hps q hq).2.2.1,
    hno _ (by simp), hno _ (by simp), hno _ (by simp), fun q hq => (hps q hq).2.2.2⟩ h0 hr hf hl hc hd

/-- The equation of the mechanism is the law, sample by sample, as `MechEquations` asks for. -/
theorem nbti_sample (hk : IsNbti k) {N : Nat → Prop} : SampleEquation k.mdl.compute nbtiLaw N := by
  rw [(nbti_eq hk).2.2.1]
  exact expr_sample nbti_uses

end

/-! ## A concrete case

A device at 398 K, 10000 hours at 1 V and then 50 hours at the voltage (about 1.34 V) at which the damage would have
taken 100 hours. The time exponent is `1 / (2 ln 10)`, about 0.217. -/

namespace Jedec

attribute [local instance] fieldArith in
/-- The search of one sample in real numbers. -/
theorem search_real {G : Ext ℝ → Ext ℝ} {H : ℝ → ℝ} (hG : ∀ u : ℝ, G (.fin (10 ^ u)) = .fin (H u)) (n : Nat) :
    searchState (equivTimeCfg (Ext ℝ)) G n = BState.map (FinEmb.ext ℝ).emb
      ((fun s => s.update (s.step cfgR) (H (s.x + s.step cfgR)))^[n] (cfgR.init (H cfgR.x0))) := by
  have hG' : ∀ u : ℝ, G ((equivTimeCfg (Ext ℝ)).xf ((FinEmb.ext ℝ).emb u)) = (FinEmb.ext ℝ).emb (H u) := hG
  have hx0 : (equivTimeCfg (Ext ℝ)).x0 = (FinEmb.ext ℝ).emb cfgR.x0 := by
    simp only [MinCfg.x0, cfgR_emb.lo, cfgR_emb.hi, cfgR_emb.gf2, FinEmb.add, FinEmb.sub, FinEmb.mul]
    rfl
  induction n with
  | zero =>
    show (equivTimeCfg (Ext ℝ)).init (G ((equivTimeCfg (Ext ℝ)).xf (equivTimeCfg (Ext ℝ)).x0)) = _
    rw [hx0, hG', init_map (FinEmb.ext ℝ) cfgR_emb]
    rfl
  | succ n ih =>
    unfold searchState at ih ⊢
    rw [Function.iterate_succ_apply', ih, Function.iterate_succ_apply']
    generalize (fun s => BState.update s (s.step cfgR) (H (s.x + s.step cfgR)))^[n] (cfgR.init (H cfgR.x0)) = st
    show BState.update _ _ _ = _
    have e1 := step_map (FinEmb.ext ℝ) cfgR_emb st
    have e2 : PyArith.add (BState.map (FinEmb.ext ℝ).emb st).x ((FinEmb.ext ℝ).emb (st.step cfgR)) =
        (FinEmb.ext ℝ).emb (st.x + st.step cfgR) := (FinEmb.ext ℝ).add _ _
    rw [e1, e2, hG', update_map]

/-- Enclosures of `|e - exp (u / 2)|`. -/
def gap (u : Iv) : Option Iv := do
  let x ← IvSearch.expHalf (Iv.frac 2 1)
  let y ← IvSearch.expHalf u
  pure (x.sub y).abs

theorem gap_in (u : ℝ) (j k : Iv) (h : Iv.In u j) (hk : gap j = some k) :
    Iv.In |Real.exp 1 - Real.exp (u / 2)| k := by
  unfold gap at hk
  simp only [Option.bind_eq_bind, Option.bind_eq_some_iff, Option.pure_def, Option.some.injEq] at hk
  obtain ⟨x, h1, y, h2, rfl⟩ := hk
  have h3 := IvSearch.expHalf_in (Iv.In.frac 2 (b := 1) (by decide)) h1
  have h4 : Iv.In (Real.exp 1) x := IvSearch.as_in h3 (by norm_num)
  exact (h4.sub (IvSearch.expHalf_in h h2)).abs

theorem gap_done : (IvSearch.run gap 21).bind IvSearch.done = some true := by decide +kernel

attribute [local instance] fieldArith in
/-- The search of a sample with this residue in any units finishes after 21 rounds. -/
theorem jedec_search {κ : ℝ} (hκ : 0 < κ) {G : Ext ℝ → Ext ℝ}
    (hG : ∀ u : ℝ, G (.fin (10 ^ u)) = .fin (κ * |Real.exp 1 - Real.exp (u / 2)|)) :
    (searchState (equivTimeCfg (Ext ℝ)) G 21).done (equivTimeCfg (Ext ℝ)) = true := by
  rw [search_real hG, done_map (FinEmb.ext ℝ) cfgR_emb,
    rescale_run hκ cfgR fun u => |Real.exp 1 - Real.exp (u / 2)|]
  obtain ⟨i, h1, h2⟩ := Option.bind_eq_some_iff.1 gap_done
  exact IvSearch.done_of (IvSearch.run_in gap_in 21 h1) h2

/-- The time exponent. -/
noncomputable def expo : ℝ := 1 / (2 * Real.log 10)

theorem log10' : 1 < Real.log 10 := by
  rw [Real.lt_log_iff_exp_lt (by norm_num)]
  linarith [Real.exp_one_lt_d9]

theorem expo_pos : 0 < expo := by
  have := log10'
  unfold expo
  positivity

theorem expo_one : expo ≤ 1 := by
  have := log10'
  unfold expo
  rw [div_le_one (by linarith)]
  linarith

theorem expo_power (u : ℝ) : (10 ^ u : ℝ) ^ expo = Real.exp (u / 2) := by
  have h := log10'
  rw [← Real.rpow_mul (by norm_num), Real.rpow_def_of_pos (by norm_num)]
  congr 1
  unfold expo
  field_simp

theorem expo_hundred : (100 : ℝ) ^ expo = Real.exp 1 := by
  have := expo_power 2
  norm_num at this
  exact this

/-- The latent values of the device. -/
noncomputable def lats : Dict (Arr3 (Ext ℝ)) :=
  [("a_0", Arr3.full 1 1 1 (.fin (6 / 1000))), ("e_aa", Arr3.full 1 1 1 (.fin (5 / 100))),
    ("alpha", Arr3.full 1 1 1 (.fin (34 / 10))), ("n", Arr3.full 1 1 1 (.fin expo))]

/-- A phase of some hours at 398 K and a voltage. -/
noncomputable def phase (hours : Int) (v : ℝ) : Phase (Ext ℝ) where
  duration := .td (hours * 3600000000)
  conds := [("temp", Arr3.full 1 1 1 (.fin 398)), ("vdd", Arr3.full 1 1 1 (.fin v))]

/-- The voltage of a phase. -/
noncomputable def volt (ph : Phase (Ext ℝ)) : ℝ :=
  match condAt ph.conds 0 0 0 "vdd" with
  | some (.fin r) => r
  | _ => 0

theorem volt_phase (hours : Int) (v : ℝ) : volt (phase hours v) = v := by
  simp [volt, phase, condAt, Dict.get?, Arr3.full, Arr3.ofFn, Arr3.at']

theorem phase_length (hours : Int) (v : ℝ) : lengthOf .hours (phase hours v) = hours := by
  unfold lengthOf phaseTime phase Spec.timeVal timeSecondFactor
  push_cast
  ring

theorem at_one (x : Ext ℝ) : (Arr3.full 1 1 1 x).at' 0 0 0 = x := Arr3.at_full _ one_pos one_pos one_pos

theorem jedec_phases {hours : List (Int × ℝ)} (hh : ∀ p ∈ hours, 0 ≤ p.1 ∧ 0 < p.2) :
    NbtiPhases lats 0 0 0 (6 / 1000) (5 / 100) (34 / 10) expo (fun _ => 398) volt
      (hours.map fun p => phase p.1 p.2) where
  sample := by
    intro ph hp
    obtain ⟨p, -, rfl⟩ := List.mem_map.1 hp
    rw [volt_phase]
    exact ⟨⟨_, rfl, at_one _⟩, ⟨_, rfl, at_one _⟩, ⟨_, rfl, at_one _⟩, ⟨_, rfl, at_one _⟩, ⟨_, rfl, at_one _⟩,
      ⟨_, rfl, at_one _⟩⟩
  pos := by
    intro ph hp
    obtain ⟨p, h1, rfl⟩ := List.mem_map.1 hp
    rw [volt_phase]
    exact ⟨by norm_num, (hh p h1).2⟩
  long := by
    intro ph hp
    obtain ⟨p, h1, rfl⟩ := List.mem_map.1 hp
    have := (hh p h1).1
    show (0 : ℚ) ≤ ((p.1 * 3600000000 : Int) : ℚ)
    exact_mod_cast (by positivity)
  temp := rfl
  vdd := rfl
  time := by
    refine ⟨rfl, ?_⟩
    intro ph hp
    obtain ⟨p, -, rfl⟩ := List.mem_map.1 hp
    rfl

/-- The damage rate at a voltage. -/
noncomputable def rateAt (v : ℝ) : ℝ := damage expo (nbtiShift (6 / 1000) (5 / 100) 398 v (34 / 10) expo 1)

theorem rate_phase (hours : Int) (v : ℝ) :
    damageRate (6 / 1000) (5 / 100) (34 / 10) expo (fun _ => 398) volt (phase hours v) = rateAt v := by
  unfold damageRate rateAt
  rw [volt_phase]

theorem rateAt_pos {v : ℝ} (hv : 0 < v) : 0 < rateAt v :=
  Real.rpow_pos_of_pos (nbtiShift_pos (by norm_num) hv) _

/-- Every damage rate belongs to a voltage. -/
theorem rateAt_onto {r : ℝ} (hr : 0 < r) : ∃ v, 0 < v ∧ rateAt v = r := by
  have hA : (0 : ℝ) < 6 / 1000 * Real.exp (5 / 100 / (8617 / 100000000 * 398)) := by
    have := Real.exp_pos (5 / 100 / (8617 / 100000000 * 398))
    positivity
  have hp := Real.rpow_pos_of_pos hr expo
  refine ⟨(r ^ expo / (6 / 1000 * Real.exp (5 / 100 / (8617 / 100000000 * 398)))) ^ (1 / (34 / 10) : ℝ),
    Real.rpow_pos_of_pos (by positivity) _, ?_⟩
  unfold rateAt nbtiShift
  rw [← Real.rpow_mul (by positivity), Real.one_rpow, mul_one]
  norm_num
  rw [mul_div_cancel₀]
  · exact damage_power expo_pos hr.le
  · positivity

theorem rateAt_mono {v w : ℝ} (hv : 0 < v) (h : v ≤ w) : rateAt v ≤ rateAt w := by
  unfold rateAt damage
  refine Real.rpow_le_rpow (nbtiShift_pos (by norm_num) hv).le ?_ (by have := expo_pos; positivity)
  unfold nbtiShift
  have := Real.rpow_le_rpow hv.le h (by norm_num : (0 : ℝ) ≤ 34 / 10)
  rw [Real.one_rpow]
  gcongr

/-- The damage after the first phase. -/
theorem jedec_first : ∃ D : ℝ, 10000 * rateAt 1 ≤ D ∧ D ≤ 10001 * rateAt 1 ∧
    phaseValues nbtiMech nbtiLaw .hours lats 1 1 1 (fun _ _ _ => nbtiMech.unitary) (phase 10000 1) 0 0 0 =
      .fin (D ^ expo) := by
  have hR := rateAt_pos one_pos
  have hp := jedec_phases (hours := [(10000, 1)]) (by simp)
  obtain ⟨D, h1, h2, h3, h4⟩ := C75_new (k := nbtiMech) (unit := .hours) (L := 1) (C := 1) (n := 1)
    (nbti_eq nbtiMech_is).1 (nbti_eq nbtiMech_is).2.1 (power_fresh expo_pos expo_one) (ph := phase 10000 1) (rest := [])
    (nbti_rate hp (by norm_num) expo_pos) (by rw [phase_length]; norm_num) trivial trivial
    one_pos one_pos one_pos
  simp only [exposure, List.map_cons, List.map_nil, List.sum_cons, List.sum_nil, rate_phase, phase_length,
    List.length_nil, pow_zero] at h3 h4
  refine ⟨D, ?_, ?_, h2⟩
  · norm_num at h3
    linarith
  · norm_num at h4
    linarith

/-- The residue in the second phase. -/
theorem residue_second {D v : ℝ} (hD : 0 < D) (hv : 0 < v) (hr : rateAt v = D / 100) (u : ℝ) :
    residueOne nbtiLaw (condAt lats 0 0 0) (condAt (phase 50 v).conds 0 0 0) (.fin (D ^ expo)) (.fin (10 ^ u)) =
      .fin ((D / 100) ^ expo * |Real.exp 1 - Real.exp (u / 2)|) := by
  have hp : (0 : ℝ) < 10 ^ u := Real.rpow_pos_of_pos (by norm_num) u
  have hph := jedec_phases (hours := [(50, v)]) (by
    intro p hp
    simp only [List.mem_singleton] at hp
    subst hp
    exact ⟨by norm_num, hv⟩)
  rw [residue_fin ((nbti_rate hph (by norm_num) expo_pos).law _ List.mem_cons_self) _ hp]
  have hk : 0 < (D / 100) ^ expo := Real.rpow_pos_of_pos (by positivity) _
  have e1 : D ^ expo = (D / 100) ^ expo * Real.exp 1 := by
    rw [← expo_hundred, ← Real.mul_rpow (by positivity) (by norm_num)]
    congr 1
    ring
  rw [rate_phase, hr, Real.mul_rpow (by positivity) hp.le, expo_power, e1, ← mul_sub, abs_mul, abs_of_pos hk]

/-- The search in the second phase finishes. -/
theorem finish_second {D v : ℝ} (hD : 0 < D) (hv : 0 < v) (hr : rateAt v = D / 100) {V : Nat → Nat → Nat → Ext ℝ}
    (hV : V 0 0 0 = .fin (D ^ expo)) :
    Finishes nbtiMech nbtiLaw .hours lats 1 1 1 0 0 0 V [phase 50 v] := by
  refine ⟨?_, trivial⟩
  have hlt : commonRounds (equivTimeCfg (Ext ℝ)) 1 1 1 (fun l c d => residueOne nbtiLaw (condAt lats l c d)
      (condAt (phase 50 v).conds l c d) (V l c d)) < 50 := by
    unfold commonRounds
    cases hf : (List.range (equivTimeCfg (Ext ℝ)).maxiter).find? fun k => allSamples 1 1 1 fun l c d =>
      (searchState (equivTimeCfg (Ext ℝ)) (residueOne nbtiLaw (condAt lats l c d)
        (condAt (phase 50 v).conds l c d) (V l c d)) k).done (equivTimeCfg (Ext ℝ)) with
    | some k => exact List.mem_range.1 (List.mem_of_find?_eq_some hf)
    | none =>
      have := List.find?_eq_none.1 hf 21 (List.mem_range.2 (by show 21 < 50; norm_num))
      refine absurd (allSamples_iff.2 ?_) this
      intro l hl c hc d hd
      obtain rfl : l = 0 := by omega
      obtain rfl : c = 0 := by omega
      obtain rfl : d = 0 := by omega
      rw [hV]
      exact jedec_search (Real.rpow_pos_of_pos (by positivity) _) (residue_second hD hv hr)
  exact commonRounds_done (f := fun l c d => residueOne nbtiLaw (condAt lats l c d)
    (condAt (phase 50 v).conds l c d) (V l c d)) hlt one_pos one_pos one_pos

/-- Both phases: the hypotheses of C89 hold and the damages add up. -/
theorem jedec_two : ∃ v : ℝ, 1 < v ∧ ∃ x : ℝ, 0 < x ∧
    mechHistory nbtiMech nbtiLaw .hours lats 1 1 1 [phase 10000 1, phase 50 v] 0 0 0 = .fin x ∧
      (10000 * rateAt 1 + 50 * rateAt v) / slack ≤ damage expo x ∧
      damage expo x ≤ (10000 * rateAt 1 + 50 * rateAt v + 11 / 10000 * rateAt 1) * slack := by
  obtain ⟨D, h1, h2, h3⟩ := jedec_first
  have hR := rateAt_pos one_pos
  have hD : 0 < D := by linarith
  obtain ⟨v, hv, hr⟩ := rateAt_onto (r := D / 100) (by positivity)
  have hs1 := slack_one
  have hs2 : slack ≤ 10 := by
    unfold slack
    calc (10 : ℝ) ^ (1 / 100000 : ℝ) ≤ 10 ^ (1 : ℝ) := Real.rpow_le_rpow_of_exponent_le (by norm_num) (by norm_num)
      _ = 10 := by norm_num
  have h1v : 1 < v := by
    by_contra hc
    have := rateAt_mono hv (not_lt.1 hc)
    rw [hr] at this
    linarith
  refine ⟨v, h1v, ?_⟩
  have hp := jedec_phases (hours := [(10000, 1), (50, v)]) (by
    intro p hp
    simp only [List.mem_cons, List.not_mem_nil, or_false] at hp
    rcases hp with rfl | rfl
    · norm_num
    · exact ⟨by norm_num, hv⟩)
  obtain ⟨x, x1, x2, x3, x4⟩ := C89_new (unit := .hours) (L := 1) (C := 1) (n := 1) nbtiMech_is (by norm_num) expo_pos
    expo_one (ph := phase 10000 1) (rest := [phase 50 v]) hp (by rw [phase_length]; norm_num)
    (by
      simp only [InReach, rate_phase, phase_length, pow_zero, hr]
      push_cast
      refine ⟨by linarith, ?_, trivial⟩
      nlinarith)
    (finish_second hD hv hr h3) one_pos one_pos one_pos
  rw [← exposure_damage (by norm_num) expo_pos (phases := [phase 10000 1, phase 50 v])
    (fun ph hp' => (hp.pos ph hp').2) hp.long] at x3 x4
  rw [damage_time (by norm_num) (by rw [volt_phase]; norm_num) expo_pos (by norm_num)] at x4
  simp only [exposure, List.map_cons, List.map_nil, List.sum_cons, List.sum_nil, rate_phase, phase_length,
    List.length_cons, List.length_nil, Nat.zero_add, pow_one, volt_phase] at x3 x4
  push_cast at x3 x4
  refine ⟨x, x1, x2, ?_, ?_⟩
  · refine le_trans (le_of_eq ?_) x3
    ring
  · refine x4.trans (le_of_eq ?_)
    unfold rateAt
    ring

/-- A device that has a shift of 30 mV, in 50 hours at a voltage. -/
example : ∃ v : ℝ, 0 < v ∧ ∃ x : ℝ, 0 < x ∧
    [phase 50 v].foldl (phaseValues nbtiMech nbtiLaw .hours lats 1 1 1) (fun _ _ _ => .fin (3 / 100)) 0 0 0 = .fin x ∧
      (damage expo (3 / 100) + 50 * rateAt v) / slack ≤ damage expo x ∧
      damage expo x ≤ (damage expo (3 / 100) + 50 * rateAt v) * slack := by
  have hD : 0 < damage expo (3 / 100) := Real.rpow_pos_of_pos (by norm_num) _
  obtain ⟨v, hv, hr⟩ := rateAt_onto (r := damage expo (3 / 100) / 100) (by positivity)
  have hs1 := slack_one
  have hs2 : slack ≤ 10 := by
    unfold slack
    calc (10 : ℝ) ^ (1 / 100000 : ℝ) ≤ 10 ^ (1 : ℝ) := Real.rpow_le_rpow_of_exponent_le (by norm_num) (by norm_num)
      _ = 10 := by norm_num
  refine ⟨v, hv, ?_⟩
  have hp := jedec_phases (hours := [(50, v)]) (by
    intro p hp
    simp only [List.mem_singleton] at hp
    subst hp
    exact ⟨by norm_num, hv⟩)
  obtain ⟨x, x1, x2, x3, x4⟩ := C89_used (unit := .hours) (L := 1) (C := 1) (n := 1) nbtiMech_is (by norm_num) expo_pos
    hp (y := 3 / 100) (by norm_num) (V := fun _ _ _ => .fin (3 / 100)) rfl
    (by
      simp only [InReach, List.map_cons, List.map_nil, rate_phase, phase_length, pow_zero, hr]
      push_cast
      refine ⟨by linarith, ?_, trivial⟩
      nlinarith)
    (finish_second hD hv hr (by rw [power_damage expo_pos (by norm_num)]))
  rw [← exposure_damage (by norm_num) expo_pos (fun ph hp' => (hp.pos ph hp').2) hp.long] at x3 x4
  simp only [exposure, List.map_cons, List.map_nil, List.sum_cons, List.sum_nil, rate_phase, phase_length,
    List.length_cons, List.length_nil, Nat.zero_add, pow_one] at x3 x4
  push_cast at x3 x4
  refine ⟨x, x1, x2, ?_, ?_⟩
  · refine le_trans (le_of_eq ?_) x3
    ring
  · refine x4.trans (le_of_eq ?_)
    ring

/-- The device after 100 hours at 1 V and 398 K, for 50 more hours. -/
example : ∃ x : ℝ, [phase 50 1].foldl (phaseValues nbtiMech nbtiLaw .hours lats 1 1 1)
    (fun _ _ _ => .fin (nbtiShift (6 / 1000) (5 / 100) 398 1 (34 / 10) expo 100)) 0 0 0 = .fin x ∧
      nbtiShift (6 / 1000) (5 / 100) 398 1 (34 / 10) expo (150 / slack) ≤ x ∧
      x ≤ nbtiShift (6 / 1000) (5 / 100) 398 1 (34 / 10) expo (150 * slack) := by
  have hR := rateAt_pos one_pos
  have hs1 := slack_one
  have hs2 : slack ≤ 10 := by
    unfold slack
    calc (10 : ℝ) ^ (1 / 100000 : ℝ) ≤ 10 ^ (1 : ℝ) := Real.rpow_le_rpow_of_exponent_le (by norm_num) (by norm_num)
      _ = 10 := by norm_num
  have hp := jedec_phases (hours := [(50, 1)]) (by simp)
  have hd : damage expo (nbtiShift (6 / 1000) (5 / 100) 398 1 (34 / 10) expo 100) = rateAt 1 * 100 :=
    damage_time (by norm_num) one_pos expo_pos (by norm_num)
  have hpos : (0 : ℝ) < nbtiShift (6 / 1000) (5 / 100) 398 1 (34 / 10) expo 100 := by
    rw [nbtiShift_one]
    exact mul_pos (nbtiShift_pos (by norm_num) one_pos) (Real.rpow_pos_of_pos (by norm_num) _)
  have h := C89_constant (unit := .hours) (L := 1) (C := 1) (n := 1) nbtiMech_is (by norm_num) expo_pos hp
    (T₀ := 398) (v₀ := 1) one_pos (by simp [volt_phase]) (t := 100) (by norm_num)
    (V := fun _ _ _ => .fin (nbtiShift (6 / 1000) (5 / 100) 398 1 (34 / 10) expo 100)) rfl
    (by
      simp only [InReach, List.map_cons, List.map_nil, rate_phase, phase_length, pow_zero, hd]
      push_cast
      refine ⟨by linarith, ?_, trivial⟩
      nlinarith)
    (finish_second (D := rateAt 1 * 100) (by positivity) one_pos (by ring) (by
      rw [← hd, power_damage expo_pos hpos.le]))
  simp only [List.map_cons, List.map_nil, List.sum_cons, List.sum_nil, phase_length, List.length_cons, List.length_nil,
    Nat.zero_add, pow_one] at h
  norm_num at h
  norm_num
  exact h

/-- A new device in one phase. -/
example : ∃ x : ℝ, mechHistory nbtiMech nbtiLaw .hours lats 1 1 1 [phase 10000 1] 0 0 0 = .fin x ∧
    nbtiShift (6 / 1000) (5 / 100) 398 1 (34 / 10) expo 10000 ≤ x ∧
      x ≤ nbtiShift (6 / 1000) (5 / 100) 398 1 (34 / 10) expo (10000 + 11 / 10000) := by
  have h := C89_constant_new (unit := .hours) (L := 1) (C := 1) (n := 1) nbtiMech_is (by norm_num) expo_pos expo_one
    (ph := phase 10000 1) (rest := []) (jedec_phases (hours := [(10000, 1)]) (by simp)) (T₀ := 398) (v₀ := 1)
    (by simp [volt_phase]) (by rw [phase_length]; norm_num) trivial trivial one_pos one_pos one_pos
  simpa only [List.map_cons, List.map_nil, List.sum_cons, List.sum_nil, phase_length, List.length_nil, pow_zero,
    div_one, mul_one, add_zero, Int.cast_ofNat] using h

end Jedec

end Gerabaldi.Props
