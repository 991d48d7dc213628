import Verif.Props.CookbookEnv
import Verif.Props.EnvVariation

/-! # C59: the distribution of the conditions in the prebuilt environment -/

namespace Gerabaldi.Props
open Gerabaldi Spec MeasureTheory ProbabilityTheory

variable {N : Numpy} {Ω : Type} [MeasurableSpace Ω] {P : Measure Ω} {P₀ : Measure ℝ} {raw : Nat → Nat → Ω → ℝ}

theorem normalVar_layer (i : Nat) (mu sigma : ℚ) {m : ℝ} {s : NNReal} (hm : m = mu) (hs : (s : ℝ) = sigma) :
    NormalLayer (normalVar i mu sigma : RVar (Ext ℝ)) m s := by
  left
  rw [hm, hs]
  rfl

/-- Every condition is varied by adding something finite. -/
theorem voltTemp_layers {env : PhysTestEnv (Ext ℝ)} (he : (voltTempEnv : Except Err (PhysTestEnv (Ext ℝ))) = .ok env) :
    ∃ fb fc fd : String → ℝ → ℝ, ∀ k, EnvLayers N (env.vrtnMdl k) .offset (fb k) (fc k) (fd k) := by
  suffices h : ∀ k, ∃ fb fc fd, EnvLayers N (env.vrtnMdl k) .offset fb fc fd by
    choose fb fc fd h using h
    exact ⟨fb, fc, fd, h⟩
  intro k
  by_cases h1 : k = "temp"
  · subst h1
    cases he
    exact ⟨_, _, _, rfl, rfl, rfl, rfl⟩
  · by_cases h2 : k = "vdd"
    · subst h2
      cases he
      exact ⟨_, _, _, rfl, rfl, rfl, rfl⟩
    · rw [(C59_others he h1 h2).1]
      exact ⟨_, _, _, rfl, rfl, rfl, rfl⟩

theorem voltTemp_temp {env : PhysTestEnv (Ext ℝ)} (he : (voltTempEnv : Except Err (PhysTestEnv (Ext ℝ))) = .ok env) :
    NormalLayer (env.vrtnMdl "temp").batch 0 (1 / 2) ∧ NormalLayer (env.vrtnMdl "temp").chp 0 (1 / 5) ∧
      NormalLayer (env.vrtnMdl "temp").dev 0 (1 / 20) := by
  cases he
  refine ⟨normalVar_layer 6 0 (5 / 10) ?_ ?_, normalVar_layer 5 0 (2 / 10) ?_ ?_, normalVar_layer 4 0 (5 / 100) ?_ ?_⟩ <;>
    norm_num

theorem voltTemp_vdd {env : PhysTestEnv (Ext ℝ)} (he : (voltTempEnv : Except Err (PhysTestEnv (Ext ℝ))) = .ok env) :
    NormalLayer (env.vrtnMdl "vdd").batch 0 0 ∧ NormalLayer (env.vrtnMdl "vdd").chp 0 (5 / 10000) ∧
      NormalLayer (env.vrtnMdl "vdd").dev 0 (3 / 10000) := by
  cases he
  refine ⟨normalVar_layer 3 0 0 ?_ ?_, normalVar_layer 2 0 (5 / 10000) ?_ ?_, normalVar_layer 1 0 (3 / 10000) ?_ ?_⟩ <;>
    norm_num

section
variable (hN : N.Correct P₀) (hr : Standard P P₀ raw) {env : PhysTestEnv (Ext ℝ)}
  (he : (voltTempEnv : Except Err (PhysTestEnv (Ext ℝ))) = .ok env) {ord : SetOrder}
  {base : Dict ℝ} {t : String → VType} {fb fc fd : String → ℝ → ℝ} {dm : DeviceMdl (Tapes N) (Ext ℝ)}
  {prms : PrmSel} {info : Option Quantities} {target : Target} {nc nl L C : Nat} {D : String → Nat}
  (step : EnvStep N env base t fb fc fd dm prms info nc nl L C D) {next : Nat → Nat}

include hN hr he step

/-- **C59** with ideal generators: the temperature of a device is normally distributed around the requested one, with
a standard deviation of 0.5 degrees for the whole test chamber, 0.2 degrees between chips and 0.05 degrees between the
devices of a chip. -/
theorem C59_temperatureLaw {b : ℝ} (hk : base.get? "temp" = some b) {p p' : String}
    (hp : Exposed dm prms.toList target p "temp") (hp' : Exposed dm prms.toList target p' "temp") {l l' : Fin L}
    {c c' : Fin C} {d d' : Nat} (hd : d < D p) (hd' : d' < D p') {Y Y' : Ω → ℝ}
    (hY : RandomCondition raw next env ord base dm prms info target nc nl p "temp" l c d Y)
    (hY' : RandomCondition raw next env ord base dm prms info target nc nl p' "temp" l' c' d' Y') :
    P.map Y = gaussianReal b (0.5 ^ 2 + 0.2 ^ 2 + 0.05 ^ 2) ∧
    cov[Y, Y'; P] = 0.5 ^ 2 + (if l = l' ∧ c = c' then 0.2 ^ 2 else 0) +
      (if p = p' ∧ l = l' ∧ c = c' ∧ d = d' then 0.05 ^ 2 else 0) := by
  obtain ⟨n1, n2, n3⟩ := voltTemp_temp he
  obtain ⟨gb, gc, gd, h⟩ := voltTemp_layers (N := N) he
  have ht : t "temp" = .offset :=
    Option.some.inj ((step.layers _ (Dict.mem_keys_of_get? hk)).type.symm.trans (h "temp").type)
  have := C93_normal hN hr step hk ht n1 n2 n3 hp hp' hd hd' hY hY'
  constructor
  · rw [this.1]
    congr 1
    · ring
    · norm_num
  · rw [this.2]
    norm_num

/-- **C59** with ideal generators: the voltage of a device is normally distributed around the requested one, with a
standard deviation of 0.5 mV between chips and 0.3 mV between the devices of a chip; chips vary independently. -/
theorem C59_voltageLaw {b : ℝ} (hk : base.get? "vdd" = some b) {p p' : String}
    (hp : Exposed dm prms.toList target p "vdd") (hp' : Exposed dm prms.toList target p' "vdd") {l l' : Fin L}
    {c c' : Fin C} {d d' : Nat} (hd : d < D p) (hd' : d' < D p') {Y Y' : Ω → ℝ}
    (hY : RandomCondition raw next env ord base dm prms info target nc nl p "vdd" l c d Y)
    (hY' : RandomCondition raw next env ord base dm prms info target nc nl p' "vdd" l' c' d' Y') :
    P.map Y = gaussianReal b (0.0005 ^ 2 + 0.0003 ^ 2) ∧
    cov[Y, Y'; P] = (if l = l' ∧ c = c' then 0.0005 ^ 2 else 0) +
      (if p = p' ∧ l = l' ∧ c = c' ∧ d = d' then 0.0003 ^ 2 else 0) := by
  obtain ⟨n1, n2, n3⟩ := voltTemp_vdd he
  obtain ⟨gb, gc, gd, h⟩ := voltTemp_layers (N := N) he
  have ht : t "vdd" = .offset :=
    Option.some.inj ((step.layers _ (Dict.mem_keys_of_get? hk)).type.symm.trans (h "vdd").type)
  have := C93_normal hN hr step hk ht n1 n2 n3 hp hp' hd hd' hY hY'
  constructor
  · rw [this.1]
    congr 1
    · ring
    · norm_num
  · rw [this.2]
    norm_num

end

/-- The hypotheses are met by the oscillators of C93 in the prebuilt environment. -/
theorem voltTemp_step {env : PhysTestEnv (Ext ℝ)} (he : (voltTempEnv : Except Err (PhysTestEnv (Ext ℝ))) = .ok env) :
    ∃ fb fc fd, EnvStep linearNumpy env [("temp", 300), ("vdd", 1)] (fun _ => .offset) fb fc fd ringDev ovenPrms none
      5 4 4 5 ovenCount := by
  obtain ⟨fb, fc, fd, h⟩ := voltTemp_layers (N := linearNumpy) he
  have o := oven_step
  exact ⟨fb, fc, fd, o.conds, fun k _ => h k, o.args, o.lots, o.chips, o.names, o.devices, o.sensors⟩

example : ∃ env Y, (voltTempEnv : Except Err (PhysTestEnv (Ext ℝ))) = .ok env ∧
    RandomCondition (fun i j (ω : Nat × Nat → ℝ) => ω (i, j)) (fun _ => 0) env Ex.orderA
      [("temp", 300), ("vdd", 1)] ringDev ovenPrms none .measure 5 4 "delay" "temp" 3 4 2 Y ∧
    (Measure.infinitePi fun _ : Nat × Nat => gaussianReal 0 1).map Y = gaussianReal 300 (0.5 ^ 2 + 0.2 ^ 2 + 0.05 ^ 2) := by
  obtain ⟨temp, volt, he⟩ := voltTempEnv_eq (V := Ext ℝ)
  obtain ⟨fb, fc, fd, step⟩ := voltTemp_step he
  obtain ⟨Y, -, hY⟩ := C93_values (next := fun _ => 0) (ord := Ex.orderA) linear_correct exists_standard step
    (by decide) (oven_delay (.inl rfl)) (3 : Fin 4) (4 : Fin 5) (d := 2) (by decide)
  exact ⟨_, Y, he, hY, (C59_temperatureLaw linear_correct exists_standard he step (b := 300) rfl (oven_delay (.inl rfl))
    (oven_delay (.inl rfl)) (by decide) (by decide) hY hY).1⟩

example : ∃ env Y, (voltTempEnv : Except Err (PhysTestEnv (Ext ℝ))) = .ok env ∧
    RandomCondition (fun i j (ω : Nat × Nat → ℝ) => ω (i, j)) (fun _ => 0) env Ex.orderA
      [("temp", 300), ("vdd", 1)] ringDev ovenPrms none .measure 5 4 "delay" "vdd" 3 4 2 Y ∧
    (Measure.infinitePi fun _ : Nat × Nat => gaussianReal 0 1).map Y = gaussianReal 1 (0.0005 ^ 2 + 0.0003 ^ 2) := by
  obtain ⟨temp, volt, he⟩ := voltTempEnv_eq (V := Ext ℝ)
  obtain ⟨fb, fc, fd, step⟩ := voltTemp_step he
  obtain ⟨Y, -, hY⟩ := C93_values (next := fun _ => 0) (ord := Ex.orderA) linear_correct exists_standard step
    (by decide) (oven_delay (.inr rfl)) (3 : Fin 4) (4 : Fin 5) (d := 2) (by decide)
  exact ⟨_, Y, he, hY, (C59_voltageLaw linear_correct exists_standard he step (b := 1) rfl (oven_delay (.inr rfl))
    (oven_delay (.inr rfl)) (by decide) (by decide) hY hY).1⟩

end Gerabaldi.Props
