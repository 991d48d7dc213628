import Verif.Props.Carried

/-!
# Simulations of the same devices in another order: an example (C101)
-/

namespace Gerabaldi.Props

open Gerabaldi Gerabaldi.Spec Ex

/-- A drift of which the rate is different in each lot. -/
def lotDrift : MechMdl Counts Q :=
  { slowDrift with mdl := { slowDrift.mdl with
    latentVars := [("rate", { constLatent (.fin 2) with lot := ⟨3, .normal (.fin 1) (.fin 1), none⟩ })] } }

/-- A parameter with it. -/
def lotPrm : DegPrmMdl Counts Q := { agingPrm with mechs := [("drift", lotDrift), ("wear", wear)] }

/-- A device with it. -/
def lotDev : DeviceMdl Counts Q where
  prms := [("vth", .deg lotPrm)]

/-- Two lots of `n` devices are stressed for 3 hours at 90 degrees and measured at 30 degrees. -/
def lotTest (n : Nat) : TestSpec Q :=
  { steps := [.strs ⟨[("temp", .fin 90)], .td 10800000000, "heat"⟩, .meas ⟨[("vth", n)], [("temp", .fin 30)], "read"⟩],
    numChps := 1, numLots := 2, name := "lots", description := "" }

theorem lot_kinds {mech : String} {k : MechMdl Counts Q} (h : lotPrm.mechs.get? mech = some k) :
    (mech = "drift" ∧ k = lotDrift) ∨ (mech = "wear" ∧ k = wear) := by
  have := Dict.mem_of_get? h
  simp only [lotPrm, List.mem_cons, List.not_mem_nil, or_false, Prod.mk.injEq] at this
  exact this

theorem lot_mechs : MechEquations lotPrm agingMechs fun _ => .hours := by
  constructor
  · intro mech k h
    rcases lot_kinds h with ⟨rfl, rfl⟩ | ⟨rfl, rfl⟩
    · exact expr_sample (by intro k; simp [driftExpr, NumExpr.uses])
    · exact expr_sample (by intro k; simp [wearExpr, NumExpr.uses])
  · intro mech k h
    rcases lot_kinds h with ⟨rfl, rfl⟩ | ⟨rfl, rfl⟩ <;> decide +kernel
  · intro mech k h
    rcases lot_kinds h with ⟨rfl, rfl⟩ | ⟨rfl, rfl⟩ <;> rfl

theorem lot_equation : HasEquation lotPrm fun env => exprOn env agingExpr :=
  expr_equation (params := ["init", "cond", "drift", "wear"]) rfl (by
    intro k
    simp [agingExpr, NumExpr.uses])

theorem lot_names : OwnNames lotPrm :=
  ⟨by decide +kernel, by decide +kernel, by decide +kernel, by decide +kernel⟩

theorem lot_shapes : DegShapes lotPrm := by
  refine ⟨argEqn_shapes _, by decide, by simp [lotPrm, agingPrm, degPrm, initValMk, nameLatents],
    NumExpr.shapes (by intro k; simp [tempExpr, NumExpr.uses]), ?_,
    NumExpr.shapes (by intro k; simp [agingExpr, NumExpr.uses])⟩
  intro k m hk
  simp only [lotPrm, List.mem_cons, List.not_mem_nil, or_false, Prod.mk.injEq] at hk
  rcases hk with ⟨rfl, rfl⟩ | ⟨rfl, rfl⟩
  · exact NumExpr.shapes (by intro k; simp [driftExpr, NumExpr.uses])
  · exact NumExpr.shapes (by intro k; simp [wearExpr, NumExpr.uses])

theorem lot_device : lotDev.prms.Nodup ∧
    (∀ p d, lotDev.prms.get? p = some (.deg d) → d.mechs.Nodup) ∧
    ∀ p d, lotDev.prms.get? p = some (.deg d) → DegShapes d := by
  have hd : ∀ p d, lotDev.prms.get? p = some (.deg d) → d = lotPrm := by
    intro p d hp
    have := Dict.mem_of_get? hp
    cases List.mem_singleton.1 this
    rfl
  refine ⟨by decide, fun p d hp => ?_, fun p d hp => ?_⟩ <;> rw [hd p d hp]
  · exact lot_names.mechs
  · exact lot_shapes

/-- The values of `n` devices in each of two lots, given for the lots. -/
def lotVals (n : Nat) (a b : Q) : Arr3 Q := ⟨2, 1, n, List.replicate n a ++ List.replicate n b, by simp; omega⟩

/-- The latent values that are drawn. -/
def lotLats (n : Nat) : Dict (LatNode Q) :=
  [("cond", .sub [("tc", lotVals n (.fin 2) (.fin 2))]), ("drift", .sub [("rate", lotVals n (.fin 600) (.fin 602))]),
    ("wear", .sub [("limit", lotVals n (.fin 250) (.fin 250))])]

/-- The stress step and the measurement step. -/
def lotStress : StrsSpec Q := ⟨[("temp", .fin 90)], .td 10800000000, "heat"⟩
@[inherit_doc lotStress]
def lotRead (n : Nat) : MeasSpec Q := ⟨[("vth", n)], [("temp", .fin 30)], "read"⟩

/-- What is drawn at the start of a simulation, and the conditions in its stress step and in its measurement step. -/
def lotCheck (n : Nat) (w : Counts) (x : SimState Q × SimReport Q) : Bool :=
  decide (x.1.latents.get? "vth" = some (lotLats n)) &&
  (decide (x.1.initPrm.get? "vth" = some (.arr (lotVals n (.fin 3) (.fin 3)))) &&
  (decide (x.2.devCounts.get? "vth" = some n) &&
  ((match ((⟨[], []⟩ : PhysTestEnv Q).genEnvCondVals orderA lotStress.conditions (.names (lotDev.degPrms.map (·.1)))
      (some x.2.info) (some lotDev) .stress 1 1 w).1 with
    | .ok conds => decide (conds.get? "vth" = some [("temp", lotVals n (.fin 90) (.fin 90))])
    | .error _ => false) &&
  (match ((⟨[], []⟩ : PhysTestEnv Q).genEnvCondVals orderA (lotRead n).conditions (.counts (lotRead n).measurements)
      (some x.2.info) (some lotDev) .measure 1 1 (runSteps orderA lotDev ⟨[], []⟩ 0 [.strs lotStress] x w).2).1 with
    | .ok conds => decide (conds.get? "vth" = some [("temp", lotVals n (.fin 30) (.fin 30))])
    | .error _ => false))))

/-- A simulation of it. -/
theorem lot_run {n : Nat} (hn : n = 1 ∨ n = 2) : ∃ rep : SimReport Q, ∃ w₂ w₁ : Counts, ∃ s : SimState Q,
    ∃ r : SimReport Q, ∃ conds : Dict (Dict (Arr3 Q)), ∃ u : Counts,
    simulate orderA (lotTest n) lotDev ⟨[], []⟩ none Counts.start = (.ok rep, w₂) ∧
    RunWith orderA lotDev ⟨[], []⟩ (lotTest n) [.strs lotStress] "vth" Counts.start w₁ n (lotLats n)
      (lotVals n (.fin 3) (.fin 3)) [⟨lotStress.duration, [("temp", lotVals n (.fin 90) (.fin 90))]⟩] s r ∧
    (⟨[], []⟩ : PhysTestEnv Q).genEnvCondVals orderA (lotRead n).conditions (.counts (lotRead n).measurements)
      (some rep.info) (some lotDev) .measure 1 1 w₁ = (.ok conds, u) ∧
    conds.get? "vth" = some [("temp", lotVals n (.fin 30) (.fin 30))] := by
  obtain ⟨rep, hrep, -⟩ : ∃ a, (simulate orderA (lotTest n) lotDev ⟨[], []⟩ none Counts.start).1 = .ok a ∧
      (fun _ => true) a = true := exists_ok (by rcases hn with rfl | rfl <;> decide +kernel)
  obtain ⟨x, hx, hck⟩ : ∃ a, (simStart lotDev (lotTest n) none Counts.start).1 = .ok a ∧
      lotCheck n (simStart lotDev (lotTest n) none Counts.start).2 a = true :=
    exists_ok (by rcases hn with rfl | rfl <;> decide +kernel)
  obtain ⟨w₂, h⟩ : ∃ w₂, simulate orderA (lotTest n) lotDev ⟨[], []⟩ none Counts.start = (.ok rep, w₂) := by
    generalize simulate orderA (lotTest n) lotDev ⟨[], []⟩ none Counts.start = y at hrep ⊢
    obtain ⟨y1, y2⟩ := y
    exact ⟨y2, by rw [show y1 = .ok rep from hrep]⟩
  obtain ⟨s₀, r₀, s, r, conds, -, -, w₀, w₁, u, -, -, -, h1, h2, h3, h4, -⟩ :=
    C57_instrument (pre := [.strs lotStress]) (post := []) (step := lotRead n) h rfl (by simp [lotRead, Dict.Nodup, Dict.keys])
      (prm := "vth") (n := n) (by simp [lotRead])
  rw [h1] at hx hck
  cases hx
  simp only [lotCheck, Bool.and_eq_true, decide_eq_true_eq] at hck
  obtain ⟨k1, k2, k3, k4, k5⟩ := hck
  rw [h2] at k5
  rw [← h3, h4] at k5
  refine ⟨rep, w₂, w₁, s, r, conds, u, h, ⟨s₀, r₀, w₀, h1, h2, k3, k1, k2, ?_⟩, h4, by simpa using k5⟩
  obtain ⟨lat, init, phases, cur, ⟨s₁, r₁, u₁, j1, -, -, -, -, j6⟩, -⟩ :=
    runWith_true lot_device.1 lot_device.2.1 lot_device.2.2 h1 h2 (prm := "vth") (m := lotPrm) rfl lot_names
      (by decide) lot_equation (argEqn_value _) lot_mechs k3
  rw [h1] at j1
  cases j1
  cases j6 with
  | strs a1 a2 a3 a4 =>
    cases a4
    rw [a1] at k4
    have : _ = some _ := of_decide_eq_true k4
    rw [a2] at this
    cases this
    exact .strs a1 a2 a3 .done
  | skip a1 => exact absurd rfl (a1 _)

theorem lotVals_at {n : Nat} (hn : n = 1 ∨ n = 2) (a b : Q) {l d : Nat} (hl : l < 2) (hd : d < n) :
    (lotVals n a b).at' l 0 d = if l = 0 then a else b := by
  rcases hn with rfl | rfl <;> interval_cases l <;> interval_cases d <;> rfl

theorem lotTemp_at (name : String) (a b : Q) {l d : Nat} (hl : l < 2) (hd : d < 2) :
    condAt [(name, lotVals 2 a b)] l 0 d = condAt [(name, lotVals 1 a b)] l 0 0 := by
  funext k
  simp only [condAt, Dict.get?_cons]
  split
  · simp [lotVals_at (.inr rfl) a b hl hd, lotVals_at (.inl rfl) a b hl (by decide : 0 < 1)]
  · rfl

theorem lotLats_same {l d : Nat} (hl : l < 2) (hd : d < 2) :
    SameLatents (lotLats 2) (lotLats 1) (l, 0, d) (l, 0, 0) := by
  constructor
  · funext k
    simp only [ownAt, lotLats, Dict.get?_cons]
    by_cases h1 : "cond" = k
    · simp [h1]
    by_cases h2 : "drift" = k
    · simp [h1, h2]
    by_cases h3 : "wear" = k
    · simp [h1, h2, h3]
    · simp [h1, h2, h3, Dict.get?]
  · intro part
    simp only [partLatents, lotLats, Dict.get?_cons]
    by_cases h1 : "cond" = part
    · simpa [h1] using lotTemp_at _ _ _ hl hd
    by_cases h2 : "drift" = part
    · simpa [h1, h2] using lotTemp_at _ _ _ hl hd
    by_cases h3 : "wear" = part
    · simpa [h1, h2, h3] using lotTemp_at _ _ _ hl hd
    · simp [h1, h2, h3, Dict.get?]
      rfl

/-- With two devices in each lot instead of one, both are as the one of their lot: they are shown to the instruments
with the same values. -/
example : ∃ rep rep' : SimReport Q, ∃ w w' : Counts, ∃ x x' : Nat → Nat → Nat → Q,
    simulate orderA (lotTest 1) lotDev ⟨[], []⟩ none Counts.start = (.ok rep, w) ∧
    simulate orderA (lotTest 2) lotDev ⟨[], []⟩ none Counts.start = (.ok rep', w') ∧
    ShownFrom (W := Counts) ⟨[], []⟩ "vth" 1 2 1 1 x rep.measurements ∧
    ShownFrom (W := Counts) ⟨[], []⟩ "vth" 1 2 1 2 x' rep'.measurements ∧
    ∀ l < 2, ∀ d < 2, x' l 0 d = x l 0 0 := by
  obtain ⟨rep, w₂, w₁, s, r, conds, u, h, hr, hc, hcs⟩ := lot_run (.inl rfl : 1 = 1 ∨ 1 = 2)
  obtain ⟨rep', w₂', w₁', s', r', conds', u', h', hr', hc', hcs'⟩ := lot_run (.inr rfl : 2 = 1 ∨ 2 = 2)
  obtain ⟨x, x', h1, h2, h3⟩ := C101_reading (f := fun p => (p.1, p.2.1, 0)) lot_device.1 lot_device.2.1 lot_device.2.2
    h h' (pre := [.strs lotStress]) (post := []) (step := lotRead 1) (pre' := [.strs lotStress]) (post' := [])
    (step' := lotRead 2) rfl rfl (by simp [lotRead, Dict.Nodup, Dict.keys]) (by simp [lotRead, Dict.Nodup, Dict.keys])
    (q := 1) (q' := 2) (by simp [lotRead]) (by simp [lotRead]) hr hr' hc hcs hc' hcs' (m := lotPrm) rfl lot_names
    (by decide) lot_equation (argEqn_value _) (expr_sample (e := tempExpr) (by intro k; simp [tempExpr, NumExpr.uses]))
    lot_mechs ⟨fun l hl c hc d hd => ⟨hl, hc, Nat.one_pos⟩, fun l hl c hc d hd => ⟨l, hl, c, hc, d, by omega, by
      obtain rfl : d = 0 := by omega
      rfl⟩⟩ (by
      intro l hl c hc d hd
      change l < 2 at hl
      obtain rfl : c = 0 := by change c < 1 at hc; omega
      refine ⟨lotLats_same hl hd, .cons ⟨rfl, lotTemp_at _ _ _ hl hd⟩ .nil, ?_⟩
      rw [lotVals_at (.inr rfl) _ _ hl hd, lotVals_at (.inl rfl) _ _ hl Nat.one_pos]) (by
      intro l hl c hc d hd _
      change l < 2 at hl
      obtain rfl : c = 0 := by change c < 1 at hc; omega
      exact lotTemp_at _ _ _ hl hd)
  exact ⟨rep, rep', w₂, w₂', x, x', h, h', h1, h2, fun l hl d hd => h3 l hl 0 (by decide) d hd Nat.one_pos⟩

end Gerabaldi.Props
