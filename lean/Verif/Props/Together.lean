import Verif.Spec.Together
import Verif.Props.Inspect
import Verif.Props.EnvVariation

/-!
# C97: everything random in a test is independent
-/

namespace Gerabaldi.Props
open Gerabaldi Spec MeasureTheory ProbabilityTheory

section draws
variable {N : Numpy} {G : Set Nat} {dm : DeviceMdl (Tapes N) (Ext ℝ)} {env : PhysTestEnv (Ext ℝ)}

/-- A program that does the same from equal worlds to equal worlds leaves the world alone. -/
theorem blind_still {α : Type} {p : M (Tapes N) α} {w : Tapes N} (h : Blind (fun a b => a = w ∧ b = w) p) : (p w).2 = w :=
  (h w w ⟨rfl, rfl⟩).2.1

theorem blind_exact {R : Tapes N → Tapes N → Prop} (h : OwnGenerators N G dm env) (q : Quantities) (step : MeasSpec (Ext ℝ))
    (i : Nat) (s : SimState (Ext ℝ)) (conds : Dict (Dict (Arr3 (Ext ℝ)))) (acc : List (MeasRow (Ext ℝ))) (kv : String × Nat) :
    Blind R (measurePrm q dm (exactEnv env) step i s conds acc kv) := by
  refine (blind_measureTrue (own_equations h) q step i s conds kv.1 kv.2).bind fun rows => ?_
  rw [exact_get]
  cases env.measInstm kv.1 with
  | error e => exact fun _ _ hw => ⟨rfl, hw⟩
  | ok ins => exact Blind.pure _

/-- Apart from the conditions, a step with exact instruments draws nothing. -/
theorem step_rest (h : OwnGenerators N G dm env) (ord : SetOrder) (q : Quantities) (i : Nat) {st : Step (Ext ℝ)}
    (s : SimState (Ext ℝ)) {c : Dict (Ext ℝ)} {prms : PrmSel} {target : Target} (ha : asked dm st = some (c, prms, target)) :
    ∃ k : Dict (Dict (Arr3 (Ext ℝ))) → M (Tapes N) (Delta (Ext ℝ)),
      stepDelta ord dm (exactEnv env) q i st s =
        (env.genEnvCondVals ord c prms (some q) (some dm) target 1 1 >>= k) ∧ ∀ r w, (k r w).2 = w := by
  cases st with
  | other d => cases ha
  | strs st =>
    cases ha
    refine ⟨_, rfl, fun r w => blind_still ?_⟩
    refine Blind.bind (Blind.forIn' (fun kv hkv s => ?_) _) fun s =>
        (Blind.ofExcept _).bind fun _ => (Blind.ofExcept _).bind fun _ => Blind.pure _
    exact blind_stressPrm ((own_equations h).deg kv.1 kv.2 (Dict.get?_of_mem h.names (Gerabaldi.mem_degPrms.1 hkv)))
  | meas m =>
    cases ha
    refine ⟨_, rfl, fun r w => blind_still ?_⟩
    exact Blind.bind (Blind.forIn' (fun kv _ acc => blind_exact h q m i s r acc kv) _) fun _ => Blind.pure _

variable (env dm) in
/-- What a step draws. -/
noncomputable def stepReqs (ord : SetOrder) (base : Nat → Dict ℝ) (L C : Nat) (D : Nat → String → Nat) (i : Nat)
    (st : Step (Ext ℝ)) : List (Request (Nat × EnvLabel)) :=
  match asked dm st with
  | none => []
  | some (_, prms, target) =>
    (envReqs env ord (base i) dm target prms.toList L C (D i)).map (Request.relabel fun a => (i, a))

variable (env dm) in
/-- What some steps draw. -/
noncomputable def runReqs (ord : SetOrder) (base : Nat → Dict ℝ) (L C : Nat) (D : Nat → String → Nat) :
    Nat → List (Step (Ext ℝ)) → List (Request (Nat × EnvLabel))
  | _, [] => []
  | i, st :: rest => stepReqs dm env ord base L C D i st ++ runReqs ord base L C D (i + 1) rest

variable {ord : SetOrder} {base : Nat → Dict ℝ} {t : String → VType} {fb fc fd : String → ℝ → ℝ} {D : Nat → String → Nat}
  {L C : Nat} {q : Quantities}

theorem mem_runReqs {steps : List (Step (Ext ℝ))} {i : Nat} {r : Request (Nat × EnvLabel)} :
    r ∈ runReqs dm env ord base L C D i steps ↔
      ∃ j st, steps[j]? = some st ∧ r ∈ stepReqs dm env ord base L C D (i + j) st := by
  induction steps generalizing i with
  | nil => simp [runReqs]
  | cons a steps ih =>
    rw [runReqs, List.mem_append, ih]
    constructor
    · rintro (h | ⟨j, st, h1, h2⟩)
      · exact ⟨0, a, rfl, h⟩
      · exact ⟨j + 1, st, h1, by rwa [show i + (j + 1) = i + 1 + j by omega]⟩
    · rintro ⟨j, st, h1, h2⟩
      cases j with
      | zero =>
        cases h1
        exact .inl h2
      | succ j => exact .inr ⟨j, st, h1, by rwa [show i + 1 + j = i + (j + 1) by omega]⟩

/-- One step. -/
theorem step_draws (h : OwnGenerators N G dm env) {st : Step (Ext ℝ)} {i : Nat} {s : SimState (Ext ℝ)} {tape : Nat → Nat → ℝ}
    {next : Nat → Nat} {x : Nat × EnvLabel → Nat → ℝ} {d : Delta (Ext ℝ)} {w' : Tapes N}
    (hs : ∀ c prms target, asked dm st = some (c, prms, target) →
      c = finConds (base i) ∧ EnvStep N env (base i) t fb fc fd dm prms (some q) 1 1 L C (D i))
    (hx : Reads N tape next (stepReqs dm env ord base L C D i st) x)
    (h0 : stepDelta ord dm (exactEnv env) q i st s ⟨tape, next⟩ = (.ok d, w')) :
    w' = ⟨tape, afterAll (stepReqs dm env ord base L C D i st) next⟩ ∧
    ∀ c prms target, asked dm st = some (c, prms, target) → ∃ r w₂,
      env.genEnvCondVals ord c prms (some q) (some dm) target 1 1 (⟨tape, next⟩ : Tapes N) = (.ok r, w₂) ∧
      ConditionsAre dm prms.toList target (base i) (D i) t
        (fun k : EnvPart L C => x (i, (EnvPart.spot (D i) k).1) (EnvPart.spot (D i) k).2) r := by
  cases ha : asked dm st with
  | none =>
    refine ⟨?_, nofun⟩
    unfold stepReqs
    rw [ha]
    cases st with
    | other _ => cases h0; rfl
    | strs _ => cases ha
    | meas _ => cases ha
  | some v =>
    obtain ⟨c, prms, target⟩ := v
    obtain ⟨rfl, hE⟩ := hs _ _ _ ha
    unfold stepReqs at hx ⊢
    rw [ha] at hx ⊢
    simp only at hx ⊢
    obtain ⟨r, e1, e2⟩ := uses_conditions hE tape next _ ((reads_relabel _).1 hx)
    obtain ⟨k, k1, k2⟩ := step_rest h ord q i s ha
    rw [k1, M.bind_ok e1] at h0
    refine ⟨?_, ?_⟩
    · have := k2 r ⟨tape, afterAll (envReqs env ord (base i) dm target prms.toList L C (D i)) next⟩
      rw [h0] at this
      rw [after_relabel]
      exact this
    · rintro _ _ _ ⟨⟩
      exact ⟨r, _, e1, e2⟩

/-- All steps. -/
theorem run_draws (h : OwnGenerators N G dm env) {steps : List (Step (Ext ℝ))} {i : Nat} {s : SimState (Ext ℝ)}
    {tape : Nat → Nat → ℝ} {next : Nat → Nat} {x : Nat × EnvLabel → Nat → ℝ} {d : Delta (Ext ℝ)} {w' : Tapes N}
    (hs : ∀ j st c prms target, steps[j]? = some st → asked dm st = some (c, prms, target) →
      c = finConds (base (i + j)) ∧ EnvStep N env (base (i + j)) t fb fc fd dm prms (some q) 1 1 L C (D (i + j)))
    (hx : Reads N tape next (runReqs dm env ord base L C D i steps) x)
    (h0 : runDelta ord dm (exactEnv env) q i steps s ⟨tape, next⟩ = (.ok d, w')) :
    ∀ j st c prms target, steps[j]? = some st → asked dm st = some (c, prms, target) → ∃ d₁ w₁ r w₂,
      runDelta ord dm (exactEnv env) q i (steps.take j) s ⟨tape, next⟩ = (.ok d₁, w₁) ∧
      env.genEnvCondVals ord c prms (some q) (some dm) target 1 1 w₁ = (.ok r, w₂) ∧
      ConditionsAre dm prms.toList target (base (i + j)) (D (i + j)) t
        (fun k : EnvPart L C => x (i + j, (EnvPart.spot (D (i + j)) k).1) (EnvPart.spot (D (i + j)) k).2) r := by
  induction steps generalizing i s next d w' with
  | nil => intro j st _ _ _ h; simp at h
  | cons a steps ih =>
    obtain ⟨s', rows, lines⟩ := d
    obtain ⟨s1, rows1, lines1, rows2, lines2, w1, h1, h2, -, -⟩ := runDelta_cons_ok.1 h0
    obtain ⟨x1, x2⟩ := reads_append.1 hx
    obtain ⟨e1, e2⟩ := step_draws h (fun c prms target ha => hs 0 a c prms target rfl ha) x1 h1
    subst e1
    intro j st c prms target hj ha
    cases j with
    | zero =>
      cases hj
      obtain ⟨r, w₂, g1, g2⟩ := e2 _ _ _ ha
      exact ⟨(s, [], []), ⟨tape, next⟩, r, w₂, rfl, g1, g2⟩
    | succ j =>
      obtain ⟨⟨s2, rows3, lines3⟩, w₁, r, w₂, g1, g2, g3⟩ := ih (i := i + 1) (fun j st c prms target hj ha => by
        rw [show i + 1 + j = i + (j + 1) by omega]
        exact hs (j + 1) st c prms target hj ha) x2 h2 j st c prms target hj ha
      rw [show i + 1 + j = i + (j + 1) by omega] at g3
      refine ⟨(s2, rows1 ++ rows3, lines1 ++ lines3), w₁, r, w₂, ?_, g2, g3⟩
      rw [List.take_succ_cons]
      exact runDelta_cons_ok.2 ⟨_, _, _, _, _, _, h1, g1, rfl, rfl⟩

/-- What the steps draw is labelled differently. -/
theorem runReqs_nodup {steps : List (Step (Ext ℝ))} {i : Nat}
    (hs : ∀ j st c prms target, steps[j]? = some st → asked dm st = some (c, prms, target) →
      EnvStep N env (base (i + j)) t fb fc fd dm prms (some q) 1 1 L C (D (i + j))) :
    ((runReqs dm env ord base L C D i steps).map (·.label)).Nodup := by
  induction steps generalizing i with
  | nil => exact List.nodup_nil
  | cons a steps ih =>
    have ih := ih (i := i + 1) (fun j st c prms target hj ha => by
        rw [show i + 1 + j = i + (j + 1) by omega]
        exact hs (j + 1) st c prms target hj ha)
    have hl : ∀ i st, ∀ r ∈ stepReqs dm env ord base L C D i st, r.label.1 = i := by
      intro i st r hr
      unfold stepReqs at hr
      split at hr
      · cases hr
      · obtain ⟨r', -, rfl⟩ := List.mem_map.1 hr
        rfl
    rw [runReqs, List.map_append, List.nodup_append]
    refine ⟨?_, ih, ?_⟩
    · cases ha : asked dm a with
      | none =>
        unfold stepReqs
        rw [ha]
        exact List.nodup_nil
      | some v =>
        obtain ⟨c, prms, target⟩ := v
        have hE := hs 0 a c prms target rfl ha
        unfold stepReqs
        rw [ha]
        simp only
        have := (envReqs_nodup (env := env) (ord := ord) (target := target) (L := L) (C := C) (D := D i) hE.conds hE.names
          hE.args).map (f := fun a => (i, a)) (fun a b e => (Prod.mk.inj e).2)
        rw [List.map_map] at this ⊢
        exact this
    · intro u hu v hv e
      obtain ⟨r, hr, rfl⟩ := List.mem_map.1 hu
      obtain ⟨r', hr', rfl⟩ := List.mem_map.1 hv
      obtain ⟨j, st, -, hr'⟩ := mem_runReqs.1 hr'
      have h1 := hl _ _ _ hr
      have h2 := hl _ _ _ hr'
      rw [e] at h1
      omega

end draws

section joint
variable {N : Numpy} {Ω : Type} [MeasurableSpace Ω] {P : Measure Ω} {P₀ : Measure ℝ} {raw : Nat → Nat → Ω → ℝ} {G : Set Nat}
  {dm : DeviceMdl (Tapes N) (Ext ℝ)} {env : PhysTestEnv (Ext ℝ)} {D₀ : String → Nat} {v : Variation}
  {g : String → (String → ℝ) → ℝ} {test : TestSpec (Ext ℝ)} {ord : SetOrder} {base : Nat → Dict ℝ} {t : String → VType}
  {fb fc fd : String → ℝ → ℝ} {D : Nat → String → Nat}

theorem elsewhere_draws {r : RVar (Ext ℝ)} (h : Elsewhere G r) (h' : draws r = true) : r.id ∉ G := by
  rcases h with h | ⟨x, h⟩
  · exact h
  · unfold draws at h'
    rw [h] at h'
    cases h'

/-- Variation models of conditions use no generators of the instruments. -/
theorem vrtn_elsewhere (h : OwnGenerators N G dm env) (k : String) :
    Elsewhere G (env.vrtnMdl k).batch ∧ Elsewhere G (env.vrtnMdl k).chp ∧ Elsewhere G (env.vrtnMdl k).dev := by
  unfold PhysTestEnv.vrtnMdl
  cases hk : env.vars.get? k with
  | none => exact ⟨.inr ⟨_, rfl⟩, .inr ⟨_, rfl⟩, .inr ⟨_, rfl⟩⟩
  | some m =>
    obtain ⟨h1, h2, h3⟩ := h.conds _ (Dict.mem_of_get? hk)
    exact ⟨h1, h2, h3⟩

/-- The requests for conditions use no generators of the instruments. -/
theorem envReqs_elsewhere (h : OwnGenerators N G dm env) {base : Dict ℝ} {prms : List String} {target : Target} {L C : Nat}
    {D : String → Nat} : ∀ r ∈ envReqs env ord base dm target prms L C D, Elsewhere G r.var := by
  intro r hr
  rcases List.mem_append.1 hr with hr | hr
  · obtain ⟨kv, hkv, hr⟩ := List.mem_flatMap.1 hr
    simp only [sharedReqs, List.mem_cons, List.not_mem_nil, or_false] at hr
    rcases hr with rfl | rfl
    · exact (vrtn_elsewhere h _).1
    · exact (vrtn_elsewhere h _).2.1
  · obtain ⟨p, hp, hr⟩ := List.mem_flatMap.1 hr
    unfold prmReqs at hr
    cases hpm : dm.prms.get? p with
    | none =>
      rw [hpm] at hr
      simp only [List.mem_cons, List.not_mem_nil, or_false] at hr
      rcases hr with rfl | rfl
      · exact (vrtn_elsewhere h _).2.1
      · exact (vrtn_elsewhere h _).2.2
    | some pm =>
      rw [hpm] at hr
      obtain ⟨k, hk, rfl⟩ := List.mem_map.1 hr
      exact (vrtn_elsewhere h _).2.2

/-- The start of a simulation of new devices. -/
theorem start_new {st : SimState (Ext ℝ)} {w w' : Tapes N}
    (h : dm.genInitState (augment dm (calcSamplesNeeded test.steps)) test.numChps test.numLots w = (.ok st, w')) :
    ∃ r, simStart dm test none w = (.ok (withElapsed st (.td 0), r), w') ∧ r.info = testSizes dm test := by
  have hg : genInitState dm none 1 1 (some (SimReport.ofTest test).info) (.td 0) w =
      (.ok ⟨withElapsed st (.td 0), none, some (testSizes dm test)⟩, w') := by
    show (genInitFrom dm _ _ _ _ >>= _) w = _
    refine (M.bind_ok (a := withElapsed st (.td 0)) (w' := w') ?_).trans rfl
    exact (M.bind_ok h).trans rfl
  unfold simStart
  exact ⟨_, (M.bind_ok hg).trans rfl, rfl⟩

theorem start_rows {sr : SimState (Ext ℝ) × SimReport (Ext ℝ)} {w w' : Tapes N}
    (h : simStart dm test none w = (.ok sr, w')) : sr.2.measurements = [] := by
  obtain ⟨x, w1, h1, h2⟩ := M.bind_eq_ok.1 h
  obtain ⟨q, -, h2⟩ := M.ofExcept_bind_ok.1 h2
  cases h2
  rfl

/-- The rows of the first steps come first. -/
theorem run_prefix {q : Quantities} {steps : List (Step (Ext ℝ))} {j : Nat} {s : SimState (Ext ℝ)} {d d₁ : Delta (Ext ℝ)}
    {w w' w₁ : Tapes N} (h : runDelta ord dm env q 0 steps s w = (.ok d, w'))
    (h₁ : runDelta ord dm env q 0 (steps.take j) s w = (.ok d₁, w₁)) : ∃ rest, d.2.1 = d₁.2.1 ++ rest := by
  rw [← List.take_append_drop j steps, runDelta_append, M.bind_ok h₁] at h
  obtain ⟨e, w2, -, h3⟩ := M.bind_eq_ok.1 h
  cases h3
  exact ⟨_, rfl⟩

/-- **C97**: the contributions that new devices are made of, the contributions to the conditions of all steps, and the
errors of all readings of a simulation are independent together. -/
theorem C97_joint (hN : N.Correct P₀) (hr : Standard P P₀ raw)
    (h : NewSetup N dm (augment dm (calcSamplesNeeded test.steps)) D₀ v g) (ho : OwnGenerators N G dm env)
    (ht : RandomTest N dm env test base t fb fc fd D) {next : Nat → Nat} {names : List String}
    (hok : ExactRuns raw next ord test dm env names) :
    ∃ (X : Slot → Spot test.numLots test.numChps → Ω → ℝ) (U : Nat → EnvPart test.numLots test.numChps → Ω → ℝ)
      (E : Fin names.length → Ω → ℝ),
      iIndepFun (Sum.elim (fun k : {k : Slot × Spot test.numLots test.numChps //
          (latentAt dm k.1).isSome ∧ k.2.Within (D₀ k.1.prm)} => X k.1.1 k.1.2)
        (Sum.elim (fun k : {k : Nat × EnvPart test.numLots test.numChps // StepPart dm test base D k.1 k.2} => U k.1.1 k.1.2)
          E)) P ∧
      (∀ s t, Measurable (X s t)) ∧ (∀ j k, Measurable (U j k)) ∧ (∀ j, Measurable (E j)) ∧
      (∀ s, (latentAt dm s).isSome → ∀ t, P.map (X s t) = P₀.map (t.layer (v.lot s) (v.chp s) (v.dev s))) ∧
      (∀ j k, StepPart dm test base D j k → P.map (U j k) = P₀.map (k.layer fb fc fd)) ∧
      (∀ j, ErrorOf N P P₀ (instrumentOf env names[j]) (E j)) ∧
      ∀ ω, ∃ s₁ r₁ w₁ r₀ w₀ rows w', simStart dm test none (⟨fun i j => raw i j ω, next⟩ : Tapes N) = (.ok (s₁, r₁), w₁) ∧
        NewStateIs dm D₀ v g (fun s t => X s t ω) s₁ ∧
        (∀ j, StepHas ord dm env test base t D (fun j k => U j k ω) (s₁, r₁) w₁ j) ∧
        simulate ord test dm (exactEnv env) none (⟨fun i j => raw i j ω, next⟩ : Tapes N) = (.ok r₀, w₀) ∧
        simulate ord test dm env none (⟨fun i j => raw i j ω, next⟩ : Tapes N) =
          (.ok { r₀ with measurements := rows }, w') ∧ rows.length = names.length ∧
        ∀ j : Fin names.length, ∃ row y, r₀.measurements[j.val]? = some row ∧
          ShownFor N (instrumentOf env names[j]) (PyArith.add row.measured (.fin (E j ω))) y ∧
          rows[j.val]? = some { row with measured := y } := by
  classical
  have : IsProbabilityMeasure P := hr.indep.isProbabilityMeasure
  obtain ⟨ω₀⟩ : Nonempty Ω := P.nonempty_of_neZero
  obtain ⟨r₁, w₁, a1, a2, a3⟩ := hok ω₀
  have hlen : r₁.measurements.length = names.length := by rw [← a2, List.length_map]
  have hnm : ∀ j : Fin names.length, names[j] = (r₁.measurements[j.val]'(by omega)).prm := by
    intro j
    simp [← a2]
  have ht' : ∀ j st c prms target, test.steps[j]? = some st → asked dm st = some (c, prms, target) →
      c = finConds (base (0 + j)) ∧ EnvStep N env (base (0 + j)) t fb fc fd dm prms (some (testSizes dm test)) 1 1
        test.numLots test.numChps (D (0 + j)) := by
    intro j st c prms target h1 h2
    rw [Nat.zero_add]
    exact ht j st c prms target h1 h2
  let devs := devReqs test.numLots test.numChps D₀ dm
  let envs := runReqs dm env ord base test.numLots test.numChps D 0 test.steps
  let lf : LatLabel → LatLabel ⊕ ((Nat × EnvLabel) ⊕ Nat) := Sum.inl
  let ef : Nat × EnvLabel → LatLabel ⊕ ((Nat × EnvLabel) ⊕ Nat) := fun a => Sum.inr (Sum.inl a)
  let nf : Nat → LatLabel ⊕ ((Nat × EnvLabel) ⊕ Nat) := fun a => Sum.inr (Sum.inr a)
  have hef : Function.Injective ef := fun a b e => Sum.inl_injective (Sum.inr_injective e)
  have hnf : Function.Injective nf := fun a b e => Sum.inr_injective (Sum.inr_injective e)
  let rs : List (Request (LatLabel ⊕ ((Nat × EnvLabel) ⊕ Nat))) := devs.map (Request.relabel lf) ++
    (envs.map (Request.relabel ef) ++ (noiseReqs env 0 r₁.measurements).map (Request.relabel nf))
  have hl : (rs.map (·.label)).Nodup := by
    show (List.map _ (_ ++ (_ ++ _))).Nodup
    rw [List.map_append, List.map_append, List.map_map, List.map_map, List.map_map, List.nodup_append, List.nodup_append]
    refine ⟨?_, ⟨?_, ?_, ?_⟩, ?_⟩
    · have := (devReqs_nodup (L := test.numLots) (C := test.numChps) h).map (f := lf) Sum.inl_injective
      rwa [List.map_map] at this
    · have := (runReqs_nodup (ord := ord) (env := env) (dm := dm) (i := 0) (fun j st c prms target h1 h2 =>
        (ht' j st c prms target h1 h2).2)).map (f := ef) hef
      rwa [List.map_map] at this
    · have : ((noiseReqs env 0 r₁.measurements).map (·.label)).Nodup := by rw [noiseReqs_label]; exact List.nodup_range'
      have := this.map (f := nf) hnf
      rwa [List.map_map] at this
    · intro a ha b hb e
      obtain ⟨_, -, rfl⟩ := List.mem_map.1 ha
      obtain ⟨_, -, rfl⟩ := List.mem_map.1 hb
      cases e
    · intro a ha b hb e
      obtain ⟨_, -, rfl⟩ := List.mem_map.1 ha
      rcases List.mem_append.1 hb with hb | hb
      · obtain ⟨_, -, rfl⟩ := List.mem_map.1 hb
        cases e
      · obtain ⟨_, -, rfl⟩ := List.mem_map.1 hb
        cases e
  have hv : ∀ r ∈ rs, ∃ f, N.value r.var.dist = some f := by
    intro r hr
    rcases List.mem_append.1 hr with hr | hr
    · obtain ⟨q, hq, rfl⟩ := List.mem_map.1 hr
      obtain ⟨s, lv, hs, hq⟩ := (mem_devReqs h).1 hq
      have ly := h.layers s lv hs
      simp only [latReqs, List.mem_cons, List.not_mem_nil, or_false] at hq
      rcases hq with rfl | rfl | rfl
      · exact ⟨_, ly.lot⟩
      · exact ⟨_, ly.chp⟩
      · exact ⟨_, ly.dev⟩
    rcases List.mem_append.1 hr with hr | hr
    · obtain ⟨q, hq, rfl⟩ := List.mem_map.1 hr
      obtain ⟨j, st, h1, hq⟩ := mem_runReqs.1 hq
      unfold stepReqs at hq
      split at hq
      · cases hq
      · next c prms target ha =>
        obtain ⟨q', hq', rfl⟩ := List.mem_map.1 hq
        exact envReqs_value (ht' j st c prms target h1 ha).2 q' hq'
    · obtain ⟨q, hq, rfl⟩ := List.mem_map.1 hr
      exact noiseReqs_value ho q hq
  obtain ⟨Z, z1, z2, z3, z4⟩ := requests_independent hN hr hl hv next
  have hmem : ∀ j : Fin names.length, (⟨nf j.val, errorVar env names[j], 1⟩ : Request _) ∈ rs := by
    intro j
    have := noiseReqs_mem (env := env) (k := 0) (rows := r₁.measurements) (j := j.val) (by omega)
    rw [Nat.zero_add, ← hnm j] at this
    exact List.mem_append_right _ (List.mem_append_right _ (List.mem_map.2 ⟨_, this, rfl⟩))
  have hpart : ∀ j k, StepPart dm test base D j k → ∃ r ∈ rs, r.label = ef (j, (EnvPart.spot (D j) k).1) ∧
      (EnvPart.spot (D j) k).2 < r.size ∧ N.value r.var.dist = some (k.layer fb fc fd) := by
    rintro j k ⟨st, c, prms, target, h1, h2, h3⟩
    have hE := (ht j st c prms target h1 h2).2
    obtain ⟨r, e1, e2, e3, e4⟩ := spot_request (ord := ord) hE h3
    refine ⟨(r.relabel fun a => (j, a)).relabel ef, List.mem_append_right _ (List.mem_append_left _
      (List.mem_map_of_mem (mem_runReqs.2 ⟨j, st, h1, ?_⟩))), congrArg (fun a => ef (j, a)) e2, e3, e4⟩
    rw [Nat.zero_add]
    unfold stepReqs
    rw [h2]
    exact List.mem_map_of_mem e1
  refine ⟨fun s t => Z (lf (latPlace D₀ s t).1) (latPlace D₀ s t).2,
    fun j k => Z (ef (j, (EnvPart.spot (D j) k).1)) (EnvPart.spot (D j) k).2, fun j => Z (nf j.val) 0, ?_, fun s t => z2 _ _,
    fun j k => z2 _ _, fun j => z2 _ _, ?_, fun j k hk => ?_, fun j => ?_, fun ω => ?_⟩
  · let f : {k : Slot × Spot test.numLots test.numChps // (latentAt dm k.1).isSome ∧ k.2.Within (D₀ k.1.prm)} ⊕
        ({k : Nat × EnvPart test.numLots test.numChps // StepPart dm test base D k.1 k.2} ⊕
        Fin names.length) → {p : (LatLabel ⊕ ((Nat × EnvLabel) ⊕ Nat)) × Nat // ∃ r ∈ rs, r.label = p.1 ∧ p.2 < r.size}
      | .inl k => ⟨(lf (latPlace D₀ k.1.1 k.1.2).1, (latPlace D₀ k.1.1 k.1.2).2), by
          obtain ⟨lv, hlv⟩ := Option.isSome_iff_exists.1 k.2.1
          obtain ⟨r, r1, r2, r3, -⟩ := latPlace_mem (L := test.numLots) (C := test.numChps) h hlv k.1.2
          exact ⟨r.relabel lf, List.mem_append_left _ (List.mem_map_of_mem r1), congrArg Sum.inl r2, r3 k.2.2⟩⟩
      | .inr (.inl k) => ⟨(ef (k.1.1, (EnvPart.spot (D k.1.1) k.1.2).1), (EnvPart.spot (D k.1.1) k.1.2).2), by
          obtain ⟨r, r1, r2, r3, -⟩ := hpart k.1.1 k.1.2 k.2
          exact ⟨r, r1, r2, r3⟩⟩
      | .inr (.inr j) => ⟨(nf j.val, 0), ⟨_, hmem j, rfl, Nat.zero_lt_one⟩⟩
    have hf : Function.Injective f := by
      rintro (k | k | j) (k' | k' | j') e
      · refine congrArg Sum.inl (Subtype.ext (latPlace_inj k.2.2 k'.2.2 ?_))
        have e1 := congrArg (fun z => z.1.1) e
        have e2 := congrArg (fun z => z.1.2) e
        exact Prod.ext (Sum.inl_injective e1) e2
      · cases congrArg (fun z => z.1.1) e
      · cases congrArg (fun z => z.1.1) e
      · cases congrArg (fun z => z.1.1) e
      · obtain ⟨⟨j, k⟩, hk⟩ := k
        obtain ⟨⟨j', k'⟩, hk'⟩ := k'
        have e1 := hef (congrArg (fun z => z.1.1) e)
        have e2 : (EnvPart.spot (D j) k).2 = (EnvPart.spot (D j') k').2 := congrArg (fun z => z.1.2) e
        obtain ⟨e0, e1⟩ := Prod.mk.inj e1
        have e0 : j = j' := e0
        subst e0
        obtain ⟨st, c, prms, target, h1, h2, h3⟩ := hk
        obtain ⟨st', c', prms', target', h1', h2', h3'⟩ := hk'
        have h1 : test.steps[j]? = some st := h1
        have h1' : test.steps[j]? = some st' := h1'
        rw [h1] at h1'
        cases h1'
        rw [h2] at h2'
        cases h2'
        have := spot_inj h3 h3' (Prod.ext e1 e2)
        have : k = k' := this
        subst this
        rfl
      · cases congrArg (fun z => z.1.1) e
      · cases congrArg (fun z => z.1.1) e
      · cases congrArg (fun z => z.1.1) e
      · have e1 := congrArg (fun z => z.1.1) e
        exact congrArg (fun z => Sum.inr (Sum.inr z)) (Fin.ext (hnf e1))
    have := z1.precomp hf
    convert this using 1
    funext i
    rcases i with i | i | i <;> rfl
  · intro s hs t
    obtain ⟨lv, hlv⟩ := Option.isSome_iff_exists.1 hs
    obtain ⟨r, r1, r2, -, r4⟩ := latPlace_mem (L := test.numLots) (C := test.numChps) h hlv t
    have := z3 (r.relabel lf) (List.mem_append_left _ (List.mem_map_of_mem r1)) _ r4 (latPlace D₀ s t).2
    rw [show (r.relabel lf).label = lf (latPlace D₀ s t).1 from congrArg Sum.inl r2] at this
    exact this
  · obtain ⟨r, r1, r2, -, r4⟩ := hpart j k hk
    have := z3 r r1 _ r4 (EnvPart.spot (D j) k).2
    rw [r2] at this
    exact this
  · unfold ErrorOf
    have hv : errorVar env names[j] = (instrumentOf env names[j]).error.getD (detUnit (.fin 0)) := rfl
    cases he : (instrumentOf env names[j]).error with
    | none =>
      rw [he] at hv
      intro ω
      have hm := noiseReqs_mem (env := env) (k := 0) (rows := r₁.measurements) (j := j.val) (by omega)
      rw [Nat.zero_add, ← hnm j] at hm
      obtain ⟨u, hu⟩ := reads_value ((reads_relabel nf).1 (reads_append.1 (reads_append.1 (z4 ω)).2).2) hm (f := fun _ => 0)
        (by rw [hv]; rfl) Nat.zero_lt_one
      exact hu
    | some r =>
      rw [he] at hv
      intro f hf
      exact z3 _ (hmem j) f (by rw [hv]; exact hf) 0
  · obtain ⟨r₀, w₀, b1, b2, b3⟩ := hok ω
    obtain ⟨c1, c2⟩ := reads_append.1 (z4 ω)
    obtain ⟨c2, c3⟩ := reads_append.1 c2
    have c1 := (reads_relabel lf).1 c1
    have c2 := (reads_relabel ef).1 c2
    have c3 := (reads_relabel nf).1 c3
    rw [after_relabel] at c2 c3
    rw [after_relabel] at c3
    obtain ⟨st, e1, e2⟩ := usesState (L := test.numLots) (C := test.numChps) h _ next c1
    have e : (fun s t => Z (lf (latPlace D₀ s t).1) (latPlace D₀ s t).2 ω) =
        contribution (L := test.numLots) (C := test.numChps) D₀ (fun a i => Z (lf a) i ω) := by
      funext s t
      rw [contribution_eq]
    obtain ⟨rr, g1, g2⟩ := start_new e1
    have hG₁ : ∀ i ∈ G, afterAll devs next i = next i := by
      intro i hi
      refine after_other (rs := devs) (G := Gᶜ) ?_ _ (fun hn => hn hi)
      · intro q hq hd
        obtain ⟨s, lv, hs, hq⟩ := (mem_devReqs h).1 hq
        obtain ⟨l1, l2, l3⟩ := latent_elsewhere ho hs
        simp only [latReqs, List.mem_cons, List.not_mem_nil, or_false] at hq
        rcases hq with rfl | rfl | rfl
        · exact elsewhere_draws l1 hd
        · exact elsewhere_draws l2 hd
        · exact elsewhere_draws l3 hd
    have hG : ∀ i ∈ G, afterAll envs (afterAll devs next) i = next i := by
      intro i hi
      rw [after_other (rs := envs) (G := Gᶜ) ?_ _ (fun hn => hn hi), hG₁ i hi]
      · intro q hq hd
        obtain ⟨j, st, h1, hq⟩ := mem_runReqs.1 hq
        unfold stepReqs at hq
        split at hq
        · cases hq
        · obtain ⟨q', hq', rfl⟩ := List.mem_map.1 hq
          exact elsewhere_draws (envReqs_elsewhere ho q' hq') hd
    rw [noiseReqs_names (a2.trans b2.symm)] at c3
    obtain ⟨rows, w', k1, k2⟩ := simulate_both (t := fun i j => raw i j ω) (fun _ _ => rfl) ho b1 b3 (reads_later ho hG c3)
    obtain ⟨k3, k4⟩ := readsAs_at k2
    have hlen' : r₀.measurements.length = names.length := by rw [← b2, List.length_map]
    refine ⟨_, rr, _, r₀, w₀, rows, w', g1, e ▸ e2, fun j st c prms target hj ha => ?_, b1, k1, k3.trans hlen', fun j => ?_⟩
    · obtain ⟨⟨sf, rf⟩, u, h1, h2⟩ := M.bind_eq_ok.1 b1
      unfold simulateFull at h1
      rw [M.bind_ok g1] at h1
      obtain ⟨rows₀, lines, h5, rfl⟩ := runSteps_ok.1 h1
      rw [g2] at h5
      obtain ⟨⟨s2, rows2, lines2⟩, w2, r, w3, f1, f2, f3⟩ := run_draws ho ht' c2 h5 j st c prms target hj ha
      rw [Nat.zero_add] at f3
      have hm : (rr.grow rows₀ lines).measurements = rows₀ := by
        show rr.measurements ++ rows₀ = _
        rw [start_rows g1, List.nil_append]
      obtain ⟨rest, hrest⟩ : ∃ rest, rows₀ = rows2 ++ rest := run_prefix h5 f1
      have c4 := reads_later ho hG c3
      have b3' := b3
      cases h2
      rw [hm] at b3' c4
      rw [hrest] at b3' c4
      rw [noiseReqs_append] at c4
      obtain ⟨rows', w4, p1, p2, -⟩ := run_both (t := fun i j => raw i j ω) (t₀ := fun i j => raw i j ω)
        (w := ⟨fun i j => raw i j ω, afterAll devs next⟩) (fun _ _ => rfl) ho ⟨rfl, rfl, fun _ _ => rfl, fun _ _ => rfl⟩ f1
        (fun r hr => b3' r (List.mem_append_left _ hr)) (reads_later ho (fun i hi => (hG₁ i hi).symm) (reads_append.1 c4).1)
      obtain ⟨w5, p3, -⟩ := blind_run (blind_conds (own_conds (fun _ _ => rfl) ho) ord c prms (some (testSizes dm test))
        (some dm) target 1 1) p2 f2
      refine ⟨_, w4, r, w5, runSteps_ok.2 ⟨rows', lines2, by rw [g2]; exact p1, rfl⟩, ?_, f3⟩
      rw [SimReport.info_grow, g2]
      exact p3
    · obtain ⟨y, y1, y2⟩ := k4 j.val (by omega)
      have hj : names[j] = (r₀.measurements[j.val]'(by omega)).prm := by simp [← b2]
      rw [Nat.zero_add] at y1
      refine ⟨_, y, List.getElem?_eq_getElem (by omega), ?_, y2⟩
      rw [hj]
      exact y1

end joint

section values
variable {N : Numpy} {Ω : Type} [MeasurableSpace Ω] {P : Measure Ω} {P₀ : Measure ℝ} {raw : Nat → Nat → Ω → ℝ} {G : Set Nat}
  {dm : DeviceMdl (Tapes N) (Ext ℝ)} {env : PhysTestEnv (Ext ℝ)} {D₀ : String → Nat} {v : Variation}
  {g : String → (String → ℝ) → ℝ} {test : TestSpec (Ext ℝ)} {ord : SetOrder} {base : Nat → Dict ℝ} {t : String → VType}
  {fb fc fd : String → ℝ → ℝ} {D : Nat → String → Nat} {next : Nat → Nat}

/-- A device is exposed to a condition in step `j`. -/
theorem step_exposed {j : Nat} {st : Step (Ext ℝ)} {cs : Dict (Ext ℝ)} {prms : PrmSel} {target : Target}
    (hj : test.steps[j]? = some st) (ha : asked dm st = some (cs, prms, target)) {p k : String} {b : ℝ}
    (hk : (base j).get? k = some b) (hp : Exposed dm prms.toList target p k) (l : Fin test.numLots) (c : Fin test.numChps)
    {d : Nat} (hd : d < D j p) : StepPart dm test base D j (.batch k) ∧ StepPart dm test base D j (.chp k l c) ∧
      StepPart dm test base D j (.dev p k l c d) :=
  have hkm := Dict.mem_keys_of_get? hk
  ⟨⟨st, cs, prms, target, hj, ha, hkm⟩, ⟨st, cs, prms, target, hj, ha, hkm⟩, ⟨st, cs, prms, target, hj, ha, hkm, hp, hd⟩⟩

/-- The value of a condition from the contributions. -/
theorem step_value {x : Nat → EnvPart test.numLots test.numChps → ℝ} {start : SimState (Ext ℝ) × SimReport (Ext ℝ)}
    {w : Tapes N} {j : Nat} (hx : StepHas ord dm env test base t D x start w j) {st : Step (Ext ℝ)} {cs : Dict (Ext ℝ)}
    {prms : PrmSel} {target : Target} (hj : test.steps[j]? = some st) (ha : asked dm st = some (cs, prms, target))
    {p k : String} {b : ℝ} (hk : (base j).get? k = some b) (hp : Exposed dm prms.toList target p k) (l : Fin test.numLots)
    (c : Fin test.numChps) {d : Nat} (hd : d < D j p) : ∃ sr w₁ r w₂ a,
      runSteps ord dm env 0 (test.steps.take j) start w = (.ok sr, w₁) ∧
      env.genEnvCondVals ord cs prms (some sr.2.info) (some dm) target 1 1 w₁ = (.ok r, w₂) ∧ condOf r p k = some a ∧
      a.at' l c d = .fin (envValue (t k) b (x j (.batch k)) (x j (.chp k l c)) (x j (.dev p k l c d))) := by
  obtain ⟨sr, w₁, r, w₂, e1, e2, e3⟩ := hx st cs prms target hj ha
  obtain ⟨a, a1, -, a3⟩ := e3.1 p k b hk hp
  exact ⟨sr, w₁, r, w₂, a, e1, e2, a1, a3 l c d hd⟩

omit [MeasurableSpace Ω] in
theorem step_value_eq {x : Nat → EnvPart test.numLots test.numChps → Ω → ℝ} {j : Nat}
    (hx : ∀ ω, ∃ start w, simStart dm test none (⟨fun i j => raw i j ω, next⟩ : Tapes N) = (.ok start, w) ∧
      StepHas ord dm env test base t D (fun j k => x j k ω) start w j) {st : Step (Ext ℝ)} {cs : Dict (Ext ℝ)}
    {prms : PrmSel} {target : Target} (hj : test.steps[j]? = some st) (ha : asked dm st = some (cs, prms, target))
    {p k : String} {b : ℝ} (hk : (base j).get? k = some b) (hp : Exposed dm prms.toList target p k) {l : Fin test.numLots}
    {c : Fin test.numChps} {d : Nat} (hd : d < D j p) {Y : Ω → ℝ}
    (hY : RandomStepValue raw next ord test dm env j p k l c d Y) :
    Y = fun ω => envValue (t k) b (x j (.batch k) ω) (x j (.chp k l c) ω) (x j (.dev p k l c d) ω) := by
  funext ω
  obtain ⟨start, w, h1, h2⟩ := hx ω
  obtain ⟨sr, w₁, r, w₂, a, e1, e2, e3, e4⟩ := step_value h2 hj ha hk hp l c hd
  obtain ⟨start', w', st', cs', prms', target', sr', w₁', r', w₂', a', f1, f2, f3, f4, f5, f6, f7⟩ := hY ω
  rw [h1] at f1
  cases f1
  rw [hj] at f2
  cases f2
  rw [ha] at f3
  cases f3
  rw [e1] at f4
  cases f4
  rw [e2] at f5
  cases f5
  rw [e3] at f6
  cases f6
  exact Ext.fin.inj (f7.symm.trans e4)

theorem envValue_measurable (t : VType) (b : ℝ) : Measurable fun x : ℝ × ℝ × ℝ => envValue t b x.1 x.2.1 x.2.2 := by
  unfold envValue
  cases t <;> simp only <;> fun_prop

/-- Functions of three and three different independent numbers. -/
theorem three_apart {I : Type} {F : I → Ω → ℝ} (hF : iIndepFun F P) (hm : ∀ i, Measurable (F i)) {a b : Fin 3 → I}
    (hab : ∀ m n, a m ≠ b n) {f f' : ℝ × ℝ × ℝ → ℝ} (hf : Measurable f) (hf' : Measurable f') :
    IndepFun (fun ω => f (F (a 0) ω, F (a 1) ω, F (a 2) ω)) (fun ω => f' (F (b 0) ω, F (b 1) ω, F (b 2) ω)) P := by
  classical
  let S : Finset I := Finset.univ.image a
  let S' : Finset I := Finset.univ.image b
  have hS : Disjoint S S' := by
    rw [Finset.disjoint_left]
    intro z hz hz'
    obtain ⟨m, -, rfl⟩ := Finset.mem_image.1 hz
    obtain ⟨n, -, e⟩ := Finset.mem_image.1 hz'
    exact hab m n e.symm
  have ind := hF.indepFun_finset S S' hS hm
  have mem : ∀ m, a m ∈ S := fun m => Finset.mem_image_of_mem a (Finset.mem_univ m)
  have mem' : ∀ m, b m ∈ S' := fun m => Finset.mem_image_of_mem b (Finset.mem_univ m)
  have g1 : Measurable fun x : S → ℝ => f (x ⟨a 0, mem 0⟩, x ⟨a 1, mem 1⟩, x ⟨a 2, mem 2⟩) := hf.comp (by fun_prop)
  have g2 : Measurable fun x : S' → ℝ => f' (x ⟨b 0, mem' 0⟩, x ⟨b 1, mem' 1⟩, x ⟨b 2, mem' 2⟩) := hf'.comp (by fun_prop)
  exact ind.comp g1 g2

variable (hN : N.Correct P₀) (hr : Standard P P₀ raw)
  (h : NewSetup N dm (augment dm (calcSamplesNeeded test.steps)) D₀ v g) (ho : OwnGenerators N G dm env)
  (ht : RandomTest N dm env test base t fb fc fd D) {names : List String} (hok : ExactRuns raw next ord test dm env names)

include hN hr h ho ht hok

/-- There always are such values. -/
theorem C97_values {j : Nat} {st : Step (Ext ℝ)} {cs : Dict (Ext ℝ)}
    {prms : PrmSel} {target : Target} (hj : test.steps[j]? = some st) (ha : asked dm st = some (cs, prms, target))
    {p k : String} {b : ℝ} (hk : (base j).get? k = some b) (hp : Exposed dm prms.toList target p k) (l : Fin test.numLots)
    (c : Fin test.numChps) {d : Nat} (hd : d < D j p) :
    ∃ Y, Measurable Y ∧ RandomStepValue raw next ord test dm env j p k l c d Y := by
  obtain ⟨X, U, E, -, -, x3, -, -, -, -, x8⟩ := C97_joint hN hr h ho ht hok
  refine ⟨fun ω => envValue (t k) b (U j (.batch k) ω) (U j (.chp k l c) ω) (U j (.dev p k l c d) ω),
    (envValue_measurable (t k) b).comp ((x3 _ _).prodMk ((x3 _ _).prodMk (x3 _ _))), fun ω => ?_⟩
  obtain ⟨s₁, r₁, w₁, _, _, _, _, e1, -, e3, -⟩ := x8 ω
  obtain ⟨sr, w2, r, w3, a, f1, f2, f3, f4⟩ := step_value (e3 j) hj ha hk hp l c hd
  exact ⟨_, _, _, _, _, _, _, _, _, _, a, e1, hj, ha, f1, f2, f3, f4⟩

/-- The conditions of different steps vary independently, for whatever devices. -/
theorem C97_steps {j j' : Nat} (hne : j ≠ j') {st st' : Step (Ext ℝ)} {cs cs' : Dict (Ext ℝ)}
    {prms prms' : PrmSel} {target target' : Target} (hj : test.steps[j]? = some st)
    (ha : asked dm st = some (cs, prms, target)) (hj' : test.steps[j']? = some st')
    (ha' : asked dm st' = some (cs', prms', target')) {p p' k k' : String} {b b' : ℝ} (hk : (base j).get? k = some b)
    (hk' : (base j').get? k' = some b') (hp : Exposed dm prms.toList target p k)
    (hp' : Exposed dm prms'.toList target' p' k') {l l' : Fin test.numLots} {c c' : Fin test.numChps} {d d' : Nat}
    (hd : d < D j p) (hd' : d' < D j' p') {Y Y' : Ω → ℝ} (hY : RandomStepValue raw next ord test dm env j p k l c d Y)
    (hY' : RandomStepValue raw next ord test dm env j' p' k' l' c' d' Y') : IndepFun Y Y' P := by
  obtain ⟨X, U, E, x1, x2, x3, x4, -, -, -, x8⟩ := C97_joint hN hr h ho ht hok
  have hx : ∀ j ω, ∃ start w, simStart dm test none (⟨fun i j => raw i j ω, next⟩ : Tapes N) = (.ok start, w) ∧
      StepHas ord dm env test base t D (fun j k => U j k ω) start w j := by
    intro j ω
    obtain ⟨s₁, r₁, w₁, _, _, _, _, e1, -, e3, -⟩ := x8 ω
    exact ⟨_, _, e1, e3 j⟩
  rw [step_value_eq (hx j) hj ha hk hp hd hY, step_value_eq (hx j') hj' ha' hk' hp' hd' hY']
  obtain ⟨u1, u2, u3⟩ := step_exposed (base := base) (D := D) hj ha hk hp l c hd
  obtain ⟨v1, v2, v3⟩ := step_exposed (base := base) (D := D) hj' ha' hk' hp' l' c' hd'
  refine three_apart x1 ?_ (a := ![.inr (.inl ⟨(j, _), u1⟩), .inr (.inl ⟨(j, _), u2⟩), .inr (.inl ⟨(j, _), u3⟩)])
    (b := ![.inr (.inl ⟨(j', _), v1⟩), .inr (.inl ⟨(j', _), v2⟩), .inr (.inl ⟨(j', _), v3⟩)]) ?_
    (envValue_measurable (t k) b) (envValue_measurable (t k') b')
  · rintro (i | i | i)
    · exact x2 _ _
    · exact x3 _ _
    · exact x4 _
  · intro m n e
    fin_cases m <;> fin_cases n <;>
      exact hne (congrArg (fun z => z.1.1) (Sum.inl_injective (Sum.inr_injective e)))

/-- The conditions of all steps vary independently of the latent values of all devices. -/
theorem C97_latents {j : Nat} {st : Step (Ext ℝ)} {cs : Dict (Ext ℝ)} {prms : PrmSel} {target : Target}
    (hj : test.steps[j]? = some st) (ha : asked dm st = some (cs, prms, target)) {p k : String} {b : ℝ}
    (hk : (base j).get? k = some b) (hp : Exposed dm prms.toList target p k) {s : Slot} (hs : (latentAt dm s).isSome)
    (hi : s.role ≠ .init) {l l' : Fin test.numLots} {c c' : Fin test.numChps} {d d' : Nat} (hd : d < D j p)
    (hd' : d' < D₀ s.prm) {Y Y' : Ω → ℝ} (hY : RandomStepValue raw next ord test dm env j p k l c d Y)
    (hY' : RandomLatent raw next dm (augment dm (calcSamplesNeeded test.steps)) test.numLots test.numChps s l' c' d' Y') :
    IndepFun Y Y' P := by
  obtain ⟨X, U, E, x1, x2, x3, x4, -, -, -, x8⟩ := C97_joint hN hr h ho ht hok
  have hx : ∀ ω, ∃ start w, simStart dm test none (⟨fun i j => raw i j ω, next⟩ : Tapes N) = (.ok start, w) ∧
      StepHas ord dm env test base t D (fun j k => U j k ω) start w j := by
    intro ω
    obtain ⟨s₁, r₁, w₁, _, _, _, _, e1, -, e3, -⟩ := x8 ω
    exact ⟨_, _, e1, e3 j⟩
  have hl : Y' = fun ω => v.value (fun s t => X s t ω) s l' c' d' := by
    funext ω
    obtain ⟨st', w', a, e1, e2, e3⟩ := hY' ω
    obtain ⟨s₁, r₁, w₁, _, _, _, _, f1, f2, -⟩ := x8 ω
    obtain ⟨rr, g1, -⟩ := start_new e1
    rw [g1] at f1
    cases f1
    obtain ⟨lv, hlv⟩ := Option.isSome_iff_exists.1 hs
    obtain ⟨a', a1, -, a3⟩ := f2.1 s lv hlv hi
    rw [show keptLatent (withElapsed st' (.td 0)) s = keptLatent st' s from rfl, e2] at a1
    cases a1
    exact Ext.fin.inj (e3.symm.trans (a3 l' c' d' hd'))
  rw [step_value_eq hx hj ha hk hp hd hY, hl]
  obtain ⟨u1, u2, u3⟩ := step_exposed (base := base) (D := D) hj ha hk hp l c hd
  have hf : Measurable fun x : ℝ × ℝ × ℝ => match v.type s with
      | .offset => (v.base s).getD 0 + x.1 + x.2.1 + x.2.2
      | .scaling => (v.base s).getD 1 * x.1 * x.2.1 * x.2.2 := by
    cases v.type s <;> simp only <;> fun_prop
  have := three_apart x1 ?_ (a := ![.inr (.inl ⟨(j, _), u1⟩), .inr (.inl ⟨(j, _), u2⟩), .inr (.inl ⟨(j, _), u3⟩)])
    (b := ![.inl ⟨(s, .dev l' c' d'), hs, hd'⟩, .inl ⟨(s, .chp l' c'), hs, trivial⟩, .inl ⟨(s, .lot l'), hs, trivial⟩]) ?_
    (envValue_measurable (t k) b) hf
  · exact this
  · rintro (i | i | i)
    · exact x2 _ _
    · exact x3 _ _
    · exact x4 _
  · intro m n e
    fin_cases m <;> fin_cases n <;> cases e

/-- **C97**, what is violated: the number of batches of a test is meant to be one (`phys_envs.py:164-167`), but every
step has a batch of its own. If a condition varies between batches only, its deviations from what is asked for are
almost surely different in any two steps. -/
theorem C97_batch_violated {j j' : Nat} (hne : j ≠ j') {st st' : Step (Ext ℝ)} {cs cs' : Dict (Ext ℝ)}
    {prms prms' : PrmSel} {target target' : Target} (hj : test.steps[j]? = some st)
    (ha : asked dm st = some (cs, prms, target)) (hj' : test.steps[j']? = some st')
    (ha' : asked dm st' = some (cs', prms', target')) {p p' k : String} {b b' : ℝ} (hk : (base j).get? k = some b)
    (hk' : (base j').get? k = some b') (hp : Exposed dm prms.toList target p k)
    (hp' : Exposed dm prms'.toList target' p' k) {l l' : Fin test.numLots} {c c' : Fin test.numChps} {d d' : Nat}
    (hd : d < D j p) (hd' : d' < D j' p') (hoff : t k = .offset) (hfc : fc k = fun _ => 0) (hfd : fd k = fun _ => 0)
    (hfb : NullSingletonClass (P₀.map (fb k))) {Y Y' : Ω → ℝ} (hY : RandomStepValue raw next ord test dm env j p k l c d Y)
    (hY' : RandomStepValue raw next ord test dm env j' p' k l' c' d' Y') : ∀ᵐ ω ∂P, Y ω - b ≠ Y' ω - b' := by
  obtain ⟨X, U, E, x1, x2, x3, x4, -, x6, -, x8⟩ := C97_joint hN hr h ho ht hok
  have : IsProbabilityMeasure P := hr.indep.isProbabilityMeasure
  have hx : ∀ j ω, ∃ start w, simStart dm test none (⟨fun i j => raw i j ω, next⟩ : Tapes N) = (.ok start, w) ∧
      StepHas ord dm env test base t D (fun j k => U j k ω) start w j := by
    intro j ω
    obtain ⟨s₁, r₁, w₁, _, _, _, _, e1, -, e3, -⟩ := x8 ω
    exact ⟨_, _, e1, e3 j⟩
  have zero : ∀ j q, StepPart dm test base D j q → q.layer fb fc fd = (fun _ => 0) → ∀ᵐ ω ∂P, U j q ω = 0 := by
    intro j q hq e
    have hl := x6 j q hq
    rw [e] at hl
    have : ∀ᵐ y ∂(P.map (U j q)), y = 0 := by
      rw [hl]
      exact (ae_map_iff measurable_const.aemeasurable (measurableSet_singleton 0)).2 (.of_forall fun _ => rfl)
    exact (ae_map_iff (x3 j q).aemeasurable (measurableSet_singleton 0)).1 this
  obtain ⟨u1, u2, u3⟩ := step_exposed (base := base) (D := D) hj ha hk hp l c hd
  obtain ⟨v1, v2, v3⟩ := step_exposed (base := base) (D := D) hj' ha' hk' hp' l' c' hd'
  have ind : IndepFun (U j (.batch k)) (U j' (.batch k)) P :=
    x1.indepFun (i := .inr (.inl ⟨(j, .batch k), u1⟩)) (j := .inr (.inl ⟨(j', .batch k), v1⟩))
      fun e => hne (congrArg (fun z => z.1.1) (Sum.inl_injective (Sum.inr_injective e)))
  have diff : ∀ᵐ ω ∂P, U j (.batch k) ω ≠ U j' (.batch k) ω := by
    have hprod := (indepFun_iff_map_prod_eq_prod_map_map (x3 _ _).aemeasurable (x3 _ _).aemeasurable).1 ind
    have hms : MeasurableSet {z : ℝ × ℝ | z.1 = z.2} := measurableSet_eq_fun measurable_fst measurable_snd
    have hz : (P.map fun ω => (U j (.batch k) ω, U j' (.batch k) ω)) {z : ℝ × ℝ | z.1 = z.2} = 0 := by
      have hP : IsProbabilityMeasure (P.map (U j' (.batch k))) := Measure.isProbabilityMeasure_map (x3 _ _).aemeasurable
      rw [hprod, Measure.measure_prod_null hms]
      refine .of_forall fun y => ?_
      have : NullSingletonClass (P.map (U j' (.batch k))) := by
        rw [x6 j' (.batch k) v1]
        exact hfb
      show (P.map (U j' (.batch k))) (Prod.mk y ⁻¹' {z : ℝ × ℝ | z.1 = z.2}) = 0
      rw [show Prod.mk y ⁻¹' {z : ℝ × ℝ | z.1 = z.2} = {y} by ext z; exact ⟨fun e => e.symm, fun e => e.symm⟩]
      exact measure_singleton y
    rw [Measure.map_apply ((x3 _ _).prodMk (x3 _ _)) hms] at hz
    rw [ae_iff]
    simpa using hz
  rw [step_value_eq (hx j) hj ha hk hp hd hY, step_value_eq (hx j') hj' ha' hk' hp' hd' hY']
  filter_upwards [diff, zero _ _ u2 hfc, zero _ _ u3 hfd, zero _ _ v2 hfc, zero _ _ v3 hfd] with ω e1 e2 e3 e4 e5
  rw [hoff]
  simp only [envValue, e2, e3, e4, e5]
  intro e
  apply e1
  linarith

end values

/-! ## An example -/

/-- An oscillator that slows down with temperature, with its own rate. -/
noncomputable def bakeDev : DeviceMdl (Tapes linearNumpy) (Ext ℝ) where
  prms := [("delay", .circ {
    compute := (NumExpr.bin PyArith.mul (.arg "temp") (.arg "rate")).fn ["temp", "rate"]
    latentVars := [("rate", lotLatent)] })]

/-- An oven that is 2 degrees off, and a counter with errors. -/
noncomputable def bakeEnv : PhysTestEnv (Ext ℝ) where
  vars := [("temp", { (EnvVrtnMdl.ideal : EnvVrtnMdl (Ext ℝ)) with
    batch := ⟨1, .normal (.fin 0) (.fin 2), none⟩ })]
  instms := [("delay", { error := some ⟨5, .normal (.fin 0) (.fin (3 : NNReal)), none⟩ })]

/-- Two measurements in the oven, with a thermometer in the first one. -/
noncomputable def bakeTest : TestSpec (Ext ℝ) where
  steps := [.meas ⟨[("delay", 2), ("temp", 1)], [("temp", .fin 300)], "warm"⟩,
    .meas ⟨[("delay", 2)], [("temp", .fin 310)], "hot"⟩]
  numLots := 1
  numChps := 2

/-- The temperatures asked for. -/
def bakeBase (j : Nat) : Dict ℝ := if j = 0 then [("temp", 300)] else [("temp", 310)]

set_option maxHeartbeats 2000000 in
theorem bake_runs : ExactRuns (fun i j (ω : Nat × Nat → ℝ) => ω (i, j)) (fun _ => 0) Ex.orderA bakeTest bakeDev bakeEnv
    (List.replicate 4 "delay" ++ ["temp"] ++ List.replicate 4 "delay") := by
  intro ω
  refine ⟨_, _, rfl, rfl, fun r hr => ?_⟩
  have : ∀ rows : List (MeasRow (Ext ℝ)), rows.all (fun r => match r.measured with | .nan => false | _ => true) = true →
      ∀ r ∈ rows, r.measured ≠ .nan := by
    intro rows h r hr e
    have := List.all_eq_true.1 h r hr
    rw [e] at this
    cases this
  exact this _ (by with_unfolding_all rfl) r hr

/-- How the rates vary. -/
noncomputable def bakeVariation : Variation where
  type := fun _ => .offset
  base := fun _ => some 7
  lot := fun _ z => 0 + 2 * z
  chp := fun _ _ => 0
  dev := fun _ z => 0 + 1 * z

theorem bake_prm {p : String} {m : PrmMdl (Tapes linearNumpy) (Ext ℝ)} (h : bakeDev.prms.get? p = some m) :
    p = "delay" ∧ m = .circ {
      compute := (NumExpr.bin PyArith.mul (.arg "temp") (.arg "rate")).fn ["temp", "rate"]
      latentVars := [("rate", lotLatent)] } := by
  have := Dict.mem_of_get? h
  simpa only [bakeDev, List.mem_cons, List.not_mem_nil, or_false, Prod.mk.injEq] using this

theorem bake_latents {p : String} {r : Role} {d : Dict (LatentVar (Ext ℝ))} (h : latentsOf bakeDev p r = some d) :
    d = [("rate", lotLatent)] := by
  unfold latentsOf at h
  cases hp : bakeDev.prms.get? p with
  | none => rw [hp] at h; cases r <;> cases h
  | some m =>
    obtain ⟨-, rfl⟩ := bake_prm hp
    rw [hp] at h
    cases r with
    | own => cases h; rfl
    | _ => cases h

theorem bake_setup : NewSetup linearNumpy bakeDev (augment bakeDev (calcSamplesNeeded bakeTest.steps)) (fun _ => 2)
    bakeVariation fun _ y => y "init_val" := by
  refine ⟨by simp [bakeDev, Dict.Nodup, Dict.keys], ?_, ?_, ?_, ?_, ?_⟩
  · intro p m hp
    cases (bake_prm hp).2
  · intro p r d hd
    rw [bake_latents hd]
    simp [Dict.Nodup, Dict.keys]
  · intro s lv hs
    unfold latentAt at hs
    cases hd : latentsOf bakeDev s.prm s.role with
    | none => rw [hd] at hs; cases hs
    | some d =>
      rw [hd, bake_latents hd] at hs
      have := Dict.mem_of_get? hs
      simp only [List.mem_cons, List.not_mem_nil, or_false, Prod.mk.injEq] at this
      rw [this.2]
      exact ⟨rfl, rfl, rfl, rfl, rfl⟩
  · intro p m hp
    cases (bake_prm hp).2
  · intro p hp
    simp only [bakeDev, Dict.keys, List.map_cons, List.map_nil, List.mem_cons, List.not_mem_nil, or_false] at hp
    subst hp
    rfl

theorem bake_own : OwnGenerators linearNumpy {5} bakeDev bakeEnv := by
  refine ⟨by simp [bakeDev, Dict.Nodup, Dict.keys], ?_, ?_, ?_, ?_⟩
  · intro kv hkv r hr
    rw [List.mem_singleton.1 hkv] at hr
    cases hr
    exact ⟨rfl, _, rfl⟩
  · intro kv hkv
    rw [List.mem_singleton.1 hkv]
    exact ⟨.inl (by simp), .inr ⟨_, rfl⟩, .inr ⟨_, rfl⟩⟩
  · intro kv hkv m hm
    rw [List.mem_singleton.1 hkv] at hm
    cases hm
  · intro kv hkv m hm
    rw [List.mem_singleton.1 hkv] at hm
    cases hm
    refine ⟨fun args => ⟨_, rfl⟩, fun kv hkv => ?_⟩
    rw [List.mem_singleton.1 hkv]
    exact ⟨.inl (by simp [lotLatent]), .inr ⟨.fin 0, rfl⟩, .inl (by simp [lotLatent])⟩

theorem bake_test : RandomTest linearNumpy bakeDev bakeEnv bakeTest bakeBase (fun _ => .offset)
    (fun _ z => 0 + 2 * z) (fun _ _ => 0) (fun _ _ => 0) (fun _ p => if p = "delay" then 2 else 1) := by
  have z : (PyArith.ofRat 0 : Ext ℝ) = .fin 0 := congrArg Ext.fin Rat.cast_zero
  have layers : ∀ k, k = "temp" → EnvLayers linearNumpy (bakeEnv.vrtnMdl k) .offset (fun z => 0 + 2 * z) (fun _ => 0)
      (fun _ => 0) := by
    rintro k rfl
    refine ⟨rfl, rfl, ?_, ?_⟩ <;>
    · show linearNumpy.value (.deterministic (PyArith.ofRat 0)) = _
      rw [z]
      rfl
  have args : ∀ p m, bakeDev.prms.get? p = some (.circ m) → m.compute.argNames.Nodup := by
    intro p m h
    obtain ⟨-, e⟩ := bake_prm h
    cases e
    simp [PyFun.argNames, NumExpr.fn]
  have sensor : ∀ p prms, IsSensor bakeDev prms p → p ∈ ["delay", "temp"] → p = "temp" := by
    rintro p prms ⟨-, h⟩ hp
    simp only [List.mem_cons, List.not_mem_nil, or_false] at hp
    rcases hp with rfl | rfl
    · cases h
    · rfl
  intro j st c prms target hj ha
  match j, hj with
  | 0, hj =>
    cases hj
    cases ha
    refine ⟨rfl, by decide, fun k hk => layers k (List.mem_singleton.1 hk), args, rfl, rfl, by decide,
      ⟨_, rfl, by decide⟩, fun p hp => List.mem_singleton.2 (sensor p _ hp ?_)⟩
    exact hp.1
  | 1, hj =>
    cases hj
    cases ha
    refine ⟨rfl, by decide, fun k hk => layers k (List.mem_singleton.1 hk), args, rfl, rfl, by decide,
      ⟨_, rfl, by decide⟩, fun p hp => List.mem_singleton.2 (sensor p _ hp ?_)⟩
    exact List.mem_cons.2 (.inl (List.mem_singleton.1 hp.1))
  | j + 2, hj => cases hj

theorem bake_exposed (prms : List String) (h : "delay" ∈ prms) : Exposed bakeDev prms .measure "delay" "temp" := by
  refine ⟨h, _, rfl, ?_⟩
  show "temp" ∈ PyFun.argNames (NumExpr.fn _ _)
  simp [PyFun.argNames, NumExpr.fn]

/-- The oven is asked for 300 and then 310 degrees. What it is off differs almost surely, though there is one batch;
temperatures and rates are independent, though they use the same generator. -/
example : ∃ Y Y' Z, RandomStepValue (fun i j (ω : Nat × Nat → ℝ) => ω (i, j)) (fun _ => 0) Ex.orderA bakeTest bakeDev bakeEnv
      0 "delay" "temp" 0 1 0 Y ∧
    RandomStepValue (fun i j (ω : Nat × Nat → ℝ) => ω (i, j)) (fun _ => 0) Ex.orderA bakeTest bakeDev bakeEnv
      1 "delay" "temp" 0 1 0 Y' ∧
    RandomLatent (fun i j (ω : Nat × Nat → ℝ) => ω (i, j)) (fun _ => 0) bakeDev
      (augment bakeDev (calcSamplesNeeded bakeTest.steps)) 1 2 ⟨"delay", .own, "rate"⟩ 0 1 0 Z ∧
    IndepFun Y Y' (Measure.infinitePi fun _ : Nat × Nat => gaussianReal 0 1) ∧
    IndepFun Y Z (Measure.infinitePi fun _ : Nat × Nat => gaussianReal 0 1) ∧
    ∀ᵐ ω ∂(Measure.infinitePi fun _ : Nat × Nat => gaussianReal 0 1), Y ω - 300 ≠ Y' ω - 310 := by
  have e0 := bake_exposed ["delay", "temp"] (by decide)
  have e1 := bake_exposed ["delay"] (by decide)
  obtain ⟨Y, -, hY⟩ := C97_values linear_correct exists_standard bake_setup bake_own bake_test bake_runs (j := 0) rfl rfl
    (k := "temp") (b := 300) rfl e0 (0 : Fin 1) (1 : Fin 2) (d := 0) (by decide)
  obtain ⟨Y', -, hY'⟩ := C97_values linear_correct exists_standard bake_setup bake_own bake_test bake_runs (j := 1) rfl rfl
    (k := "temp") (b := 310) rfl e1 (0 : Fin 1) (1 : Fin 2) (d := 0) (by decide)
  obtain ⟨Z, -, hZ⟩ := (C94_values linear_correct exists_standard bake_setup (L := 1) (C := 2) (next := fun _ => 0)
    (fun _ _ _ => measurable_pi_apply _)).2 ⟨"delay", .own, "rate"⟩ rfl (by decide) 0 1 0 (by decide)
  refine ⟨Y, Y', Z, hY, hY', hZ, ?_, ?_, ?_⟩
  · exact C97_steps linear_correct exists_standard bake_setup bake_own bake_test bake_runs (j := 0) (j' := 1) (by decide)
      rfl rfl rfl rfl (b := 300) (b' := 310) rfl rfl e0 e1 (l := (0 : Fin 1)) (l' := (0 : Fin 1)) (c := (1 : Fin 2))
      (c' := (1 : Fin 2)) (by decide) (by decide) hY hY'
  · exact C97_latents linear_correct exists_standard bake_setup bake_own bake_test bake_runs (j := 0) rfl rfl (b := 300) rfl
      e0 (s := ⟨"delay", .own, "rate"⟩) rfl (by decide) (l := (0 : Fin 1)) (l' := (0 : Fin 1)) (c := (1 : Fin 2))
      (c' := (1 : Fin 2)) (by decide) (by decide) hY hZ
  · refine C97_batch_violated linear_correct exists_standard bake_setup bake_own bake_test bake_runs (j := 0) (j' := 1)
      (by decide) rfl rfl rfl rfl rfl rfl e0 e1 (l := (0 : Fin 1)) (l' := (0 : Fin 1)) (c := (1 : Fin 2))
      (c' := (1 : Fin 2)) (by decide) (by decide) rfl rfl rfl ?_ hY hY'
    have e : (fun z : ℝ => 0 + 2 * z) = fun z => 2 * z := by funext z; ring
    show NullSingletonClass ((gaussianReal 0 1).map fun z : ℝ => 0 + 2 * z)
    rw [e, gaussianReal_map_const_mul]
    refine nullSingletonClass_gaussianReal ?_
    intro h0
    have := congrArg NNReal.toReal h0
    norm_num at this

end Gerabaldi.Props
