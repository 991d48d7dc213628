import Verif.Spec.Exchange
import Verif.Props.Together

/-!
# C101: lots, chips and devices are interchangeable
-/

namespace Gerabaldi.Props
open Gerabaldi Spec MeasureTheory ProbabilityTheory

section laws
variable {Ω : Type} [MeasurableSpace Ω] {P : Measure Ω}

/-- Independent numbers have the same joint distribution in another order, if every number is replaced by one with
the same distribution. -/
theorem relabelled_law {ι : Type} {X : ι → Ω → ℝ} (h : iIndepFun X P) (hm : ∀ i, Measurable (X i)) {e : ι → ι}
    (he : Function.Injective e) (hl : ∀ i, P.map (X (e i)) = P.map (X i)) :
    P.map (fun ω i => X (e i) ω) = P.map (fun ω i => X i ω) := by
  have := h.isProbabilityMeasure
  rw [(h.precomp he).map_fun_eq_infinitePi_map fun i => hm (e i), h.map_fun_eq_infinitePi_map hm]
  congr 1
  funext i
  exact hl i

/-- The same for whatever is computed from them. -/
theorem exchange_parts {κ ι : Type} {X : κ → Ω → ℝ} {U : κ → Prop} (h : iIndepFun (fun k : {k // U k} => X k.1) P)
    (hm : ∀ k, Measurable (X k)) {e : κ → κ} (he : Function.Injective e) (hU : ∀ k, U k → U (e k))
    (hl : ∀ k, U k → P.map (X (e k)) = P.map (X k)) {F : ι → (κ → ℝ) → ℝ} (hF : ∀ i, Measurable (F i))
    (hd : ∀ i x x', (∀ k, U k → x k = x' k) → F i x = F i x') :
    P.map (fun ω i => F i fun k => X k ω) = P.map (fun ω i => F i fun k => X (e k) ω) := by
  classical
  let ext : ({k // U k} → ℝ) → κ → ℝ := fun y k => if hk : U k then y ⟨k, hk⟩ else 0
  have hext : Measurable ext := by
    refine measurable_pi_lambda _ fun k => ?_
    by_cases hk : U k
    · simp only [ext, hk, dite_true]
      exact measurable_pi_apply _
    · simp only [ext, hk, dite_false]
      exact measurable_const
  have hG : Measurable fun (y : {k // U k} → ℝ) (i : ι) => F i (ext y) :=
    measurable_pi_lambda _ fun i => (hF i).comp hext
  let e' : {k // U k} → {k // U k} := fun k => ⟨e k.1, hU k.1 k.2⟩
  have he' : Function.Injective e' := fun a b hab => Subtype.ext (he (congrArg Subtype.val hab))
  have key := relabelled_law (X := fun k : {k // U k} => X k.1) h (fun k => hm k.1) he' fun k => hl k.1 k.2
  have m1 : Measurable fun ω (k : {k // U k}) => X k.1 ω := measurable_pi_lambda _ fun k => hm k.1
  have m2 : Measurable fun ω (k : {k // U k}) => X (e' k).1 ω := measurable_pi_lambda _ fun k => hm _
  have e1 : (fun ω i => F i fun k => X k ω) =
      (fun (y : {k // U k} → ℝ) (i : ι) => F i (ext y)) ∘ fun ω (k : {k // U k}) => X k.1 ω := by
    funext ω i
    exact hd i _ _ fun k hk => by simp [ext, hk]
  have e2 : (fun ω i => F i fun k => X (e k) ω) =
      (fun (y : {k // U k} → ℝ) (i : ι) => F i (ext y)) ∘ fun ω (k : {k // U k}) => X (e' k).1 ω := by
    funext ω i
    exact hd i _ _ fun k hk => by simp [ext, hk, e']
  rw [e1, e2, ← Measure.map_map hG m1, ← Measure.map_map hG m2, key]

end laws

section parts
variable {L C : Nat}

/-- The spot that a relabelling puts in the place of another. -/
def newSpot (R : Relabelling L C) (p : String) : Spot L C → Spot L C
  | .lot l => .lot (R.lot l)
  | .chp l c => .chp (R.lot l) (R.chp l c)
  | .dev l c d => .dev (R.lot l) (R.chp l c) (R.dev p l c d)

/-- The part of the conditions that a relabelling puts in the place of another. -/
def newPart (R : Relabelling L C) : EnvPart L C → EnvPart L C
  | .batch k => .batch k
  | .chp k l c => .chp k (R.lot l) (R.chp l c)
  | .dev p k l c d => .dev p k (R.lot l) (R.chp l c) (R.dev p l c d)
  | .sensorChp k i => .sensorChp k i
  | .sensorDev k i => .sensorDev k i

theorem newSpot_inj (R : Relabelling L C) (p : String) : Function.Injective (newSpot R p) := by
  intro a b h
  cases a <;> cases b <;> simp only [newSpot, Spot.lot.injEq, Spot.chp.injEq, Spot.dev.injEq, EmbeddingLike.apply_eq_iff_eq,
    reduceCtorEq] at h
  · rw [h]
  · obtain ⟨rfl, h⟩ := h
    rw [(R.chp _).injective h]
  · obtain ⟨rfl, h, h'⟩ := h
    obtain rfl := (R.chp _).injective h
    rw [(R.dev _ _ _).injective h']

theorem newPart_inj (R : Relabelling L C) : Function.Injective (newPart R) := by
  intro a b h
  cases a <;> cases b <;> simp only [newPart, EnvPart.batch.injEq, EnvPart.chp.injEq, EnvPart.dev.injEq,
    EnvPart.sensorChp.injEq, EnvPart.sensorDev.injEq, EmbeddingLike.apply_eq_iff_eq, reduceCtorEq] at h
  · rw [h]
  · obtain ⟨rfl, rfl, h⟩ := h
    rw [(R.chp _).injective h]
  · obtain ⟨rfl, rfl, rfl, h, h'⟩ := h
    obtain rfl := (R.chp _).injective h
    rw [(R.dev _ _ _).injective h']
  · rw [h.1, h.2]
  · rw [h.1, h.2]

theorem newSpot_within {R : Relabelling L C} {D : String → Nat} (hR : R.Keeps D) (p : String) (t : Spot L C)
    (h : t.Within (D p)) : (newSpot R p t).Within (D p) := by
  cases t
  · trivial
  · trivial
  · exact (hR _ _ _ _).2 h

theorem newPart_used {R : Relabelling L C} {D : String → Nat} (hR : R.Keeps D) {conds : List String}
    {Needs : String → String → Prop} {Sensor : String → Prop} (k : EnvPart L C) (h : k.Used conds Needs Sensor D) :
    (newPart R k).Used conds Needs Sensor D := by
  cases k
  · exact h
  · exact h
  · exact ⟨h.1, h.2.1, (hR _ _ _ _).2 h.2.2⟩
  · exact h
  · exact h

/-- A value of a device from the contributions of all parts. -/
noncomputable def valueFrom (v : Variation) (g : String → (String → ℝ) → ℝ) (t : String → VType) (base : Nat → Dict ℝ)
    (x : Slot → Spot L C → ℝ) (y : Nat → EnvPart L C → ℝ) (l : Fin L) (c : Fin C) (d : Nat) : DeviceValue → ℝ
  | .initial p => g p fun k => v.value x ⟨p, .init, k⟩ l c d
  | .latent s => v.value x s l c d
  | .cond j p k => envValue (t k) (((base j).get? k).getD 0) (y j (.batch k)) (y j (.chp k l c)) (y j (.dev p k l c d))

/-- The value of the device in the new place is the value that the contributions in the new places make. -/
theorem valueFrom_new (R : Relabelling L C) (v : Variation) (g : String → (String → ℝ) → ℝ) (t : String → VType)
    (base : Nat → Dict ℝ) (x : Slot → Spot L C → ℝ) (y : Nat → EnvPart L C → ℝ) (l : Fin L) (c : Fin C) (d : Nat)
    (q : DeviceValue) :
    valueFrom v g t base x y (R.lot l) (R.chp l c) (R.dev q.prm l c d) q =
      valueFrom v g t base (fun s p => x s (newSpot R s.prm p)) (fun j k => y j (newPart R k)) l c d q := by
  cases q <;> rfl

end parts

section devices
variable {N : Numpy} {Ω : Type} [MeasurableSpace Ω] {P : Measure Ω} {P₀ : Measure ℝ} {raw : Nat → Nat → Ω → ℝ} {G : Set Nat}
  {dm : DeviceMdl (Tapes N) (Ext ℝ)} {env : PhysTestEnv (Ext ℝ)} {D₀ : String → Nat} {v : Variation}
  {g : String → (String → ℝ) → ℝ} {test : TestSpec (Ext ℝ)} {ord : SetOrder} {base : Nat → Dict ℝ} {t : String → VType}
  {fb fc fd : String → ℝ → ℝ} {D : Nat → String → Nat} {next : Nat → Nat} {counts : Dict Nat} {L C : Nat}

/-- What the value is about exists. -/
def ValueExists (dm : DeviceMdl (Tapes N) (Ext ℝ)) (test : TestSpec (Ext ℝ)) (base : Nat → Dict ℝ) : DeviceValue → Prop
  | .initial p => ∃ m, dm.prms.get? p = some (.deg m)
  | .latent s => (latentAt dm s).isSome
  | .cond j p k => ∃ st cs prms target b, test.steps[j]? = some st ∧ asked dm st = some (cs, prms, target) ∧
      (base j).get? k = some b ∧ Exposed dm prms.toList target p k

theorem valueFrom_measurable (hg : ∀ p m, dm.prms.get? p = some (.deg m) → Measurable (g p)) {q : DeviceValue}
    (hq : ValueExists dm test base q) (l : Fin L) (c : Fin C) (d : Nat) :
    Measurable fun z : (Slot → Spot L C → ℝ) × (Nat → EnvPart L C → ℝ) => valueFrom v g t base z.1 z.2 l c d q := by
  cases q with
  | initial p =>
    obtain ⟨m, hm⟩ := hq
    exact (hg p m hm).comp (measurable_pi_lambda _ fun k => (value_measurable_x v _ l c d).comp measurable_fst)
  | latent s => exact (value_measurable_x v s l c d).comp measurable_fst
  | cond j p k =>
    have m : ∀ u, Measurable fun z : (Slot → Spot L C → ℝ) × (Nat → EnvPart L C → ℝ) => z.2 j u := fun u =>
      (measurable_pi_apply u).comp ((measurable_pi_apply j).comp measurable_snd)
    exact (envValue_measurable (t k) _).comp ((m _).prodMk ((m _).prodMk (m _)))

theorem value_depends {x x' : Slot → Spot L C → ℝ} {s : Slot} (hs : (latentAt dm s).isSome) {l : Fin L} {c : Fin C} {d : Nat}
    (hd : d < D₀ s.prm) (h : ∀ s t, (latentAt dm s).isSome → t.Within (D₀ s.prm) → x s t = x' s t) :
    v.value x s l c d = v.value x' s l c d := by
  unfold Variation.value
  rw [h s (.dev l c d) hs hd, h s (.chp l c) hs trivial, h s (.lot l) hs trivial]

theorem initial_depends (hs : NewSetup N dm counts D₀ v g) {x x' : Slot → Spot L C → ℝ} {p : String}
    {m : DegPrmMdl (Tapes N) (Ext ℝ)} (hp : dm.prms.get? p = some (.deg m)) {l : Fin L} {c : Fin C} {d : Nat}
    (hd : d < D₀ p) (h : ∀ s t, (latentAt dm s).isSome → t.Within (D₀ s.prm) → x s t = x' s t) :
    (g p fun k => v.value x ⟨p, .init, k⟩ l c d) = g p fun k => v.value x' ⟨p, .init, k⟩ l c d :=
  init_args (hs.equations p m hp) fun k hk =>
    value_depends (init_slots (D := D₀) hp hd ⟨p, .init, k⟩ (List.mem_map_of_mem hk)).1 hd h

/-- **C101**, new devices: whatever lots are exchanged, chips within a lot, or devices on a chip, all the initial
values and latent values of new devices together have the same distribution as before. -/
theorem C101_new (hN : N.Correct P₀) (hr : Standard P P₀ raw) (h : NewSetup N dm counts D₀ v g)
    (hg : ∀ p m, dm.prms.get? p = some (.deg m) → Measurable (g p)) (R : Relabelling L C) (hR : R.Keeps D₀) {ι : Type}
    {q : ι → DeviceValue} {l : ι → Fin L} {c : ι → Fin C} {d : ι → Nat} (hd : ∀ i, d i < D₀ (q i).prm)
    {Y Y' : ι → Ω → ℝ} (hY : ∀ i, RandomNew raw next dm counts L C (l i) (c i) (d i) (Y i) (q i))
    (hY' : ∀ i, RandomNew raw next dm counts L C (R.lot (l i)) (R.chp (l i) (c i)) (R.dev (q i).prm (l i) (c i) (d i))
      (Y' i) (q i)) :
    P.map (fun ω i => Y i ω) = P.map (fun ω i => Y' i ω) := by
  obtain ⟨X, x1, x2, x3, x4⟩ := C94_variation hN hr h L C next
  have val : ∀ {q : DeviceValue} {l : Fin L} {c : Fin C} {d : Nat} {Y : Ω → ℝ}, d < D₀ q.prm →
      RandomNew raw next dm counts L C l c d Y q →
      Y = fun ω => valueFrom v g (fun _ => .offset) (fun _ => []) (fun s t => X s t ω) (fun _ _ => 0) l c d q := by
    intro q l c d Y hd hY
    cases q with
    | initial p =>
      obtain ⟨⟨m, hm⟩, hY⟩ := hY
      exact initial_eq x4 hm hd hY
    | latent s => exact latent_eq x4 hY.1 hY.2.1 hd hY.2.2
    | cond j p k => exact hY.elim
  have hex : ∀ i, ValueExists dm ⟨[], 0, 0, "", ""⟩ (fun _ => []) (q i) := by
    intro i
    have := hY i
    cases hq : q i with
    | initial p => rw [hq] at this; exact this.1
    | latent s => rw [hq] at this; exact this.1
    | cond j p k => rw [hq] at this; exact this.elim
  let F : ι → ((Slot × Spot L C) → ℝ) → ℝ := fun i x =>
    valueFrom v g (fun _ => .offset) (fun _ => []) (fun s t => x (s, t)) (fun _ _ => 0) (l i) (c i) (d i) (q i)
  have e1 : (fun ω i => Y i ω) = fun ω i => F i fun k => X k.1 k.2 ω := by
    funext ω i
    rw [val (hd i) (hY i)]
  have e2 : (fun ω i => Y' i ω) = fun ω i => F i fun k => X k.1 (newSpot R k.1.prm k.2) ω := by
    funext ω i
    rw [val ((hR _ _ _ _).2 (hd i)) (hY' i)]
    exact valueFrom_new R v g _ _ _ (fun _ _ => 0) _ _ _ (q i)
  rw [e1, e2]
  refine exchange_parts (X := fun k : Slot × Spot L C => X k.1 k.2) (e := fun k => (k.1, newSpot R k.1.prm k.2))
    (U := fun k => (latentAt dm k.1).isSome ∧ k.2.Within (D₀ k.1.prm)) x1 (fun k => x2 _ _) ?_ ?_ ?_ ?_ ?_
  · rintro ⟨s, a⟩ ⟨s', a'⟩ e
    simp only [Prod.mk.injEq] at e
    obtain ⟨rfl, e⟩ := e
    rw [newSpot_inj R _ e]
  · exact fun k hk => ⟨hk.1, newSpot_within hR _ _ hk.2⟩
  · rintro ⟨s, a⟩ hk
    rw [x3 s hk.1, x3 s hk.1]
    cases a <;> rfl
  · intro i
    have hm : Measurable fun x : (Slot × Spot L C) → ℝ =>
        ((fun s t => x (s, t), fun _ _ => 0) : (Slot → Spot L C → ℝ) × (Nat → EnvPart L C → ℝ)) :=
      (measurable_pi_lambda _ fun s => measurable_pi_lambda _ fun t => measurable_pi_apply _).prodMk measurable_const
    exact (valueFrom_measurable hg (hex i) (l i) (c i) (d i)).comp hm
  · intro i x x' hx
    have hi := hY i
    have hdi := hd i
    show valueFrom _ _ _ _ _ _ _ _ _ (q i) = valueFrom _ _ _ _ _ _ _ _ _ (q i)
    cases hq : q i with
    | initial p =>
      rw [hq] at hi hdi
      obtain ⟨⟨m, hm⟩, -⟩ := hi
      exact initial_depends h hm hdi fun s t hs ht => hx (s, t) ⟨hs, ht⟩
    | latent s =>
      rw [hq] at hi hdi
      exact value_depends hi.1 hdi fun s t hs ht => hx (s, t) ⟨hs, ht⟩
    | cond j p k => rfl

/-- **C101**, a test: all the initial values and latent values of its devices, and the conditions that the devices
meet in its steps, together have the same distribution as before. -/
theorem C101_test (hN : N.Correct P₀) (hr : Standard P P₀ raw)
    (h : NewSetup N dm (augment dm (calcSamplesNeeded test.steps)) D₀ v g) (ho : OwnGenerators N G dm env)
    (ht : RandomTest N dm env test base t fb fc fd D) {names : List String}
    (hok : ExactRuns raw next ord test dm env names)
    (hg : ∀ p m, dm.prms.get? p = some (.deg m) → Measurable (g p)) (R : Relabelling test.numLots test.numChps)
    (hR : R.Keeps D₀) (hRs : ∀ j, R.Keeps (D j)) {ι : Type} {q : ι → DeviceValue} {l : ι → Fin test.numLots}
    {c : ι → Fin test.numChps} {d : ι → Nat} (hd : ∀ i, d i < D₀ (q i).prm) {Y Y' : ι → Ω → ℝ}
    (hY : ∀ i, RandomInTest raw next ord test dm env base D (l i) (c i) (d i) (Y i) (q i))
    (hY' : ∀ i, RandomInTest raw next ord test dm env base D (R.lot (l i)) (R.chp (l i) (c i))
      (R.dev (q i).prm (l i) (c i) (d i)) (Y' i) (q i)) :
    P.map (fun ω i => Y i ω) = P.map (fun ω i => Y' i ω) := by
  obtain ⟨X, T, E, x1, x2, x3, -, x5, x6, -, x8⟩ := C97_joint hN hr h ho ht hok
  obtain ⟨_, -, -, -, z4⟩ := C94_variation hN hr h test.numLots test.numChps next
  have x4 : ∀ ω, ∃ st w', dm.genInitState (augment dm (calcSamplesNeeded test.steps)) test.numChps test.numLots
      (⟨fun i j => raw i j ω, next⟩ : Tapes N) = (.ok st, w') ∧ NewStateIs dm D₀ v g (fun s t => X s t ω) st := by
    intro ω
    obtain ⟨st, w', e1, -⟩ := z4 ω
    obtain ⟨s₁, r₁, w₁, _, _, _, _, f1, f2, -⟩ := x8 ω
    obtain ⟨rr, g1, -⟩ := start_new e1
    rw [g1] at f1
    cases f1
    exact ⟨st, w', e1, f2⟩
  have hx : ∀ j ω, ∃ start w, simStart dm test none (⟨fun i j => raw i j ω, next⟩ : Tapes N) = (.ok start, w) ∧
      StepHas ord dm env test base t D (fun j k => T j k ω) start w j := by
    intro j ω
    obtain ⟨s₁, r₁, w₁, _, _, _, _, e1, -, e3, -⟩ := x8 ω
    exact ⟨_, _, e1, e3 j⟩
  have val : ∀ {q : DeviceValue} {l : Fin test.numLots} {c : Fin test.numChps} {d : Nat} {Y : Ω → ℝ}, d < D₀ q.prm →
      RandomInTest raw next ord test dm env base D l c d Y q →
      Y = fun ω => valueFrom v g t base (fun s t => X s t ω) (fun j k => T j k ω) l c d q := by
    intro q l c d Y hd hY
    cases q with
    | initial p =>
      obtain ⟨⟨m, hm⟩, hY⟩ := hY
      exact initial_eq x4 hm hd hY
    | latent s => exact latent_eq x4 hY.1 hY.2.1 hd hY.2.2
    | cond j p k =>
      obtain ⟨⟨st, cs, prms, target, b, a1, a2, a3, a4⟩, hd, hY⟩ := hY
      rw [step_value_eq (hx j) a1 a2 a3 a4 hd hY]
      funext ω
      simp only [valueFrom, a3, Option.getD_some]
  have hex : ∀ i, ValueExists dm test base (q i) := by
    intro i
    have := hY i
    cases hq : q i with
    | initial p => rw [hq] at this; exact this.1
    | latent s => rw [hq] at this; exact this.1
    | cond j p k => rw [hq] at this; exact this.1
  let κ := (Slot × Spot test.numLots test.numChps) ⊕ (Nat × EnvPart test.numLots test.numChps)
  let Z : κ → Ω → ℝ := Sum.elim (fun k => X k.1 k.2) fun k => T k.1 k.2
  let U : κ → Prop := Sum.elim (fun k => (latentAt dm k.1).isSome ∧ k.2.Within (D₀ k.1.prm)) fun k =>
    StepPart dm test base D k.1 k.2
  let e : κ → κ := Sum.map (fun k => (k.1, newSpot R k.1.prm k.2)) fun k => (k.1, newPart R k.2)
  let F : ι → (κ → ℝ) → ℝ := fun i x =>
    valueFrom v g t base (fun s t => x (.inl (s, t))) (fun j k => x (.inr (j, k))) (l i) (c i) (d i) (q i)
  have e1 : (fun ω i => Y i ω) = fun ω i => F i fun k => Z k ω := by
    funext ω i
    rw [val (hd i) (hY i)]
    rfl
  have e2 : (fun ω i => Y' i ω) = fun ω i => F i fun k => Z (e k) ω := by
    funext ω i
    rw [val ((hR _ _ _ _).2 (hd i)) (hY' i)]
    exact valueFrom_new R v g t base _ _ _ _ _ (q i)
  have ind : iIndepFun (fun k : {k // U k} => Z k.1) P := by
    let f : {k // U k} → ({k : Slot × Spot test.numLots test.numChps //
          (latentAt dm k.1).isSome ∧ k.2.Within (D₀ k.1.prm)} ⊕
        ({k : Nat × EnvPart test.numLots test.numChps // StepPart dm test base D k.1 k.2} ⊕ Fin names.length)) := fun k =>
      match k with
      | ⟨.inl a, ha⟩ => .inl ⟨a, ha⟩
      | ⟨.inr b, hb⟩ => .inr (.inl ⟨b, hb⟩)
    have hf : Function.Injective f := by
      rintro ⟨a | a, ha⟩ ⟨b | b, hb⟩ hab <;> simp only [f, Sum.inl.injEq, Sum.inr.injEq, reduceCtorEq] at hab
      · exact Subtype.ext (congrArg Sum.inl (congrArg Subtype.val hab))
      · exact Subtype.ext (congrArg Sum.inr (congrArg Subtype.val hab))
    have := x1.precomp hf
    refine Eq.mp ?_ this
    congr 1
    funext k
    rcases k with ⟨a | a, ha⟩ <;> rfl
  rw [e1, e2]
  refine exchange_parts (X := Z) (e := e) (U := U) ind ?_ ?_ ?_ ?_ ?_ ?_
  · rintro (k | k)
    · exact x2 _ _
    · exact x3 _ _
  · rintro (⟨s, a⟩ | ⟨j, a⟩) (⟨s', a'⟩ | ⟨j', a'⟩) hab
    · have h1 := congrArg Prod.fst (Sum.inl_injective hab)
      have h2 := congrArg Prod.snd (Sum.inl_injective hab)
      simp only at h1 h2
      subst h1
      rw [newSpot_inj R _ h2]
    · cases hab
    · cases hab
    · have h1 := congrArg Prod.fst (Sum.inr_injective hab)
      have h2 := congrArg Prod.snd (Sum.inr_injective hab)
      simp only at h1 h2
      subst h1
      rw [newPart_inj R h2]
  · rintro (k | k) hk
    · exact ⟨hk.1, newSpot_within hR _ _ hk.2⟩
    · obtain ⟨st, cs, prms, target, a1, a2, a3⟩ := hk
      exact ⟨st, cs, prms, target, a1, a2, newPart_used (hRs _) _ a3⟩
  · rintro (⟨s, a⟩ | ⟨j, a⟩) hk
    · show P.map (X _ _) = P.map (X _ _)
      rw [x5 s hk.1, x5 s hk.1]
      cases a <;> rfl
    · have hk' : StepPart dm test base D j (newPart R a) := by
        obtain ⟨st, cs, prms, target, a1, a2, a3⟩ := hk
        exact ⟨st, cs, prms, target, a1, a2, newPart_used (hRs _) _ a3⟩
      show P.map (T _ _) = P.map (T _ _)
      rw [x6 j _ hk', x6 j _ hk]
      cases a <;> rfl
  · intro i
    have hm : Measurable fun x : κ → ℝ => ((fun s t => x (.inl (s, t)), fun j k => x (.inr (j, k))) :
        (Slot → Spot test.numLots test.numChps → ℝ) × (Nat → EnvPart test.numLots test.numChps → ℝ)) :=
      (measurable_pi_lambda _ fun s => measurable_pi_lambda _ fun t => measurable_pi_apply _).prodMk
        (measurable_pi_lambda _ fun s => measurable_pi_lambda _ fun t => measurable_pi_apply _)
    exact (valueFrom_measurable hg (hex i) (l i) (c i) (d i)).comp hm
  · intro i x x' hx
    have hi := hY i
    have hdi := hd i
    show valueFrom _ _ _ _ _ _ _ _ _ (q i) = valueFrom _ _ _ _ _ _ _ _ _ (q i)
    cases hq : q i with
    | initial p =>
      rw [hq] at hi hdi
      obtain ⟨⟨m, hm⟩, -⟩ := hi
      exact initial_depends h hm hdi fun s t hs ht => hx (.inl (s, t)) ⟨hs, ht⟩
    | latent s =>
      rw [hq] at hi hdi
      exact value_depends hi.1 hdi fun s t hs ht => hx (.inl (s, t)) ⟨hs, ht⟩
    | cond j p k =>
      rw [hq] at hi
      obtain ⟨⟨st, cs, prms, target, b, a1, a2, a3, a4⟩, hdj, -⟩ := hi
      obtain ⟨u1, u2, u3⟩ := step_exposed (base := base) (D := D) a1 a2 a3 a4 (l i) (c i) hdj
      simp only [valueFrom]
      rw [hx (.inr (j, _)) u1, hx (.inr (j, _)) u2, hx (.inr (j, _)) u3]

end devices

/-- Exchanges lots, chips of all lots and devices of a parameter. -/
def swapping {L C : Nat} (prm : String) (l l' : Fin L) (c c' : Fin C) (d d' : Nat) : Relabelling L C where
  lot := Equiv.swap l l'
  chp := fun _ => Equiv.swap c c'
  dev := fun p _ _ => if p = prm then Equiv.swap d d' else 1

theorem swapping_keeps {L C : Nat} {prm : String} {l l' : Fin L} {c c' : Fin C} {d d' : Nat} {D : String → Nat}
    (h : d < D prm ↔ d' < D prm) : (swapping prm l l' c c' d d').Keeps D := by
  intro p _ _ i
  show (if p = prm then Equiv.swap d d' else 1) i < D p ↔ i < D p
  split_ifs with hp
  · subst hp
    rw [Equiv.swap_apply_def]
    split_ifs with h1 h2
    · rw [h1, h]
    · rw [h2, h]
    · rfl
  · rfl

/-- The threshold of device 3 of the last lot and the drift rate of device 1 of the first lot are together distributed
like those of device 1 of the first lot and of device 3 of the last lot, on the other chip. -/
example : ∃ Y Z Y' Z', RandomInitial (fun i j (ω : Nat × Nat → ℝ) => ω (i, j)) (fun _ => 0) twinDev
      [("vth", 4), ("ids", 5)] 3 2 "vth" 2 1 3 Y ∧
    RandomLatent (fun i j (ω : Nat × Nat → ℝ) => ω (i, j)) (fun _ => 0) twinDev
      [("vth", 4), ("ids", 5)] 3 2 ⟨"vth", .mech "drift", "rate"⟩ 0 1 1 Z ∧
    RandomInitial (fun i j (ω : Nat × Nat → ℝ) => ω (i, j)) (fun _ => 0) twinDev
      [("vth", 4), ("ids", 5)] 3 2 "vth" 0 0 1 Y' ∧
    RandomLatent (fun i j (ω : Nat × Nat → ℝ) => ω (i, j)) (fun _ => 0) twinDev
      [("vth", 4), ("ids", 5)] 3 2 ⟨"vth", .mech "drift", "rate"⟩ 2 0 3 Z' ∧
    (Measure.infinitePi fun _ : Nat × Nat => gaussianReal 0 1).map (fun ω i => ![Y, Z] i ω) =
      (Measure.infinitePi fun _ : Nat × Nat => gaussianReal 0 1).map fun ω i => ![Y', Z'] i ω := by
  have hg : Measurable fun y : String → ℝ => y "init_val" := measurable_pi_apply _
  obtain ⟨v1, v2⟩ := C94_values (L := 3) (C := 2) (next := fun _ => 0) linear_correct exists_standard twin_setup
    fun _ _ _ => hg
  have p1 : twinDev.prms.get? "vth" = some (.deg (twinPrm [("drift", twinMech)])) := rfl
  have s1 : latentAt twinDev ⟨"vth", .mech "drift", "rate"⟩ = some (lotLatent.setName (some "rate")) := by
    simp [latentAt, latentsOf, p1, twinPrm, twinMech, MechMdl.mk', nameLatents, Dict.get?_cons, lotLatent]
  have s2 : (latentAt twinDev ⟨"vth", .mech "drift", "rate"⟩).isSome := by rw [s1]; rfl
  obtain ⟨Y, -, hY⟩ := v1 "vth" _ p1 2 1 3 (by decide)
  obtain ⟨Z, -, hZ⟩ := v2 ⟨"vth", .mech "drift", "rate"⟩ s2 (by simp) 0 1 1 (by decide)
  obtain ⟨Y', -, hY'⟩ := v1 "vth" _ p1 0 0 1 (by decide)
  obtain ⟨Z', -, hZ'⟩ := v2 ⟨"vth", .mech "drift", "rate"⟩ s2 (by simp) 2 0 3 (by decide)
  refine ⟨Y, Z, Y', Z', hY, hZ, hY', hZ', ?_⟩
  refine C101_new (L := 3) (C := 2) (next := fun _ => 0) linear_correct exists_standard twin_setup (fun _ _ _ => hg)
    (swapping "vth" 0 2 0 1 1 3) (swapping_keeps (by decide)) (q := ![.initial "vth", .latent ⟨"vth", .mech "drift", "rate"⟩])
    (l := ![2, 0]) (c := ![1, 1]) (d := ![3, 1]) ?_ ?_ ?_
  · intro i
    fin_cases i <;> decide
  · intro i
    fin_cases i
    · exact ⟨⟨_, p1⟩, hY⟩
    · exact ⟨s2, by simp, hZ⟩
  · intro i
    fin_cases i
    · exact ⟨⟨_, p1⟩, hY'⟩
    · exact ⟨s2, by simp, hZ'⟩

/-- In the oven, the temperature and the rate of a device on the second chip are together distributed like those of
the other device on the first chip. -/
example : ∃ Y Z Y' Z', RandomStepValue (fun i j (ω : Nat × Nat → ℝ) => ω (i, j)) (fun _ => 0) Ex.orderA bakeTest bakeDev bakeEnv
      1 "delay" "temp" 0 1 0 Y ∧
    RandomLatent (fun i j (ω : Nat × Nat → ℝ) => ω (i, j)) (fun _ => 0) bakeDev
      (augment bakeDev (calcSamplesNeeded bakeTest.steps)) 1 2 ⟨"delay", .own, "rate"⟩ 0 1 0 Z ∧
    RandomStepValue (fun i j (ω : Nat × Nat → ℝ) => ω (i, j)) (fun _ => 0) Ex.orderA bakeTest bakeDev bakeEnv
      1 "delay" "temp" 0 0 1 Y' ∧
    RandomLatent (fun i j (ω : Nat × Nat → ℝ) => ω (i, j)) (fun _ => 0) bakeDev
      (augment bakeDev (calcSamplesNeeded bakeTest.steps)) 1 2 ⟨"delay", .own, "rate"⟩ 0 0 1 Z' ∧
    (Measure.infinitePi fun _ : Nat × Nat => gaussianReal 0 1).map (fun ω i => ![Y, Z] i ω) =
      (Measure.infinitePi fun _ : Nat × Nat => gaussianReal 0 1).map fun ω i => ![Y', Z'] i ω := by
  have e1 := bake_exposed ["delay"] (by decide)
  have cs : ∀ (c : Fin 2) (d : Nat), d < 2 → _ := fun c d hd => C97_values linear_correct exists_standard bake_setup
    bake_own bake_test bake_runs (j := 1) rfl rfl (k := "temp") (b := 310) rfl e1 (0 : Fin 1) c (d := d) hd
  have ls : ∀ (c : Fin 2) (d : Nat), d < 2 → _ := fun c d hd => (C94_values linear_correct exists_standard bake_setup
    (L := 1) (C := 2) (next := fun _ => 0) (fun _ _ _ => measurable_pi_apply _)).2 ⟨"delay", .own, "rate"⟩ rfl (by decide)
    0 c d hd
  obtain ⟨Y, -, hY⟩ := cs 1 0 (by decide)
  obtain ⟨Y', -, hY'⟩ := cs 0 1 (by decide)
  obtain ⟨Z, -, hZ⟩ := ls 1 0 (by decide)
  obtain ⟨Z', -, hZ'⟩ := ls 0 1 (by decide)
  refine ⟨Y, Z, Y', Z', hY, hZ, hY', hZ', ?_⟩
  refine C101_test linear_correct exists_standard bake_setup bake_own bake_test bake_runs
    (fun _ _ _ => measurable_pi_apply _) (swapping "delay" (0 : Fin 1) (0 : Fin 1) (0 : Fin 2) (1 : Fin 2) 0 1) ?_ ?_
    (q := ![.cond 1 "delay" "temp", .latent ⟨"delay", .own, "rate"⟩]) (l := ![(0 : Fin 1), (0 : Fin 1)])
    (c := ![(1 : Fin 2), (1 : Fin 2)]) (d := ![0, 0]) ?_ ?_ ?_
  · exact swapping_keeps (by decide)
  · exact fun j => swapping_keeps (by decide)
  · intro i
    fin_cases i <;> decide
  · intro i
    fin_cases i
    · exact ⟨⟨_, _, _, _, _, rfl, rfl, rfl, e1⟩, by decide, hY⟩
    · exact ⟨rfl, by simp, hZ⟩
  · intro i
    fin_cases i
    · exact ⟨⟨_, _, _, _, _, rfl, rfl, rfl, e1⟩, by decide, hY'⟩
    · exact ⟨rfl, by simp, hZ'⟩

end Gerabaldi.Props
