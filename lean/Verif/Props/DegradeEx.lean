import Verif.Props.Degrade
import Verif.Props.Total
import Verif.Props.Run

/-!
# Concrete stress steps for C30, C31 and C33

Values are extended reals. The device has one parameter "vth" with one mechanism "m" whose equation
depends on the time only. The searches are computed in rational numbers and carried over to the reals.
-/

namespace Gerabaldi.Props

open Gerabaldi Gerabaldi.Spec

/-- A function of real numbers on extended reals. -/
def onFin (F : ℝ → ℝ) : Ext ℝ → Ext ℝ
  | .fin t => .fin (F t)
  | x => x

/-- An equation of the time alone. -/
def timeEqn (F : ℝ → ℝ) : PyFun Counts (Ext ℝ) where
  params := [("time", false)]
  call := fun args => M.ofExcept (match args.get? "time" with
    | some (.scal t) => .ok (.scal (onFin F t))
    | some (.npscal t) => .ok (.scal (onFin F t))
    | some (.arr a) => .ok (.arr (a.map (onFin F)))
    | none => .error .keyError)

/-- The equation for one sample. -/
def timeVal (F : ℝ → ℝ) (args : Dict (PyVal (Ext ℝ))) : Ext ℝ :=
  match args.get? "time" with
  | some (.scal t) => onFin F t
  | _ => .nan

theorem timeEqn_elementwise (F : ℝ → ℝ) : Elementwise (timeEqn F) (timeVal F) where
  onNumbers := by
    intro args _ hs hacc w
    obtain ⟨v, hv⟩ := accepts_present hacc (a := "time") (by simp [timeEqn])
    obtain ⟨x, rfl⟩ := hs _ _ (Dict.mem_of_get? hv)
    simp [timeEqn, timeVal, hv]
  onArrays := by
    intro args L C D hn hu hex hacc w
    obtain ⟨v, hv⟩ := accepts_present hacc (a := "time") (by simp [timeEqn])
    obtain ⟨k, a, hka⟩ := hex
    have hk : k = "time" := by
      have := accepts_mem hacc rfl (Dict.get?_of_mem hn hka)
      simpa [timeEqn] using this
    subst hk
    have ha := Dict.get?_of_mem hn hka
    refine ⟨a.map (onFin F), by simp [timeEqn, ha], (hu _ _ hka : a.HasDims L C D), ?_⟩
    intro l hl c hc d hd
    obtain ⟨e1, e2, e3⟩ := hu _ _ hka
    rw [Arr3.at_map _ _ (e1 ▸ hl) (e2 ▸ hc) (e3 ▸ hd)]
    unfold timeVal sampleArgs
    rw [Dict.get?_map (fun _ v => PyVal.scal (sampleVal v l c d)), ha]
    rfl

theorem timeEqn_direct (F : ℝ → ℝ) : Direct (timeEqn F) := by
  intro args L C D w _ hacc
  obtain ⟨v, hv⟩ := accepts_present hacc (a := "time") (by simp [timeEqn])
  cases v <;> simp [timeEqn, hv]

theorem timeEqn_shapes (F : ℝ → ℝ) {N : Nat → Prop} {A} : ShapeSafe (timeEqn F) N A := by
  intro args L C D w w' v _ _ hu h
  obtain ⟨h1, h2⟩ := invoke_ok h
  obtain ⟨x, hx⟩ := accepts_present h1 (a := "time") (by simp [timeEqn])
  have h3 := (M.ofExcept_eq_ok.1 h2).1
  rw [hx] at h3
  have hk : ∀ k a, args.get? k = some (PyVal.arr a) → x = .arr a := by
    intro k a hk
    have hm := accepts_mem h1 rfl hk
    have : k = "time" := by simpa [timeEqn] using hm
    subst this
    rw [hx] at hk
    exact Option.some.inj hk
  cases x with
  | scal t =>
    cases h3
    exact ⟨fun a h => (nomatch h), fun ⟨k, a, h⟩ => (nomatch hk k a h)⟩
  | npscal t =>
    cases h3
    exact ⟨fun a h => (nomatch h), fun ⟨k, a, h⟩ => (nomatch hk k a h)⟩
  | arr a =>
    cases h3
    refine ⟨?_, fun _ => ⟨_, rfl⟩⟩
    intro b hb
    cases hb
    have hd : a.HasDims L C D := hu _ _ (Dict.mem_of_get? hx)
    exact hd

/-- The mechanism. -/
noncomputable def timeMech (kind : MechKind) (unit : String) (F : ℝ → ℝ) : MechMdl Counts (Ext ℝ) :=
  .mk' kind 0 (some (timeEqn F)) none (.fin 0) (some unit) []

/-- The degraded parameter. -/
noncomputable def timePrm (k : MechMdl Counts (Ext ℝ)) : DegPrmMdl Counts (Ext ℝ) where
  initMdl := initValMk none none [("init_val", constLatent (.fin 3))]
  condMdl := (condShiftMk none none (.fin 0) []).1
  condUnitary := .fin 0
  mechs := [("m", k)]
  mdl := { compute := basicSum }

/-- The device. -/
noncomputable def timeDev (k : MechMdl Counts (Ext ℝ)) : DeviceMdl Counts (Ext ℝ) where
  prms := [("vth", .deg (timePrm k))]

/-- `n` devices on one chip, all with degradation `y`. -/
noncomputable def timeState (y : ℝ) (n : Nat) : SimState (Ext ℝ) where
  elapsed := .td 0
  currPrm := [("vth", .arr (Arr3.full 1 1 n (.fin (3 + y))))]
  initPrm := [("vth", .arr (Arr3.full 1 1 n (.fin 3)))]
  currMech := [("vth", [("m", Arr3.full 1 1 n (.fin y))])]
  initMech := [("vth", [("m", Arr3.full 1 1 n (.fin 0))])]
  latents := [("vth", [("cond", .sub []), ("m", .sub [])])]

/-- A report of `n` devices. -/
def timeReport (n : Nat) : SimReport (Ext ℝ) :=
  { name := "r", description := "", devCounts := [("vth", n)], numChps := 1, numLots := 1 }

/-- A step without conditions. -/
def timeStep (us : Int) : StrsSpec (Ext ℝ) := ⟨[], .td us, "stress"⟩

theorem timeDev_get {k : MechMdl Counts (Ext ℝ)} {p : String} {m : PrmMdl Counts (Ext ℝ)}
    (h : (timeDev k).prms.get? p = some m) : p = "vth" ∧ m = .deg (timePrm k) := by
  cases List.mem_singleton.1 (Dict.mem_of_get? h)
  exact ⟨rfl, rfl⟩

theorem timeDev_works {kind : MechKind} (hk : kind ≠ .base) {unit : String}
    (hu : timeUnitMap (some unit) ≠ none) (F : ℝ → ℝ) : DeviceWorks (timeDev (timeMech kind unit F)) where
  unique := List.nodup_singleton _
  deg := by
    intro p d hp
    obtain ⟨rfl, h⟩ := timeDev_get hp
    cases h
    refine
      { shapes := ⟨argEqn_shapes _, ?_, by simp [timePrm, initValMk, nameLatents],
          constEqn_shapes _, ?_, basicSum_shapes⟩
        unique := List.nodup_singleton _
        mechs := ?_
        condName := by simp [timePrm, Dict.keys]
        ownNames := fun k hk => (by cases hk)
        initDraws := initVal_draws _
        initEqn := argEqn_direct _
        initArgs := ?_
        initTakes := ?_
        condDraws := fun k lv h => (by cases h)
        condEqn := direct_works (constEqn_direct _)
        condPlain := ?_
        draws := fun k lv h => (by cases h)
        eqn := direct_works basicSum_direct
        args := ?_
        takes := fun k _ => .inl rfl }
    · simp [timePrm, Dict.keys]
    · intro k m hk
      cases List.mem_singleton.1 hk
      exact timeEqn_shapes F
    · intro k m hm
      cases List.mem_singleton.1 hm
      exact ⟨hk, hu, fun k lv h => (by cases h), direct_works (timeEqn_direct F),
        .inr ⟨false, List.mem_singleton.2 rfl⟩⟩
    · intro p hp
      cases List.mem_singleton.1 hp
      exact List.mem_singleton.2 rfl
    · intro k hk
      cases List.mem_singleton.1 hk
      exact .inr ⟨false, List.mem_singleton.2 rfl⟩
    · intro args w w' v h
      have := (invoke_ok h).2
      cases this
    · intro p hp
      have : p = "init" ∨ p = "cond" := by simpa [timePrm, basicSum] using hp
      rcases this with rfl | rfl <;> simp
  circ := by
    intro p c hp
    obtain ⟨rfl, h⟩ := timeDev_get hp
    cases h

theorem full_dims (L C D : Nat) (x : Ext ℝ) : (Arr3.full L C D x).HasDims L C D := ⟨rfl, rfl, rfl⟩

/-- A state the step can start from: `n` devices with the degradations `pre`, at time `t`. -/
structure TimeState (k : MechMdl Counts (Ext ℝ)) (n : Nat) (r : SimReport (Ext ℝ)) (s : SimState (Ext ℝ))
    (pre : Arr3 (Ext ℝ)) (t : Int) : Prop where
  shape : StateShape (timeDev k) r.info s
  lat : LatentsThere (timeDev k) s
  latents : s.latents = [("vth", [("cond", .sub []), ("m", .sub [])])]
  elapsed : s.elapsed = .td t
  val : mechVal s "vth" "m" = some pre
  dims : pre.HasDims 1 1 n
  info : r.info = (timeReport n).info

theorem timeState_start (kind : MechKind) (unit : String) (F : ℝ → ℝ) (y : ℝ) (n : Nat) :
    TimeState (timeMech kind unit F) n (timeReport n) (timeState y n) (Arr3.full 1 1 n (.fin y)) 0 where
  shape := by
    refine ⟨?_, ?_, ?_⟩
    · intro p m hp
      obtain ⟨rfl, rfl⟩ := timeDev_get hp
      refine ⟨n, _, rfl, rfl, ?_⟩
      intro k x hx
      simp only [List.mem_cons, Prod.mk.injEq, List.not_mem_nil, or_false] at hx
      rcases hx with ⟨rfl, rfl⟩ | ⟨rfl, rfl⟩ <;> exact fun k a h => (by cases h)
    · intro p d m hp hm
      obtain ⟨rfl, h⟩ := timeDev_get hp
      cases h
      cases hm
      refine ⟨⟨_, rfl, full_dims ..⟩, ⟨_, rfl, full_dims ..⟩, ⟨_, rfl, rfl, ?_⟩, ⟨_, rfl, rfl, ?_⟩⟩ <;>
      · intro k a h
        cases List.mem_singleton.1 h
        exact full_dims ..
    · intro p hp
      by_cases h : p = "vth"
      · subst h
        exact absurd rfl (hp (timePrm (timeMech kind unit F)))
      · rw [Dict.get?_eq_none_iff]
        simpa [timeState, Dict.keys] using h
  lat := by
    refine ⟨?_, ?_⟩
    · intro p d hp
      obtain ⟨rfl, h⟩ := timeDev_get hp
      cases h
      refine ⟨_, rfl, ?_, ⟨_, rfl, fun j hj => (by cases hj)⟩, fun j hj => (by cases hj)⟩
      intro k' m hm
      cases List.mem_singleton.1 hm
      exact ⟨_, rfl, fun j hj => (by cases hj)⟩
    · intro p c hp
      obtain ⟨rfl, h⟩ := timeDev_get hp
      cases h
  latents := rfl
  elapsed := rfl
  val := rfl
  dims := full_dims ..
  info := rfl

/-- A stress step from such a state succeeds, has the inputs of the theorems and ends in such a state. -/
theorem time_step {kind : MechKind} (hk : kind ≠ .base) {unit : String}
    (hu : timeUnitMap (some unit) ≠ none) {F : ℝ → ℝ} {n : Nat} {r : SimReport (Ext ℝ)}
    {s : SimState (Ext ℝ)} {pre : Arr3 (Ext ℝ)} {t : Int}
    (h : TimeState (timeMech kind unit F) n r s pre t) {us : Int} (ht : tdValid t)
    (hus : tdValid (t + us)) (i : Nat) (w : Counts) :
    ∃ s' r' w', simStress Ex.orderA (timeDev (timeMech kind unit F)) ⟨[], []⟩ (timeStep us) i (s, r) w =
        (.ok (s', r'), w') ∧
      StressedMech Ex.orderA (timeDev (timeMech kind unit F)) ⟨[], []⟩ (timeStep us) i s r w s' "vth" "m"
        (timeMech kind unit F) pre [] [] n ∧
      ∀ v, mechVal s' "vth" "m" = some v → v.HasDims 1 1 n →
        TimeState (timeMech kind unit F) n r' s' v (t + us) := by
  have hdev := timeDev_works hk hu F
  have hst : StressOk (timeDev (timeMech kind unit F)) (timeStep us) := by
    intro p d k m hp hm
    obtain ⟨rfl, h⟩ := timeDev_get hp
    cases h
    cases List.mem_singleton.1 hm
    intro q hq
    cases List.mem_singleton.1 hq
    exact List.mem_cons_self
  obtain ⟨s', r', w', hrun, h1, h2, h3, h4⟩ := simStress_works hdev (envDraws_empty (W := Counts) []) hst
    (us := us) (t := t) rfl ht hus h.shape h.lat h.elapsed (ord := Ex.orderA) i w
  have hlat : s'.latents = s.latents := by
    refine (C40_constant (i := i) (steps := [.strs (timeStep us)]) (r := r) (r' := r') (w := w)
      (w' := w') (ord := Ex.orderA) (dev := timeDev (timeMech kind unit F)) (env := ⟨[], []⟩) ?_).2.2
    unfold runSteps
    rw [enumFrom, M.forIn']
    exact (M.bind_ok (m := simStress _ _ _ _ _ _) hrun).trans rfl
  refine ⟨s', r', w', hrun, ⟨⟨r', w', hrun⟩, hdev.unique, ⟨_, rfl, List.nodup_singleton _, rfl⟩,
    ⟨[("vth", [])], w, ?_, ⟨h.val, ?_, rfl, _, by rw [h.latents]; rfl, rfl⟩⟩, ?_⟩, ?_⟩
  · rw [h.info]; rfl
  · rw [h.info]; rfl
  · rw [h.info]; exact h.dims
  · intro v hv hd
    exact ⟨h1, h2, hlat.trans h.latents, h3, hv, hd, h4.trans h.info⟩

/-- The stress step succeeds and has the inputs of the theorems. -/
theorem time_stressed {kind : MechKind} (hk : kind ≠ .base) {unit : String}
    (hu : timeUnitMap (some unit) ≠ none) (F : ℝ → ℝ) (y : ℝ) (n : Nat) {us : Int} (hus : tdValid us)
    (w : Counts) :
    ∃ s', StressedMech Ex.orderA (timeDev (timeMech kind unit F)) ⟨[], []⟩ (timeStep us) 0
      (timeState y n) (timeReport n) w s' "vth" "m" (timeMech kind unit F)
      (Arr3.full 1 1 n (.fin y)) [] [] n := by
  obtain ⟨s', -, -, -, h, -⟩ := time_step hk hu (timeState_start kind unit F y n) (us := us) (by decide)
    (by rwa [zero_add]) 0 w
  exact ⟨s', h⟩

theorem time_sampleWise (kind : MechKind) (unit : String) (F : ℝ → ℝ) (L C D : Nat) :
    SampleWise (timeMech kind unit F) (timeVal F) [] [] L C D where
  eqn := timeEqn_elementwise F
  condDims := fun k a h => (by cases h)
  latDims := fun k a h => (by cases h)
  acc := fun _ => rfl

theorem time_curve (kind : MechKind) (unit : String) (F : ℝ → ℝ) {L C D l c d : Nat} (hl : l < L)
    (hc : c < C) (hd : d < D) (t : ℝ) :
    curve (timeMech kind unit F) (timeVal F) [] [] L C D l c d (.fin t) = .fin (F t) := by
  show onFin F ((Arr3.full L C D (.fin t)).at' l c d) = _
  rw [Arr3.at_full _ hl hc hd]
  rfl

attribute [local instance] fieldArith in
/-- A search computed in rational numbers is the search of the mechanism. -/
theorem time_run {kind : MechKind} {unit : String} {F : ℝ → ℝ} {y : ℝ} {R : ℚ → ℚ} (n : Nat)
    (hR : ∀ q : ℚ, |y - F (10 ^ (q : ℝ))| = ((R q : ℚ) : ℝ)) {out : List ℚ} {log : List (Call ℚ)}
    (hrun : minimize cfgQ (logged (elementwise (W := Unit) R)) n ((), []) = (.ok out, ((), log)))
    (w : Counts) : ∃ log', log'.length = log.length ∧
    minimize (equivTimeCfg (Ext ℝ))
      (logged ((timeMech kind unit F).residue (Arr3.full 1 1 n (.fin y)) [] [] 1 1 n)) n (w, []) =
      (.ok (out.map fun u : ℚ => .fin ((10 : ℝ) ^ (u : ℝ))), (w, log')) := by
  have hn : (Arr3.full 1 1 n (Ext.fin y)).data.length = n := by
    rw [Arr3.wf]; show 1 * 1 * n = n; simp
  refine ⟨_, ?_, minimize_map (FinEmb.extRat ℝ) cfgQ_emb rfl rfl
    ((timeMech kind unit F).residue (Arr3.full 1 1 n (.fin y)) [] [] 1 1 n) w R n ?_ log out hrun⟩
  · simp
  · intro us hus
    have hp : (us.map fun u => (equivTimeCfg (Ext ℝ)).xf ((FinEmb.extRat ℝ).emb u)).length =
        (Arr3.full 1 1 n (Ext.fin y)).data.length := by
      rw [hn, List.length_map, hus]
    obtain ⟨ys, h1, h2, h3⟩ := residue_sample (time_sampleWise kind unit F 1 1 n)
      (full_dims 1 1 n (.fin y)) hp w
    rw [h1]
    congr 2
    rw [hn] at h2
    refine List.ext_getElem? fun i => ?_
    by_cases hi : i < n
    · have h4 := h3 0 (by omega) 0 (by omega) i hi
      simp only [zero_mul, zero_add] at h4
      have hu : us[i]? = some us[i] := List.getElem?_eq_getElem (by omega)
      rw [h4 _ (by rw [List.getElem?_map, hu]; rfl)]
      rw [List.getElem?_map, List.getElem?_map, hu]
      simp only [Option.map_some, Option.some.injEq]
      rw [Arr3.at_full _ (by omega) (by omega) hi]
      show PyArith.abs (PyArith.sub (Ext.fin y) (curve _ _ _ _ _ _ _ _ _ _
        (.fin ((10 : ℝ) ^ ((us[i] : ℚ) : ℝ))))) = Ext.fin ((R us[i] : ℚ) : ℝ)
      rw [time_curve _ _ _ (by omega) (by omega) hi, ← hR]
      show Ext.fin |y + -F _| = Ext.fin |y - F _|
      rw [sub_eq_add_neg]
    · rw [List.getElem?_eq_none (by omega), List.getElem?_eq_none (by simp; omega)]

attribute [local instance] fieldArith in
theorem time_converges {kind : MechKind} {unit : String} {F : ℝ → ℝ} {y : ℝ} {R : ℚ → ℚ} (n : Nat)
    (hR : ∀ q : ℚ, |y - F (10 ^ (q : ℝ))| = ((R q : ℚ) : ℝ))
    (hok : (minimize cfgQ (logged (elementwise (W := Unit) R)) n ((), [])).1.toOption.isSome = true)
    (hlog : (minimize cfgQ (logged (elementwise (W := Unit) R)) n ((), [])).2.2.length < 51) :
    Converges (timeMech kind unit F) (Arr3.full 1 1 n (.fin y)) [] [] 1 1 n := by
  intro w
  obtain ⟨out, log, hrun, hlog⟩ : ∃ out log,
      minimize cfgQ (logged (elementwise (W := Unit) R)) n ((), []) = (.ok out, ((), log)) ∧
      log.length < 51 := by
    generalize minimize cfgQ (logged (elementwise (W := Unit) R)) n ((), []) = x at hok hlog
    obtain ⟨e, ⟨⟩, log⟩ := x
    cases e with
    | error e => cases hok
    | ok out => exact ⟨out, log, rfl, hlog⟩
  have hn : (Arr3.full 1 1 n (Ext.fin y)).data.length = n := by
    rw [Arr3.wf]; show 1 * 1 * n = n; simp
  obtain ⟨log', h1, h2⟩ := time_run (kind := kind) (unit := unit) n hR hrun w
  rw [hn, h2]
  simpa [h1] using hlog

theorem log_mono {G : ℝ → ℝ} (h : StrictMono G) :
    StrictMonoOn (fun t : ℝ => G (Real.logb 10 t)) (Set.Ioi 0) := fun _ ha _ _ hab =>
  h (Real.logb_lt_logb (by norm_num) ha hab)

theorem logb_pow (q : ℝ) : Real.logb 10 ((10 : ℝ) ^ q) = q :=
  Real.logb_rpow (by norm_num) (by norm_num)

/-! ## C30: a curve that stays below the present degradation -/

/-- How far the curve stays below 7: `20 - u`, flattening out from `u = 15`. -/
def gapOf {K : Type} [Field K] [LinearOrder K] (u : K) : K := if u ≤ 15 then 20 - u else 5 / (u - 14)

theorem gap_anti : StrictAnti (gapOf : ℝ → ℝ) := by
  intro a b hab
  unfold gapOf
  by_cases ha : a ≤ 15 <;> by_cases hb : b ≤ 15
  · rw [if_pos ha, if_pos hb]; linarith
  · rw [if_pos ha, if_neg hb]
    push Not at hb
    have : 5 / (b - 14) < 5 := by rw [div_lt_iff₀ (by linarith)]; linarith
    linarith
  · push Not at ha; linarith
  · rw [if_neg ha, if_neg hb]
    push Not at ha hb
    exact div_lt_div_of_pos_left (by norm_num) (by linarith) (by linarith)

theorem gap_pos {u : ℝ} : 0 < gapOf u := by
  unfold gapOf
  split
  · linarith
  · rename_i h
    push Not at h
    exact div_pos (by norm_num) (by linarith)

theorem gap_cast (q : ℚ) : gapOf (q : ℝ) = ((gapOf q : ℚ) : ℝ) := by
  unfold gapOf
  have : (q : ℝ) ≤ 15 ↔ q ≤ 15 := by exact_mod_cast Iff.rfl
  simp only [this]
  split <;> push_cast <;> rfl

attribute [local instance] fieldArith in
theorem gap_converges (kind : MechKind) (unit : String) :
    Converges (timeMech kind unit fun t => 7 - gapOf (Real.logb 10 t)) (Arr3.full 1 1 2 (.fin 7)) [] []
      1 1 2 := by
  refine time_converges (R := gapOf) 2 (fun q => ?_) (by decide +kernel) (by decide +kernel)
  rw [logb_pow, ← gap_cast, sub_sub_cancel, abs_of_pos gap_pos]

/-- C30 applies: two devices at 7, the curve stays below 7; after an hour they are still at 7. -/
example (w : Counts) (d : Nat) (hd : d < 2) : ∃ s' r' w', simStress Ex.orderA
    (timeDev (timeMech .deg "s" fun t => 7 - gapOf (Real.logb 10 t))) ⟨[], []⟩ (timeStep 3600000000) 0
    (timeState 7 2, timeReport 2) w = (.ok (s', r'), w') ∧
    ∃ v, mechVal s' "vth" "m" = some v ∧ v.at' 0 0 d = .fin 7 := by
  obtain ⟨s', h⟩ := time_stressed (kind := .deg) (by decide) (unit := "s") (by decide)
    (fun t => 7 - gapOf (Real.logb 10 t)) 7 2 (us := 3600000000) (by decide) w
  obtain ⟨r', w', hrun⟩ := h.run
  refine ⟨s', r', w', hrun, ?_⟩
  obtain ⟨v, h1, -, h2⟩ := C30_unreachable_kept h rfl (time_sampleWise _ _ _ 1 1 2)
    (gap_converges .deg "s") rfl (by norm_num) (l := 0) (c := 0) (d := d) Nat.one_pos Nat.one_pos hd
    (Arr3.at_full _ Nat.one_pos Nat.one_pos hd)
    (fun t _ => time_curve _ _ _ Nat.one_pos Nat.one_pos hd t)
    (.inl ⟨log_mono (G := fun u => 7 - gapOf u) fun a b hab => sub_lt_sub_left (gap_anti hab) 7,
      fun t _ => sub_lt_self _ gap_pos⟩)
  exact ⟨v, h1, h2⟩

/-! ## C31: a fresh sample -/

/-- A curve that starts at zero: `u + 5`, and the positive tail `1 / (-3 - u)` below `u = -4`. -/
def rise {K : Type} [Field K] [LinearOrder K] (u : K) : K := if u < -4 then 1 / (-3 - u) else u + 5

theorem rise_mono : StrictMono (rise : ℝ → ℝ) := by
  intro a b hab
  unfold rise
  by_cases ha : a < -4 <;> by_cases hb : b < -4
  · rw [if_pos ha, if_pos hb]
    exact div_lt_div_of_pos_left (by norm_num) (by linarith) (by linarith)
  · rw [if_pos ha, if_neg hb]
    push Not at hb
    have : 1 / (-3 - a) < 1 := by rw [div_lt_iff₀ (by linarith)]; linarith
    linarith
  · push Not at ha; linarith
  · rw [if_neg ha, if_neg hb]; linarith

theorem rise_pos {u : ℝ} : 0 < rise u := by
  unfold rise
  split
  · exact div_pos (by norm_num) (by linarith)
  · linarith

theorem rise_cast (q : ℚ) : rise (q : ℝ) = ((rise q : ℚ) : ℝ) := by
  unfold rise
  have : (q : ℝ) < -4 ↔ q < -4 := by exact_mod_cast Iff.rfl
  simp only [this]
  split <;> push_cast <;> rfl

attribute [local instance] fieldArith in
theorem rise_converges (kind : MechKind) (unit : String) :
    Converges (timeMech kind unit fun t => rise (Real.logb 10 t)) (Arr3.full 1 1 2 (.fin 0)) [] []
      1 1 2 := by
  refine time_converges (R := rise) 2 (fun q => ?_) (by decide +kernel) (by decide +kernel)
  rw [logb_pow, ← rise_cast, zero_sub, abs_neg, abs_of_pos rise_pos]

/-- C31 applies, both as an approximation and as a violation: two fresh devices, one hour. -/
example (w : Counts) (d : Nat) (hd : d < 2) : ∃ s' r' w', simStress Ex.orderA
    (timeDev (timeMech .deg "s" fun t => rise (Real.logb 10 t))) ⟨[], []⟩ (timeStep 3600000000) 0
    (timeState 0 2, timeReport 2) w = (.ok (s', r'), w') ∧
    (∃ v, ∃ t : ℝ, mechVal s' "vth" "m" = some v ∧ 0 < t ∧ t < 11 / 10000 ∧
      v.at' 0 0 d = .fin (rise (Real.logb 10 (3600 + t)))) ∧
    ∃ v, ∃ z : ℝ, mechVal s' "vth" "m" = some v ∧ v.at' 0 0 d = .fin z ∧
      rise (Real.logb 10 3600) < z := by
  obtain ⟨s', h⟩ := time_stressed (kind := .deg) (by decide) (unit := "s") (by decide)
    (fun t => rise (Real.logb 10 t)) 0 2 (us := 3600000000) (by decide) w
  obtain ⟨r', w', hrun⟩ := h.run
  have hdur : convertTime (timeStep 3600000000).duration
      (timeMech .deg "s" fun t => rise (Real.logb 10 t)).timeUnit = .ok (.num 3600) := by
    show convertTime (.td 3600000000) (some "s") = _
    decide +kernel
  refine ⟨s', r', w', hrun, ?_, ?_⟩
  · have := C31_partial h rfl (time_sampleWise _ _ _ 1 1 2) (rise_converges .deg "s") hdur (by norm_num)
      (by norm_num) (l := 0) (c := 0) (d := d) Nat.one_pos Nat.one_pos hd
      (Arr3.at_full _ Nat.one_pos Nat.one_pos hd)
      (fun t _ => time_curve _ _ _ Nat.one_pos Nat.one_pos hd t)
      (.inl ⟨log_mono rise_mono, fun t _ => rise_pos.le⟩)
    simpa using this
  · have := C31_violated h rfl (time_sampleWise _ _ _ 1 1 2) (rise_converges .deg "s") hdur (by norm_num)
      (by norm_num) (l := 0) (c := 0) (d := d) Nat.one_pos Nat.one_pos hd
      (Arr3.at_full _ Nat.one_pos Nat.one_pos hd)
      (fun t _ => time_curve _ _ _ Nat.one_pos Nat.one_pos hd t)
      (log_mono rise_mono) (fun t _ => rise_pos.le)
    simpa using this

/-! ## C33: the time unit -/

attribute [local instance] fieldArith in
theorem exMech_converges (kind : MechKind) :
    Converges (timeMech kind "s" exMech) (Arr3.full 1 1 2 (.fin (exMech 100))) [] [] 1 1 2 := by
  refine time_converges (R := fun u => (u - 2) * (u - 2)) 2 (fun q => ?_) (by decide +kernel)
    (by decide +kernel)
  have h100 : Real.logb 10 100 = 2 := by
    rw [show (100 : ℝ) = 10 ^ (2 : ℝ) by norm_num]
    exact logb_pow 2
  simp only [exMech]
  rw [logb_pow, h100, sub_self, zero_mul, zero_sub, abs_neg, abs_mul, abs_abs, abs_mul_abs_self]
  push_cast
  rfl

/-- C33 applies in seconds to devices that have seen 100 s: an hour takes them to `f (τ + 3600)`. -/
example (w : Counts) (d : Nat) (hd : d < 2) : ∃ s' r' w', simStress Ex.orderA
    (timeDev (timeMech .deg "s" exMech)) ⟨[], []⟩ (timeStep 3600000000) 0
    (timeState (exMech 100) 2, timeReport 2) w = (.ok (s', r'), w') ∧
    ∃ v, ∃ τ : ℝ, mechVal s' "vth" "m" = some v ∧ v.at' 0 0 d = .fin (exMech (τ + 3600)) ∧
      0 < τ ∧ |Real.logb 10 (τ / 100)| < 1 / 100000 := by
  obtain ⟨s', h⟩ := time_stressed (kind := .deg) (by decide) (unit := "s") (by decide)
    exMech (exMech 100) 2 (us := 3600000000) (by decide) w
  obtain ⟨r', w', hrun⟩ := h.run
  refine ⟨s', r', w', hrun, ?_⟩
  have hF : timeSecondFactor .seconds = 1 := rfl
  have := C33_deg_partial h rfl (time_sampleWise _ _ _ 1 1 2) (exMech_converges .deg) rfl (by norm_num)
    (u := .seconds) rfl (l := 0) (c := 0) (d := d) Nat.one_pos Nat.one_pos hd (f := exMech) (T := 100)
    (Arr3.at_full _ Nat.one_pos Nat.one_pos hd)
    (fun t _ => (time_curve _ _ _ Nat.one_pos Nat.one_pos hd t).trans (by rw [hF]; simp))
    (.inl exMech_mono) (by rw [hF]; norm_num) (by rw [hF]; norm_num) (by rw [hF]; norm_num)
  norm_num at this
  norm_num
  exact this

/-- C33 is violated in microseconds: three hours are 1.08e10 µs, nothing happens. -/
example (w : Counts) (F : ℝ → ℝ) (y : ℝ) (kind : MechKind) (hk : kind = .deg ∨ kind = .fail) (d : Nat)
    (hd : d < 2) : ∃ s' r' w', simStress Ex.orderA
    (timeDev (timeMech kind "us" F)) ⟨[], []⟩ (timeStep 10800000000) 0
    (timeState y 2, timeReport 2) w = (.ok (s', r'), w') ∧
    ∃ v, mechVal s' "vth" "m" = some v ∧ v.at' 0 0 d = .fin y := by
  obtain ⟨s', h⟩ := time_stressed (kind := kind) (by rcases hk with rfl | rfl <;> decide) (unit := "us")
    (by decide) F y 2 (us := 10800000000) (by decide) w
  obtain ⟨r', w', hrun⟩ := h.run
  refine ⟨s', r', w', hrun, ?_⟩
  have hdur : convertTime (timeStep 10800000000).duration (timeMech kind "us" F).timeUnit =
      .ok (.num 10800000000) := by
    show convertTime (.td 10800000000) (some "us") = _
    decide +kernel
  have hy : (Arr3.full 1 1 2 (Ext.fin y)).at' 0 0 d = .fin y := Arr3.at_full _ Nat.one_pos Nat.one_pos hd
  rcases hk with rfl | rfl
  · exact C33_deg_violated h rfl (time_sampleWise _ _ _ 1 1 2) hdur (by norm_num) (l := 0) (c := 0) (d := d)
      Nat.one_pos Nat.one_pos hd hy (fun t _ => time_curve _ _ _ Nat.one_pos Nat.one_pos hd t)
  · have := C33_fail_violated h rfl (time_sampleWise _ _ _ 1 1 2) hdur ?_ (l := 0) (c := 0) (d := d)
      Nat.one_pos Nat.one_pos hd (by rw [hy]; rfl)
    · rwa [hy] at this
    · show decide (((9000000000 : ℚ) : ℝ) < ((10800000000 : ℚ) : ℝ)) = true
      norm_num

/-- In seconds and in hours a failure mechanism gives a fresh sample the same value after three hours. -/
example (w : Counts) (G : ℝ → ℝ) (d : Nat) (hd : d < 2) : ∃ s₁ s₁' v v',
    (∃ r' w', simStress Ex.orderA (timeDev (timeMech .fail "s" G)) ⟨[], []⟩ (timeStep 10800000000) 0
      (timeState 0 2, timeReport 2) w = (.ok (s₁, r'), w')) ∧
    (∃ r' w', simStress Ex.orderA (timeDev (timeMech .fail "h" fun t => G (t * 3600))) ⟨[], []⟩
      (timeStep 10800000000) 0 (timeState 0 2, timeReport 2) w = (.ok (s₁', r'), w')) ∧
    mechVal s₁ "vth" "m" = some v ∧ mechVal s₁' "vth" "m" = some v' ∧ v.at' 0 0 d = v'.at' 0 0 d := by
  obtain ⟨s₁, h⟩ := time_stressed (kind := .fail) (by decide) (unit := "s") (by decide) G 0 2
    (us := 10800000000) (by decide) w
  obtain ⟨s₁', h'⟩ := time_stressed (kind := .fail) (by decide) (unit := "h") (by decide)
    (fun t => G (t * 3600)) 0 2 (us := 10800000000) (by decide) w
  have hx : convertTime (.td 10800000000) (some "s") = .ok (.num 10800) := by decide +kernel
  have hx' : convertTime (.td 10800000000) (some "h") = .ok (.num 3) := by decide +kernel
  have hy : (Arr3.full 1 1 2 (Ext.fin (0 : ℝ))).at' 0 0 d = .fin 0 :=
    Arr3.at_full _ Nat.one_pos Nat.one_pos hd
  have hz : PyArith.eq (Ext.fin (0 : ℝ)) (.fin 0) = true := by
    show decide ((0 : ℝ) = 0) = true
    simp
  obtain ⟨v, v', h1, h2, h3⟩ := C33_fail_partial h h' rfl rfl (time_sampleWise _ _ _ 1 1 2)
    (time_sampleWise _ _ _ 1 1 2) rfl hx hx'
    (by show decide (((9000000000 : ℚ) : ℝ) < ((10800 : ℚ) : ℝ)) = false; norm_num)
    (by show decide (((9000000000 : ℚ) : ℝ) < ((3 : ℚ) : ℝ)) = false; norm_num)
    (l := 0) (c := 0) (d := d) (l' := 0) (c' := 0) (d' := d) Nat.one_pos Nat.one_pos hd Nat.one_pos
    Nat.one_pos hd (by rw [hy]; exact hz) (by rw [hy]; exact hz) (by
      intro us y y' e e'
      have e1 : y = us / 1000000 / 1 := by
        have : convertTime (.td us) (some "s") = .ok (.num y) := e
        rw [show convertTime (.td us) (some "s") = .ok (.num (numOfTd .seconds us)) from rfl] at this
        cases this
        rfl
      have e2 : y' = us / 1000000 / 3600 := by
        have : convertTime (.td us) (some "h") = .ok (.num y') := e'
        cases this
        rfl
      show curve _ _ _ _ _ _ _ _ _ _ (Ext.fin (y : ℝ)) = curve _ _ _ _ _ _ _ _ _ _ (Ext.fin (y' : ℝ))
      refine (time_curve _ _ _ Nat.one_pos Nat.one_pos hd _).trans (Eq.trans ?_
        (time_curve _ _ _ Nat.one_pos Nat.one_pos hd _).symm)
      rw [e1, e2]
      congr 2
      push_cast
      ring)
  exact ⟨s₁, s₁', v, v', h.run, h'.run, h1, h2, h3⟩

end Gerabaldi.Props
