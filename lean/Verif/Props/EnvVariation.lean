import Verif.Model.CookbookMech
import Verif.Spec.EnvVariation
import Verif.Lemmas.Requests
import Verif.Props.Env

/-! # C93: the random variation of conditions -/

namespace Gerabaldi.Props
open Gerabaldi Spec MeasureTheory ProbabilityTheory

variable {N : Numpy} {ι α γ : Type}

/-- A loop that fills a dictionary. -/
theorem Uses.setLoop {g : α → M (Tapes N) γ} {key : α → String} {xs : List α} (hnd : (xs.map key).Nodup)
    {rs : α → List (Request ι)} {A : α → (ι → Nat → ℝ) → γ → Prop} (h : ∀ a ∈ xs, Uses (g a) (rs a) (A a)) :
    Uses (M.forIn' (fun (d : Dict γ) x => g x >>= fun v => Pure.pure (d.set (key x) v)) xs []) (xs.flatMap rs)
      (fun x (d : Dict γ) => ∀ a ∈ xs, ∃ v, d.get? (key a) = some v ∧ A a x v) := by
  refine Uses.forIn' (fun pre x (d : Dict γ) => ∀ a ∈ pre, ∃ v, d.get? (key a) = some v ∧ A a x v) (fun x a ha => by cases ha) ?_
  intro pre a post d e _ tape next x hx
  obtain ⟨v, e1, e2⟩ := h a (by rw [e]; simp) tape next x hx
  refine ⟨d.set (key a) v, by rw [M.bind_ok e1]; rfl, fun hp b hb => ?_⟩
  rcases List.mem_append.1 hb with hb | hb
  · obtain ⟨u, u1, u2⟩ := hp b hb
    refine ⟨u, ?_, u2⟩
    have hne : key b ≠ key a := by
      intro he
      rw [e, List.map_append, List.map_cons] at hnd
      exact (List.nodup_append.1 hnd).2.2 _ (List.mem_map_of_mem hb) _ List.mem_cons_self he
    rw [Dict.get?_set, if_neg (Ne.symm hne)]
    exact u1
  · rw [List.mem_singleton.1 hb]
    exact ⟨v, by rw [Dict.get?_set, if_pos rfl], e2⟩

theorem uses_genBatch {m : EnvVrtnMdl (Ext ℝ)} {f : ℝ → ℝ} (h : N.value m.batch.dist = some f) (a : ι) (b : Ext ℝ) :
    Uses (N := N) (m.genBatch b) [⟨a, m.batch, 1⟩] (fun x v => v = m.op b (.fin (x a 0))) := by
  intro tape next x hx
  obtain ⟨xs, e1, e2⟩ := Uses.sample h a 1 tape next x hx
  subst e2
  refine ⟨_, ?_, rfl⟩
  unfold EnvVrtnMdl.genBatch
  rw [M.bind_ok e1]
  rfl

theorem uses_genChp {m : EnvVrtnMdl (Ext ℝ)} {f : ℝ → ℝ} (h : N.value m.chp.dist = some f) (a : ι) (b : Ext ℝ)
    (C L : Nat) : Uses (N := N) (m.genChp b C L) [⟨a, m.chp, C * L⟩] (fun x v => v.HasDims L C 1 ∧
      ∀ l < L, ∀ c < C, v.at' l c 0 = m.op b (.fin (x a (l * C + c)))) := by
  intro tape next x hx
  obtain ⟨xs, e1, e2⟩ := Uses.sample h a (C * L) tape next x hx
  have hlen : xs.length = L * C * 1 := by
    rw [e2, List.length_map, List.length_range]
    ring
  have run : m.genChp b C L (⟨tape, next⟩ : Tapes N) = (.ok ((⟨L, C, 1, xs, hlen⟩ : Arr3 (Ext ℝ)).map fun y => m.op b y),
      ⟨tape, afterAll [⟨a, m.chp, C * L⟩] next⟩) := by
    unfold EnvVrtnMdl.genChp
    rw [M.bind_ok e1, Arr3.reshape_ok hlen]
    rfl
  obtain ⟨xs', s1, s2, s3, s4⟩ := genChp_ok run
  rw [e1] at s1
  cases s1
  refine ⟨_, run, s3, fun l hl c hc => ?_⟩
  obtain ⟨y, y1, y2⟩ := s4 l hl c hc
  rw [y2]
  have hi : l * C + c < C * L := by
    have := Arr3.index_lt (D := 1) (d := 0) hl hc Nat.zero_lt_one
    rw [Nat.mul_comm C L]
    omega
  rw [e2, List.getElem?_map, List.getElem?_range hi] at y1
  cases y1
  rfl

theorem uses_genDev {m : EnvVrtnMdl (Ext ℝ)} {f : ℝ → ℝ} (h : N.value m.dev.dist = some f) (a : ι) {b : Arr3 (Ext ℝ)}
    {L C : Nat} (hb : b.HasDims L C 1) (D : Nat) :
    Uses (N := N) (m.genDev b D) [⟨a, m.dev, D * (L * C)⟩] (fun x v => v.HasDims L C D ∧
      ∀ l < L, ∀ c < C, ∀ d < D, v.at' l c d = m.op (b.at' l c 0) (.fin (x a ((l * C + c) * D + d)))) := by
  intro tape next x hx
  obtain ⟨xs, e1, e2⟩ := Uses.sample h a (D * (L * C)) tape next x hx
  have hlen : xs.length = L * C * D := by
    rw [e2, List.length_map, List.length_range]
    ring
  have run : m.genDev b D (⟨tape, next⟩ : Tapes N) = (.ok (Arr3.ofFn L C D fun l c d => m.op (b.at' l c 0)
      ((⟨L, C, D, xs, hlen⟩ : Arr3 (Ext ℝ)).at' l c d)), ⟨tape, afterAll [⟨a, m.dev, D * (L * C)⟩] next⟩) := by
    unfold EnvVrtnMdl.genDev
    rw [hb.1, hb.2.1, M.bind_ok e1, Arr3.reshape_ok hlen]
    show M.ofExcept (Arr3.bcast2 m.op b _) _ = _
    rw [Arr3.bcast2_chp_left m.op b _ hb ⟨rfl, rfl, rfl⟩]
    rfl
  obtain ⟨xs', s1, s2, s3, s4⟩ := genDev_ok hb run
  rw [e1] at s1
  cases s1
  refine ⟨_, run, s3, fun l hl c hc d hd => ?_⟩
  obtain ⟨y, y1, y2⟩ := s4 l hl c hc d hd
  rw [y2]
  have hi : (l * C + c) * D + d < D * (L * C) := by
    have := Arr3.index_lt hl hc hd
    rw [Nat.mul_comm D]
    exact this
  rw [e2, List.getElem?_map, List.getElem?_range hi] at y1
  cases y1
  rfl

/-- The requests of a step. -/
inductive EnvLabel
  | batch (k : String)
  | chp (k : String)
  | dev (p k : String)
  | sensorChp (k : String)
  | sensorDev (k : String)
  deriving DecidableEq

section
variable (env : PhysTestEnv (Ext ℝ)) (ord : SetOrder) (conds : List String) (dm : DeviceMdl (Tapes N) (Ext ℝ))
  (target : Target) (L C : Nat) (D : String → Nat)

/-- The requests for batch and chips. -/
noncomputable def sharedReqs (k : String) : List (Request EnvLabel) :=
  [⟨.batch k, (env.vrtnMdl k).batch, 1⟩, ⟨.chp k, (env.vrtnMdl k).chp, C * L⟩]

/-- The requests for one parameter or sensor. -/
noncomputable def prmReqs (p : String) : List (Request EnvLabel) :=
  match dm.prms.get? p with
  | some pm => (pm.dependencies ord conds target).map fun k => ⟨.dev p k, (env.vrtnMdl k).dev, D p * (L * C)⟩
  | none => [⟨.sensorChp p, (env.vrtnMdl p).chp, D p * 1⟩, ⟨.sensorDev p, (env.vrtnMdl p).dev, 1 * (1 * D p)⟩]

end

section
variable {env : PhysTestEnv (Ext ℝ)} {ord : SetOrder} {dm : DeviceMdl (Tapes N) (Ext ℝ)}
  {target : Target} {L C : Nat} {D : String → Nat}

theorem uses_shared {k : String} {t : VType} {fb fc fd : ℝ → ℝ} (h : EnvLayers N (env.vrtnMdl k) t fb fc fd)
    (b : Ext ℝ) : Uses (N := N) (sharedOf env C L (k, b)) (sharedReqs env L C k) (fun x v => v.2.HasDims L C 1 ∧
      v.1 = (env.vrtnMdl k).op b (.fin (x (.batch k) 0)) ∧
      ∀ l < L, ∀ c < C, v.2.at' l c 0 = (env.vrtnMdl k).op v.1 (.fin (x (.chp k) (l * C + c)))) := by
  unfold sharedOf
  have h1 := uses_genBatch h.batch (EnvLabel.batch k) b
  refine (h1.bind (B := fun v x (w : Ext ℝ × Arr3 (Ext ℝ)) => w.1 = v ∧ w.2.HasDims L C 1 ∧ ∀ l < L, ∀ c < C, w.2.at' l c 0 =
    (env.vrtnMdl k).op v (.fin (x (.chp k) (l * C + c)))) (qs := [⟨.chp k, (env.vrtnMdl k).chp, C * L⟩])
    (fun v _ => ?_)).mono ?_
  · have h2 := uses_genChp h.chp (EnvLabel.chp k) v C L
    refine (h2.bind (fun a _ => Uses.pure (ι := EnvLabel) (v, a))).mono ?_
    rintro x w ⟨a, ⟨a1, a2⟩, rfl⟩
    exact ⟨rfl, a1, a2⟩
  · rintro x w ⟨v, w0, w1, w2, w3⟩
    rw [w1]
    exact ⟨w2, w0, w3⟩

theorem uses_depend {k p : String} {f : ℝ → ℝ} (h : N.value (env.vrtnMdl k).dev.dist = some f)
    {shared : Dict (Ext ℝ × Arr3 (Ext ℝ))} {b : Ext ℝ} {ch : Arr3 (Ext ℝ)} (hs : shared.get? k = some (b, ch))
    (hd : ch.HasDims L C 1) {counts : Dict Nat} (hc : counts.get? p = some (D p)) :
    Uses (N := N) (dependOf env shared counts p k) [⟨EnvLabel.dev p k, (env.vrtnMdl k).dev, D p * (L * C)⟩]
      (fun x a => a.HasDims L C (D p) ∧ ∀ l < L, ∀ c < C, ∀ d < D p, a.at' l c d =
        (env.vrtnMdl k).op (ch.at' l c 0) (.fin (x (.dev p k) ((l * C + c) * D p + d)))) := by
  have e1 : shared.getE k = .ok (b, ch) := Dict.getE_eq_ok.2 hs
  have e2 : counts.getE p = .ok (D p) := Dict.getE_eq_ok.2 hc
  have : dependOf env shared counts p k = ((env.vrtnMdl k).genDev ch (D p) : M (Tapes N) _) := by
    unfold dependOf
    rw [e1, e2]
    rfl
  rw [this]
  exact uses_genDev h (EnvLabel.dev p k) hd (D p)

theorem uses_sensor {k : String} {t : VType} {fb fc fd : ℝ → ℝ} (h : EnvLayers N (env.vrtnMdl k) t fb fc fd)
    {shared : Dict (Ext ℝ × Arr3 (Ext ℝ))} {b : Ext ℝ} {ch : Arr3 (Ext ℝ)} (hs : shared.get? k = some (b, ch))
    {counts : Dict Nat} (hc : counts.get? k = some (D k)) :
    Uses (N := N) (env.genSensor shared counts k) [⟨EnvLabel.sensorChp k, (env.vrtnMdl k).chp, D k * 1⟩,
        ⟨.sensorDev k, (env.vrtnMdl k).dev, 1 * (1 * D k)⟩]
      (fun x d => ∃ a, d = [(k, a)] ∧ a.HasDims 1 (D k) 1 ∧ ∀ i < D k, a.at' 0 i 0 =
        (env.vrtnMdl k).op ((env.vrtnMdl k).op b (.fin (x (.sensorChp k) i))) (.fin (x (.sensorDev k) i))) := by
  have e1 : shared.getE k = .ok (b, ch) := Dict.getE_eq_ok.2 hs
  have e2 : counts.getE k = .ok (D k) := Dict.getE_eq_ok.2 hc
  have : env.genSensor shared counts k = ((env.vrtnMdl k).genChp b (D k) 1 >>= fun s =>
      (env.vrtnMdl k).genDev s 1 >>= fun a => pure [(k, a)] : M (Tapes N) _) := by
    unfold PhysTestEnv.genSensor
    rw [e1, e2]
    rfl
  rw [this]
  have h1 := uses_genChp h.chp (EnvLabel.sensorChp k) b (D k) 1
  refine (h1.bind (B := fun s x d => ∃ a : Arr3 (Ext ℝ), d = [(k, a)] ∧ a.HasDims 1 (D k) 1 ∧ ∀ i < D k, a.at' 0 i 0 =
    (env.vrtnMdl k).op (s.at' 0 i 0) (.fin (x (.sensorDev k) i)))
    (qs := [⟨.sensorDev k, (env.vrtnMdl k).dev, 1 * (1 * D k)⟩]) (fun s hs => ?_)).mono ?_
  · obtain ⟨_, hs, _⟩ := hs
    refine ((uses_genDev h.dev (EnvLabel.sensorDev k) hs 1).bind (fun a _ => Uses.pure (ι := EnvLabel) [(k, a)])).mono ?_
    rintro x d ⟨a, ⟨a1, a2⟩, rfl⟩
    refine ⟨a, rfl, a1, fun i hi => ?_⟩
    have := a2 0 Nat.zero_lt_one i hi 0 Nat.zero_lt_one
    simpa using this
  · rintro x d ⟨s, ⟨s1, s2⟩, a, rfl, a1, a2⟩
    refine ⟨a, rfl, a1, fun i hi => ?_⟩
    rw [a2 i hi, s2 0 Nat.zero_lt_one i hi, Nat.zero_mul, Nat.zero_add]

/-- All requests. -/
noncomputable def envReqs (env : PhysTestEnv (Ext ℝ)) (ord : SetOrder) (base : Dict ℝ) (dm : DeviceMdl (Tapes N) (Ext ℝ))
    (target : Target) (prms : List String) (L C : Nat) (D : String → Nat) : List (Request EnvLabel) :=
  base.flatMap (fun kv => sharedReqs env L C kv.1) ++ prms.flatMap (prmReqs env ord base.keys dm target L C D)

/-- Finite conditions. -/
def finConds (base : Dict ℝ) : Dict (Ext ℝ) := base.map fun kv => (kv.1, .fin kv.2)

theorem finConds_keys (base : Dict ℝ) : (finConds base).keys = base.keys := by
  simp [finConds, Dict.keys, Function.comp_def]

/-- What the first loop leaves. -/
def SharedAre (env : PhysTestEnv (Ext ℝ)) (base : Dict ℝ) (L C : Nat) (x : EnvLabel → Nat → ℝ)
    (shared : Dict (Ext ℝ × Arr3 (Ext ℝ))) : Prop :=
  ∀ kv ∈ base, ∃ v, shared.get? kv.1 = some v ∧ v.2.HasDims L C 1 ∧
    v.1 = (env.vrtnMdl kv.1).op (.fin kv.2) (.fin (x (.batch kv.1) 0)) ∧
    ∀ l < L, ∀ c < C, v.2.at' l c 0 = (env.vrtnMdl kv.1).op v.1 (.fin (x (.chp kv.1) (l * C + c)))

/-- What the second loop leaves for one parameter or sensor. -/
def PrmIs (env : PhysTestEnv (Ext ℝ)) (ord : SetOrder) (conds : List String) (dm : DeviceMdl (Tapes N) (Ext ℝ))
    (target : Target) (L C : Nat) (D : String → Nat) (shared : Dict (Ext ℝ × Arr3 (Ext ℝ))) (p : String)
    (x : EnvLabel → Nat → ℝ) (d : Dict (Arr3 (Ext ℝ))) : Prop :=
  (∀ pm, dm.prms.get? p = some pm → ∀ k ∈ pm.dependencies ord conds target, ∃ a v, d.get? k = some a ∧
    shared.get? k = some v ∧ a.HasDims L C (D p) ∧ ∀ l < L, ∀ c < C, ∀ i < D p, a.at' l c i =
      (env.vrtnMdl k).op (v.2.at' l c 0) (.fin (x (.dev p k) ((l * C + c) * D p + i)))) ∧
  (dm.prms.get? p = none → ∃ a v, d = [(p, a)] ∧ shared.get? p = some v ∧ a.HasDims 1 (D p) 1 ∧
    ∀ i < D p, a.at' 0 i 0 =
      (env.vrtnMdl p).op ((env.vrtnMdl p).op v.1 (.fin (x (.sensorChp p) i))) (.fin (x (.sensorDev p) i)))

theorem uses_conds {base : Dict ℝ} (hb : base.Nodup) {t : String → VType} {fb fc fd : String → ℝ → ℝ}
    (hcfg : ∀ k ∈ base.keys, EnvLayers N (env.vrtnMdl k) (t k) (fb k) (fc k) (fd k)) {prms : PrmSel}
    {info : Option Quantities} {nc nl : Nat} (hL : (info.map (·.numLots)).getD nl = L)
    (hC : (info.map (·.numChps)).getD nc = C) {counts : Dict Nat} (hcounts : prms.devCounts info = .ok counts)
    (hnd : prms.toList.Nodup) (hn : ∀ p ∈ prms.toList, counts.get? p = some (D p))
    (hs : ∀ p ∈ prms.toList, dm.prms.get? p = none → p ∈ base.keys)
    (hsig : ∀ p m, dm.prms.get? p = some (.circ m) → m.compute.argNames.Nodup) :
    Uses (env.genEnvCondVals ord (finConds base) prms info (some dm) target nc nl)
      (envReqs env ord base dm target prms.toList L C D)
      (fun x r => ∃ shared, SharedAre env base L C x shared ∧ ∀ p ∈ prms.toList, ∃ d, r.get? p = some d ∧
        PrmIs env ord base.keys dm target L C D shared p x d) := by
  have hfin : base.flatMap (fun kv => sharedReqs env L C kv.1) =
      (finConds base).flatMap (fun kv => sharedReqs env L C kv.1) := by
    simp [finConds, List.flatMap_map]
  unfold PhysTestEnv.genEnvCondVals envReqs
  rw [genShared_eq, hfin, hcounts, finConds_keys, hL, hC]
  have h1 := Uses.setLoop (N := N) (g := sharedOf env C L)
    (key := fun kv : String × Ext ℝ => kv.1) (xs := finConds base)
    (by show (finConds base).keys.Nodup; rw [finConds_keys]; exact hb)
    (rs := fun kv => sharedReqs env L C kv.1)
    (fun kv hkv => by
      have hk : kv.1 ∈ base.keys := by
        rw [← finConds_keys]
        exact List.mem_map_of_mem hkv
      exact uses_shared (hcfg kv.1 hk) kv.2)
  refine (h1.bind (B := fun shared x r => ∀ p ∈ prms.toList, ∃ d, r.get? p = some d ∧
        PrmIs env ord base.keys dm target L C D shared p x d) (fun shared hsh => ?_)).mono (fun x r h => ?_)
  · obtain ⟨x0, hx0⟩ := hsh
    have hsh : ∀ k ∈ base.keys, ∃ v, shared.get? k = some v ∧ v.2.HasDims L C 1 := by
      intro k hk
      rw [← finConds_keys] at hk
      obtain ⟨kv, hkv, rfl⟩ := List.mem_map.1 hk
      obtain ⟨v, v1, v2, -⟩ := hx0 kv hkv
      exact ⟨v, v1, v2⟩
    show Uses (M.forIn' (env.genPrmStep ord (some dm) base.keys target shared counts) prms.toList []) _ _
    rw [genPrmStep_eq]
    refine Uses.setLoop (key := id) (by simpa using hnd) fun p hp => ?_
    unfold PhysTestEnv.genPrmConds prmReqs
    rw [show ((some dm).bind fun d => d.prms.get? p) = dm.prms.get? p from rfl]
    cases hpm : dm.prms.get? p with
    | none =>
      obtain ⟨v, v1, v2⟩ := hsh p (hs p hp hpm)
      refine (uses_sensor (hcfg p (hs p hp hpm)) (b := v.1) (ch := v.2) v1 (hn p hp)).mono ?_
      rintro x d ⟨a, a1, a2, a3⟩
      exact ⟨fun pm h => (by rw [hpm] at h; cases h), fun _ => ⟨a, v, a1, v1, a2, a3⟩⟩
    | some pm =>
      have hdn : (pm.dependencies ord base.keys target).Nodup := by
        cases pm with
        | deg d => exact ord.nodup _
        | circ m => exact (hsig p m hpm).filter _
      have hfm : ∀ ks : List String, (ks.map fun k => (⟨.dev p k, (env.vrtnMdl k).dev, D p * (L * C)⟩ : Request EnvLabel)) =
          ks.flatMap fun k => [⟨.dev p k, (env.vrtnMdl k).dev, D p * (L * C)⟩] := by
        intro ks
        induction ks with
        | nil => rfl
        | cons k ks ih => simp [List.flatMap_cons, ih]
      simp only [hfm]
      rw [genDepend_eq]
      refine (Uses.setLoop (key := id) (by simpa using hdn) (A := fun k x a => ∃ v, shared.get? k = some v ∧
        a.HasDims L C (D p) ∧ ∀ l < L, ∀ c < C, ∀ i < D p, a.at' l c i =
          (env.vrtnMdl k).op (v.2.at' l c 0) (.fin (x (.dev p k) ((l * C + c) * D p + i)))) fun k hk => ?_).mono ?_
      · have hk' := ((mem_dependencies ord pm base.keys target k).1 hk).1
        obtain ⟨v, v1, v2⟩ := hsh k hk'
        refine (uses_depend (hcfg k hk').dev (b := v.1) (ch := v.2) v1 v2 (hn p hp)).mono ?_
        rintro x a ⟨a1, a2⟩
        exact ⟨v, v1, a1, a2⟩
      · intro x d h
        refine ⟨fun pm' e k hk => ?_, fun e => (by rw [hpm] at e; cases e)⟩
        rw [hpm] at e
        cases e
        obtain ⟨a, a1, v, a2⟩ := h k hk
        exact ⟨a, v, a1, a2⟩
  · obtain ⟨shared, g1, g2⟩ := h
    refine ⟨shared, ?_, g2⟩
    intro kv hkv
    exact g1 (kv.1, .fin kv.2) (List.mem_map.2 ⟨kv, hkv, rfl⟩)

/-- Label and number of a part. -/
def EnvPart.spot (D : String → Nat) : EnvPart L C → EnvLabel × Nat
  | .batch k => (.batch k, 0)
  | .chp k l c => (.chp k, l * C + c)
  | .dev p k l c d => (.dev p k, (l * C + c) * D p + d)
  | .sensorChp k i => (.sensorChp k, i)
  | .sensorDev k i => (.sensorDev k, i)

theorem spot_inj {conds : List String} {Needs : String → String → Prop} {Sensor : String → Prop} {k k' : EnvPart L C}
    (h : k.Used conds Needs Sensor D) (h' : k'.Used conds Needs Sensor D) (e : EnvPart.spot D k = EnvPart.spot D k') :
    k = k' := by
  cases k <;> cases k' <;> simp only [EnvPart.spot, Prod.mk.injEq, reduceCtorEq, false_and, EnvLabel.batch.injEq,
    EnvLabel.chp.injEq, EnvLabel.dev.injEq, EnvLabel.sensorChp.injEq, EnvLabel.sensorDev.injEq] at e
  · rw [e.1]
  · rename_i a l c a' l' c'
    obtain ⟨rfl, e⟩ := e
    obtain ⟨e1, e2⟩ := pair_inj c.2 c'.2 e
    rw [Fin.ext e1, Fin.ext e2]
  · rename_i p a l c d p' a' l' c' d'
    obtain ⟨⟨rfl, rfl⟩, e⟩ := e
    obtain ⟨e1, e2⟩ := pair_inj h.2.2 h'.2.2 e
    obtain ⟨e3, e4⟩ := pair_inj c.2 c'.2 e1
    rw [Fin.ext e3, Fin.ext e4, e2]
  · rw [e.1, e.2]
  · rw [e.1, e.2]

theorem spot_mem {base : Dict ℝ} {prms : List String} {k : EnvPart L C}
    (h : k.Used base.keys (Exposed dm prms target) (IsSensor dm prms) D) :
    ∃ r ∈ envReqs env ord base dm target prms L C D, r.label = (EnvPart.spot D k).1 ∧ (EnvPart.spot D k).2 < r.size ∧
      r.var = match k with
        | .batch k => (env.vrtnMdl k).batch
        | .chp k _ _ => (env.vrtnMdl k).chp
        | .dev _ k _ _ _ => (env.vrtnMdl k).dev
        | .sensorChp k _ => (env.vrtnMdl k).chp
        | .sensorDev k _ => (env.vrtnMdl k).dev := by
  unfold envReqs
  cases k with
  | batch k =>
    obtain ⟨kv, hkv, rfl⟩ := List.mem_map.1 h
    exact ⟨⟨.batch kv.1, (env.vrtnMdl kv.1).batch, 1⟩, List.mem_append_left _ (List.mem_flatMap.2 ⟨kv, hkv, by simp [sharedReqs]⟩),
      rfl, Nat.zero_lt_one, rfl⟩
  | chp k l c =>
    obtain ⟨kv, hkv, rfl⟩ := List.mem_map.1 h
    refine ⟨⟨.chp kv.1, (env.vrtnMdl kv.1).chp, C * L⟩, List.mem_append_left _ (List.mem_flatMap.2 ⟨kv, hkv, by simp [sharedReqs]⟩),
      rfl, ?_, rfl⟩
    have := Arr3.index_lt (D := 1) (d := 0) l.2 c.2 Nat.zero_lt_one
    show l.1 * C + c.1 < C * L
    rw [Nat.mul_comm C L]
    omega
  | dev p k l c d =>
    obtain ⟨h1, ⟨h2, pm, h3, h4⟩, h5⟩ := h
    refine ⟨⟨.dev p k, (env.vrtnMdl k).dev, D p * (L * C)⟩, List.mem_append_right _ (List.mem_flatMap.2 ⟨p, h2, ?_⟩),
      rfl, ?_, rfl⟩
    · unfold prmReqs
      rw [h3]
      exact List.mem_map.2 ⟨k, (mem_dependencies ord pm base.keys target k).2 ⟨h1, h4⟩, rfl⟩
    · show (l.1 * C + c.1) * D p + d < D p * (L * C)
      rw [Nat.mul_comm (D p)]
      exact Arr3.index_lt l.2 c.2 h5
  | sensorChp k i =>
    obtain ⟨h1, ⟨h2, h3⟩, h4⟩ := h
    refine ⟨⟨.sensorChp k, (env.vrtnMdl k).chp, D k * 1⟩, List.mem_append_right _ (List.mem_flatMap.2 ⟨k, h2, ?_⟩),
      rfl, ?_, rfl⟩
    · unfold prmReqs
      rw [h3]
      simp
    · show i < D k * 1
      omega
  | sensorDev k i =>
    obtain ⟨h1, ⟨h2, h3⟩, h4⟩ := h
    refine ⟨⟨.sensorDev k, (env.vrtnMdl k).dev, 1 * (1 * D k)⟩, List.mem_append_right _ (List.mem_flatMap.2 ⟨k, h2, ?_⟩),
      rfl, ?_, rfl⟩
    · unfold prmReqs
      rw [h3]
      simp
    · show i < 1 * (1 * D k)
      omega

theorem prmReqs_label {conds : List String} {p : String} {r : Request EnvLabel}
    (h : r ∈ prmReqs env ord conds dm target L C D p) :
    (∃ k, r.label = .dev p k) ∨ r.label = .sensorChp p ∨ r.label = .sensorDev p := by
  unfold prmReqs at h
  split at h
  · obtain ⟨k, -, rfl⟩ := List.mem_map.1 h
    exact .inl ⟨k, rfl⟩
  · simp only [List.mem_cons, List.not_mem_nil, or_false] at h
    rcases h with rfl | rfl
    · exact .inr (.inl rfl)
    · exact .inr (.inr rfl)

theorem envReqs_nodup {base : Dict ℝ} (hb : base.Nodup) {prms : List String} (hnd : prms.Nodup)
    (hsig : ∀ p m, dm.prms.get? p = some (.circ m) → m.compute.argNames.Nodup) :
    ((envReqs env ord base dm target prms L C D).map (·.label)).Nodup := by
  unfold envReqs
  rw [List.map_append, List.nodup_append, List.map_flatMap, List.map_flatMap]
  refine ⟨?_, ?_, ?_⟩
  · rw [List.nodup_flatMap]
    refine ⟨fun kv _ => by simp [sharedReqs], ?_⟩
    have hb' : base.Pairwise fun a b => a.1 ≠ b.1 := by
      have : (base.map (·.1)).Pairwise (· ≠ ·) := hb
      exact List.pairwise_map.1 this
    refine hb'.imp fun {a b} hab => ?_
    simp [Function.onFun, sharedReqs, List.disjoint_left, hab]
  · rw [List.nodup_flatMap]
    constructor
    · intro p hp
      unfold prmReqs
      cases hpm : dm.prms.get? p with
      | none => simp
      | some pm =>
        have hdn : (pm.dependencies ord base.keys target).Nodup := by
          cases pm with
          | deg d => exact ord.nodup _
          | circ m => exact (hsig p m hpm).filter _
        rw [List.map_map]
        exact hdn.map fun a b e => by simpa using e
    · refine hnd.imp fun {a b} hab => ?_
      simp only [Function.onFun, List.disjoint_left]
      intro l hl hl'
      obtain ⟨r, hr, rfl⟩ := List.mem_map.1 hl
      obtain ⟨r', hr', e⟩ := List.mem_map.1 hl'
      rcases prmReqs_label hr with ⟨k, h1⟩ | h1 | h1 <;> rcases prmReqs_label hr' with ⟨k', h2⟩ | h2 | h2 <;>
        rw [h1, h2] at e <;> simp at e <;> first | exact hab e.1.symm | exact hab e.symm
  · intro l hl l' hl' e
    obtain ⟨kv, -, h1⟩ := List.mem_flatMap.1 hl
    obtain ⟨p, -, h2⟩ := List.mem_flatMap.1 hl'
    obtain ⟨r', hr', rfl⟩ := List.mem_map.1 h2
    simp only [sharedReqs, List.map_cons, List.map_nil, List.mem_cons, List.not_mem_nil, or_false] at h1
    rcases h1 with rfl | rfl <;> rcases prmReqs_label hr' with ⟨k', h2⟩ | h2 | h2 <;> rw [h2] at e <;> cases e

end

section
variable {env : PhysTestEnv (Ext ℝ)} {ord : SetOrder} {base : Dict ℝ} {t : String → VType} {fb fc fd : String → ℝ → ℝ}
  {dm : DeviceMdl (Tapes N) (Ext ℝ)} {prms : PrmSel} {info : Option Quantities} {target : Target} {nc nl L C : Nat}
  {D : String → Nat} (step : EnvStep N env base t fb fc fd dm prms info nc nl L C D)
include step

/-- All requests of a step are for finite distributions. -/
theorem envReqs_value : ∀ r ∈ envReqs env ord base dm target prms.toList L C D, ∃ f, N.value r.var.dist = some f := by
  obtain ⟨hb, hcfg, hsig, hL, hC, hnd, ⟨counts, hcounts, hn⟩, hs⟩ := step
  intro r hr
  rcases List.mem_append.1 hr with hr | hr
  · obtain ⟨kv, hkv, hr⟩ := List.mem_flatMap.1 hr
    have h := hcfg kv.1 (List.mem_map_of_mem hkv)
    simp only [sharedReqs, List.mem_cons, List.not_mem_nil, or_false] at hr
    rcases hr with rfl | rfl
    · exact ⟨_, h.batch⟩
    · exact ⟨_, h.chp⟩
  · obtain ⟨p, hp, hr⟩ := List.mem_flatMap.1 hr
    unfold prmReqs at hr
    cases hpm : dm.prms.get? p with
    | none =>
      have h := hcfg p (hs p ⟨hp, hpm⟩)
      rw [hpm] at hr
      simp only [List.mem_cons, List.not_mem_nil, or_false] at hr
      rcases hr with rfl | rfl
      · exact ⟨_, h.chp⟩
      · exact ⟨_, h.dev⟩
    | some pm =>
      rw [hpm] at hr
      obtain ⟨k, hk, rfl⟩ := List.mem_map.1 hr
      exact ⟨_, (hcfg k ((mem_dependencies ord pm base.keys target k).1 hk).1).dev⟩

/-- The request of a part of a step. -/
theorem spot_request {k : EnvPart L C} (hk : k.Used base.keys (Exposed dm prms.toList target) (IsSensor dm prms.toList) D) :
    ∃ r ∈ envReqs env ord base dm target prms.toList L C D, r.label = (EnvPart.spot D k).1 ∧ (EnvPart.spot D k).2 < r.size ∧
      N.value r.var.dist = some (k.layer fb fc fd) := by
  have hcfg := step.layers
  obtain ⟨r, r1, r2, r3, r4⟩ := spot_mem (env := env) (ord := ord) hk
  refine ⟨r, r1, r2, r3, ?_⟩
  rw [r4]
  cases k with
  | batch k => exact (hcfg k hk).batch
  | chp k _ _ => exact (hcfg k hk).chp
  | dev _ k _ _ _ => exact (hcfg k hk.1).dev
  | sensorChp k _ => exact (hcfg k hk.1).chp
  | sensorDev k _ => exact (hcfg k hk.1).dev

/-- The conditions of a step from the numbers it draws. -/
theorem uses_conditions : Uses (env.genEnvCondVals ord (finConds base) prms info (some dm) target nc nl)
    (envReqs env ord base dm target prms.toList L C D)
    (fun x r => ConditionsAre dm prms.toList target base D t
      (fun k : EnvPart L C => x (EnvPart.spot D k).1 (EnvPart.spot D k).2) r) := by
  obtain ⟨hb, hcfg, hsig, hL, hC, hnd, ⟨counts, hcounts, hn⟩, hs⟩ := step
  have hU := uses_conds (ord := ord) (target := target) hb hcfg hL hC hcounts hnd hn (fun p h1 h2 => hs p ⟨h1, h2⟩) hsig
  intro tape next x hx
  obtain ⟨r, e1, shared, e2, e3⟩ := hU tape next x hx
  refine ⟨r, e1, ?_, ?_⟩
  · intro p k b hk ⟨h1, pm, h2, h3⟩
    have hkm := Dict.mem_keys_of_get? hk
    obtain ⟨d, d1, d2, -⟩ := e3 p h1
    obtain ⟨a, v, a1, a2, a3, a4⟩ := d2 pm h2 k ((mem_dependencies ord pm base.keys target k).2 ⟨hkm, h3⟩)
    obtain ⟨v', v1, v2, v3, v4⟩ := e2 (k, b) (Dict.mem_of_get? hk)
    rw [a2] at v1
    cases v1
    refine ⟨a, ?_, a3, ?_⟩
    · unfold condOf
      rw [d1]
      exact a1
    · intro l c i hi
      rw [a4 l l.2 c c.2 i hi, v4 l l.2 c c.2, v3]
      simp only [EnvVrtnMdl.op, (hcfg k hkm).type]
      cases t k <;> rfl
  · intro k b hk ⟨h1, h2⟩
    have hkm := Dict.mem_keys_of_get? hk
    obtain ⟨d, d1, -, d2⟩ := e3 k h1
    obtain ⟨a, v, a1, a2, a3, a4⟩ := d2 h2
    obtain ⟨v', v1, v2, v3, v4⟩ := e2 (k, b) (Dict.mem_of_get? hk)
    rw [a2] at v1
    cases v1
    refine ⟨a, ?_, a3, ?_⟩
    · unfold condOf
      rw [d1, a1]
      simp [Dict.get?]
    · intro i hi
      rw [a4 i hi, v3]
      simp only [EnvVrtnMdl.op, (hcfg k hkm).type]
      cases t k <;> rfl

end

section
variable {Ω : Type} [MeasurableSpace Ω] {P : Measure Ω} {P₀ : Measure ℝ} {raw : Nat → Nat → Ω → ℝ}

/-- **C93**: with ideal generators, the conditions of a step are made of independent contributions: one for the
batch, one for every chip, one for every device of every parameter and every sensor, for each condition, each with
the distribution of its layer in the variation model of that condition - also if the models share random
variables. -/
theorem C93_conditions (hN : N.Correct P₀) (hr : Standard P P₀ raw) {env : PhysTestEnv (Ext ℝ)} (ord : SetOrder)
    {base : Dict ℝ} {t : String → VType} {fb fc fd : String → ℝ → ℝ} {dm : DeviceMdl (Tapes N) (Ext ℝ)}
    {prms : PrmSel} {info : Option Quantities} (target : Target) {nc nl L C : Nat} {D : String → Nat}
    (step : EnvStep N env base t fb fc fd dm prms info nc nl L C D) (next : Nat → Nat) :
    ∃ X : EnvPart L C → Ω → ℝ,
      iIndepFun (fun k : {k : EnvPart L C // k.Used base.keys (Exposed dm prms.toList target)
        (IsSensor dm prms.toList) D} => X k.1) P ∧
      (∀ k, Measurable (X k)) ∧
      (∀ k : EnvPart L C, k.Used base.keys (Exposed dm prms.toList target) (IsSensor dm prms.toList) D →
        P.map (X k) = P₀.map (k.layer fb fc fd)) ∧
      ∀ ω, ∃ r w', env.genEnvCondVals ord (base.map fun kv => (kv.1, .fin kv.2)) prms info (some dm) target nc nl
          (⟨fun i j => raw i j ω, next⟩ : Tapes N) = (.ok r, w') ∧
        ConditionsAre dm prms.toList target base D t (fun k => X k ω) r := by
  have hl := envReqs_nodup (env := env) (ord := ord) (target := target) (L := L) (C := C) (D := D) step.conds step.names
    step.args
  obtain ⟨X, x1, x2, x3, x4⟩ := requests_independent hN hr hl (envReqs_value step) next
  refine ⟨fun k => X (EnvPart.spot D k).1 (EnvPart.spot D k).2, ?_, fun k => x2 _ _, ?_, ?_⟩
  · have hinj : Function.Injective (fun k : {k : EnvPart L C // k.Used base.keys (Exposed dm prms.toList target)
        (IsSensor dm prms.toList) D} => (⟨EnvPart.spot D k.1, by
          obtain ⟨r, r1, r2, r3, -⟩ := spot_mem (env := env) (ord := ord) k.2
          exact ⟨r, r1, r2, r3⟩⟩ : {p : EnvLabel × Nat // ∃ r ∈ envReqs env ord base dm target prms.toList L C D,
            r.label = p.1 ∧ p.2 < r.size})) := by
      intro k k' e
      exact Subtype.ext (spot_inj k.2 k'.2 (congrArg Subtype.val e))
    exact x1.precomp hinj
  · intro k hk
    obtain ⟨r, r1, r2, -, r4⟩ := spot_request (ord := ord) step hk
    have := x3 r r1 _ r4 (EnvPart.spot D k).2
    rw [r2] at this
    exact this
  · intro ω
    obtain ⟨r, e1, e2⟩ := uses_conditions step _ next _ (x4 ω)
    exact ⟨r, _, e1, e2⟩

variable (hN : N.Correct P₀) (hr : Standard P P₀ raw) {env : PhysTestEnv (Ext ℝ)} {ord : SetOrder}
  {base : Dict ℝ} {t : String → VType} {fb fc fd : String → ℝ → ℝ} {dm : DeviceMdl (Tapes N) (Ext ℝ)}
  {prms : PrmSel} {info : Option Quantities} {target : Target} {nc nl L C : Nat} {D : String → Nat}
  (step : EnvStep N env base t fb fc fd dm prms info nc nl L C D) {next : Nat → Nat}

include hN hr step

/-- There always are such values. -/
theorem C93_values {p k : String} (hk : k ∈ base.keys) (hp : Exposed dm prms.toList target p k) (l : Fin L) (c : Fin C)
    {d : Nat} (hd : d < D p) :
    ∃ Y, Measurable Y ∧ RandomCondition raw next env ord base dm prms info target nc nl p k l c d Y := by
  obtain ⟨X, -, h2, -, h4⟩ := C93_conditions hN hr ord target step next
  obtain ⟨b, hb⟩ : ∃ b, base.get? k = some b := by
    cases h : base.get? k with
    | none => exact absurd hk ((Dict.get?_eq_none_iff base k).1 h)
    | some b => exact ⟨b, rfl⟩
  refine ⟨fun ω => envValue (t k) b (X (.batch k) ω) (X (.chp k l c) ω) (X (.dev p k l c d) ω), ?_, fun ω => ?_⟩
  · have := h2 (.batch k)
    have := h2 (.chp k l c)
    have := h2 (.dev p k l c d)
    unfold envValue
    cases t k <;> simp only <;> fun_prop
  · obtain ⟨r, w', e1, e2, -⟩ := h4 ω
    obtain ⟨a, a1, a2, a3⟩ := e2 p k b hb hp
    exact ⟨r, w', a, e1, a1, a3 l c d hd⟩

omit hN hr step [MeasurableSpace Ω] in
private theorem condition_eq {x : EnvPart L C → Ω → ℝ}
    (h : ∀ ω, ∃ r w', env.genEnvCondVals ord (base.map fun kv => (kv.1, .fin kv.2)) prms info (some dm) target nc nl
          (⟨fun i j => raw i j ω, next⟩ : Tapes N) = (.ok r, w') ∧
        ConditionsAre dm prms.toList target base D t (fun k => x k ω) r) {p k : String} {b : ℝ}
    (hk : base.get? k = some b) (hp : Exposed dm prms.toList target p k) {l : Fin L} {c : Fin C} {d : Nat}
    (hd : d < D p) {Y : Ω → ℝ} (hY : RandomCondition raw next env ord base dm prms info target nc nl p k l c d Y) :
    Y = fun ω => envValue (t k) b (x (.batch k) ω) (x (.chp k l c) ω) (x (.dev p k l c d) ω) := by
  funext ω
  obtain ⟨r, w', e1, e2, -⟩ := h ω
  obtain ⟨r', w'', a', e3, e4, e5⟩ := hY ω
  rw [e1] at e3
  cases e3
  obtain ⟨a, a1, a2, a3⟩ := e2 p k b hk hp
  rw [a1] at e4
  cases e4
  exact Ext.fin.inj (e5.symm.trans (a3 l c d hd))

/-- Different conditions of a step vary independently, for whatever devices. -/
theorem C93_separate {k k' : String} (hne : k ≠ k') (hk : k ∈ base.keys) (hk' : k' ∈ base.keys) {p p' : String}
    (hp : Exposed dm prms.toList target p k) (hp' : Exposed dm prms.toList target p' k') {l l' : Fin L} {c c' : Fin C}
    {d d' : Nat} (hd : d < D p) (hd' : d' < D p') {Y Y' : Ω → ℝ}
    (hY : RandomCondition raw next env ord base dm prms info target nc nl p k l c d Y)
    (hY' : RandomCondition raw next env ord base dm prms info target nc nl p' k' l' c' d' Y') : IndepFun Y Y' P := by
  obtain ⟨X, h1, h2, -, h4⟩ := C93_conditions hN hr ord target step next
  have get : ∀ {k}, k ∈ base.keys → ∃ b, base.get? k = some b := by
    intro k hk
    cases h : base.get? k with
    | none => exact absurd hk ((Dict.get?_eq_none_iff base k).1 h)
    | some b => exact ⟨b, rfl⟩
  obtain ⟨b, hb⟩ := get hk
  obtain ⟨b', hb'⟩ := get hk'
  rw [condition_eq h4 hb hp hd hY, condition_eq h4 hb' hp' hd' hY']
  classical
  let U := {k : EnvPart L C // k.Used base.keys (Exposed dm prms.toList target) (IsSensor dm prms.toList) D}
  let u1 : U := ⟨.batch k, hk⟩
  let u2 : U := ⟨.chp k l c, hk⟩
  let u3 : U := ⟨.dev p k l c d, hk, hp, hd⟩
  let v1 : U := ⟨.batch k', hk'⟩
  let v2 : U := ⟨.chp k' l' c', hk'⟩
  let v3 : U := ⟨.dev p' k' l' c' d', hk', hp', hd'⟩
  let S : Finset U := {u1, u2, u3}
  let S' : Finset U := {v1, v2, v3}
  have hS : Disjoint S S' := by
    rw [Finset.disjoint_left]
    intro z hz hz'
    simp only [S, S', Finset.mem_insert, Finset.mem_singleton] at hz hz'
    rcases hz with rfl | rfl | rfl <;> rcases hz' with h | h | h <;>
      have := congrArg Subtype.val h <;> simp [u1, u2, u3, v1, v2, v3, hne] at this
  have ind := h1.indepFun_finset S S' hS (fun z => h2 z.1)
  have g : Measurable fun x : S → ℝ => envValue (t k) b (x ⟨u1, by simp [S]⟩) (x ⟨u2, by simp [S]⟩) (x ⟨u3, by simp [S]⟩) := by
    unfold envValue
    cases t k <;> simp only <;> fun_prop
  have g' : Measurable fun x : S' → ℝ =>
      envValue (t k') b' (x ⟨v1, by simp [S']⟩) (x ⟨v2, by simp [S']⟩) (x ⟨v3, by simp [S']⟩) := by
    unfold envValue
    cases t k' <;> simp only <;> fun_prop
  exact ind.comp g g'

/-- Additive normal variation of a condition: every device gets a normally distributed value around what is asked
for, and two devices have in common the variation of the batch and, on the same chip, of the chip. -/
theorem C93_normal {k : String} {b : ℝ} (hk : base.get? k = some b) (hoff : t k = .offset) {mb mc md : ℝ}
    {sb sc sd : NNReal} (nb : NormalLayer (env.vrtnMdl k).batch mb sb) (nc' : NormalLayer (env.vrtnMdl k).chp mc sc)
    (nd : NormalLayer (env.vrtnMdl k).dev md sd) {p p' : String} (hp : Exposed dm prms.toList target p k)
    (hp' : Exposed dm prms.toList target p' k) {l l' : Fin L} {c c' : Fin C} {d d' : Nat} (hd : d < D p)
    (hd' : d' < D p') {Y Y' : Ω → ℝ} (hY : RandomCondition raw next env ord base dm prms info target nc nl p k l c d Y)
    (hY' : RandomCondition raw next env ord base dm prms info target nc nl p' k l' c' d' Y') :
    P.map Y = gaussianReal (b + mb + mc + md) (sb ^ 2 + sc ^ 2 + sd ^ 2) ∧
    cov[Y, Y'; P] = (sb : ℝ) ^ 2 + (if l = l' ∧ c = c' then (sc : ℝ) ^ 2 else 0) +
      (if p = p' ∧ l = l' ∧ c = c' ∧ d = d' then (sd : ℝ) ^ 2 else 0) := by
  have hkm := Dict.mem_keys_of_get? hk
  obtain ⟨X, h1, h2, h3, h4⟩ := C93_conditions hN hr ord target step next
  have hP₀ : IsProbabilityMeasure P₀ := by
    rw [← hr.law 0 0]
    have := hr.indep.isProbabilityMeasure
    exact Measure.isProbabilityMeasure_map (hr.meas 0 0).aemeasurable
  have layer : ∀ {r : RVar (Ext ℝ)} {m : ℝ} {s : NNReal} {f : ℝ → ℝ}, NormalLayer r m s → N.value r.dist = some f →
      P₀.map f = gaussianReal m (s ^ 2) := by
    intro r m s f h hf
    rcases h with h | ⟨h, rfl⟩ <;> rw [h] at hf <;> cases hf
    · exact hN.gaussian m s
    · rw [zero_pow two_ne_zero, gaussianReal_zero_var, Measure.map_const, measure_univ, one_smul]
  have lay := step.layers k hkm
  have gb := layer nb lay.batch
  have gc := layer nc' lay.chp
  have gd := layer nd lay.dev
  have ub : (EnvPart.batch k : EnvPart L C).Used base.keys (Exposed dm prms.toList target) (IsSensor dm prms.toList) D := hkm
  have uc : ∀ l c, (EnvPart.chp k l c : EnvPart L C).Used base.keys (Exposed dm prms.toList target)
    (IsSensor dm prms.toList) D := fun _ _ => hkm
  have ud : ∀ l c, ∀ {p d}, Exposed dm prms.toList target p k → d < D p → (EnvPart.dev p k l c d : EnvPart L C).Used
    base.keys (Exposed dm prms.toList target) (IsSensor dm prms.toList) D := fun _ _ _ _ h1 h2 => ⟨hkm, h1, h2⟩
  have ind : ∀ {i j : EnvPart L C}, i.Used base.keys (Exposed dm prms.toList target) (IsSensor dm prms.toList) D →
      j.Used base.keys (Exposed dm prms.toList target) (IsSensor dm prms.toList) D → i ≠ j → IndepFun (X i) (X j) P := by
    intro i j hi hj hij
    exact h1.indepFun (i := ⟨i, hi⟩) (j := ⟨j, hj⟩) (fun e => hij (congrArg Subtype.val e))
  have lb : P.map (X (.batch k)) = gaussianReal mb (sb ^ 2) := (h3 _ ub).trans gb
  have lc : ∀ l c, P.map (X (.chp k l c)) = gaussianReal mc (sc ^ 2) := fun l c => (h3 _ (uc l c)).trans gc
  have ld : ∀ l c, ∀ {p d}, Exposed dm prms.toList target p k → d < D p → P.map (X (.dev p k l c d)) =
    gaussianReal md (sd ^ 2) := fun l c _ _ h1 h2 => (h3 _ (ud l c h1 h2)).trans gd
  have hy := condition_eq h4 hk hp hd hY
  have hy' := condition_eq h4 hk hp' hd' hY'
  have shape : ∀ p l c d, (fun ω => envValue (t k) b (X (.batch k) ω) (X (.chp k l c) ω) (X (.dev p k l c d) ω)) =
      fun ω => b + (X (.batch k) + X (.chp k l c) + X (.dev p k l c d)) ω := by
    intro p l c d
    funext ω
    rw [hoff]
    simp only [envValue, Pi.add_apply]
    ring
  rw [shape] at hy hy'
  have mem : ∀ {Z : Ω → ℝ} {m : ℝ} {v : NNReal}, Measurable Z → P.map Z = gaussianReal m v →
      MemLp Z 2 P ∧ Var[Z; P] = v := by
    intro f m v hf h
    constructor
    · have : MemLp id 2 (P.map f) := by
        rw [h]
        exact memLp_id_gaussianReal 2
      exact (memLp_map_measure_iff aestronglyMeasurable_id hf.aemeasurable).1 this
    · have e := variance_map (X := id) (μ := P) (Y := f) aemeasurable_id hf.aemeasurable
      rw [h, variance_id_gaussianReal] at e
      exact e.symm
  have := hr.indep.isProbabilityMeasure
  constructor
  · have a1 := gaussianReal_add_gaussianReal_of_indepFun (ind ub (uc l c) (by simp)) lb (lc l c)
    have i2 : IndepFun (X (.batch k) + X (.chp k l c)) (X (.dev p k l c d)) P :=
      h1.indepFun_add_left (fun z => h2 z.1) ⟨_, ub⟩ ⟨_, uc l c⟩ ⟨_, ud l c hp hd⟩
        (fun e => by have := congrArg Subtype.val e; simp at this)
        (fun e => by have := congrArg Subtype.val e; simp at this)
    have a2 := gaussianReal_add_gaussianReal_of_indepFun i2 a1 (ld l c hp hd)
    have hm : Measurable (X (.batch k) + X (.chp k l c) + X (.dev p k l c d)) := ((h2 _).add (h2 _)).add (h2 _)
    have : Y = (fun x => b + x) ∘ (X (.batch k) + X (.chp k l c) + X (.dev p k l c d)) := hy
    rw [this, ← Measure.map_map (by fun_prop) hm, a2, gaussianReal_map_const_add]
    congr 1
    ring
  · have mB := (mem (h2 _) lb).1
    have mC := fun l c => (mem (h2 _) (lc l c)).1
    have mD := (mem (h2 _) (ld l c hp hd)).1
    have mD' := (mem (h2 _) (ld l' c' hp' hd')).1
    have i1 : Integrable (X (.batch k) + X (.chp k l c) + X (.dev p k l c d)) P :=
      ((mB.add (mC l c)).add mD).integrable (by norm_num)
    have i2 : Integrable (X (.batch k) + X (.chp k l' c') + X (.dev p' k l' c' d')) P :=
      ((mB.add (mC l' c')).add mD').integrable (by norm_num)
    have z := fun {i j : EnvPart L C} (hi : i.Used base.keys (Exposed dm prms.toList target) (IsSensor dm prms.toList) D)
      (hj : j.Used base.keys (Exposed dm prms.toList target) (IsSensor dm prms.toList) D) (hij : i ≠ j)
      (mi : MemLp (X i) 2 P) (mj : MemLp (X j) 2 P) => (ind hi hj hij).covariance_eq_zero mi mj
    have cBB : cov[X (.batch k), X (.batch k); P] = (sb : ℝ) ^ 2 := by
      rw [covariance_self (h2 _).aemeasurable, (mem (h2 _) lb).2]
      simp
    have cCC : cov[X (.chp k l c), X (.chp k l' c'); P] = if l = l' ∧ c = c' then (sc : ℝ) ^ 2 else 0 := by
      split_ifs with h
      · obtain ⟨rfl, rfl⟩ := h
        rw [covariance_self (h2 _).aemeasurable, (mem (h2 _) (lc l c)).2]
        simp
      · exact z (uc _ _) (uc _ _) (by simpa using h) (mC _ _) (mC _ _)
    have cDD : cov[X (.dev p k l c d), X (.dev p' k l' c' d'); P] =
        if p = p' ∧ l = l' ∧ c = c' ∧ d = d' then (sd : ℝ) ^ 2 else 0 := by
      split_ifs with h
      · obtain ⟨rfl, rfl, rfl, rfl⟩ := h
        rw [covariance_self (h2 _).aemeasurable, (mem (h2 _) (ld l c hp hd)).2]
        simp
      · exact z (ud _ _ hp hd) (ud _ _ hp' hd') (by simpa using h) mD mD'
    rw [hy, hy', covariance_const_add_left i1, covariance_const_add_right i2,
      covariance_add_left (mB.add (mC l c)) mD ((mB.add (mC _ _)).add mD'), covariance_add_left mB (mC l c) ((mB.add (mC _ _)).add mD'),
      covariance_add_right mB (mB.add (mC _ _)) mD', covariance_add_right mB mB (mC _ _),
      covariance_add_right (mC l c) (mB.add (mC _ _)) mD', covariance_add_right (mC l c) mB (mC _ _),
      covariance_add_right mD (mB.add (mC _ _)) mD', covariance_add_right mD mB (mC _ _), cBB, cCC, cDD,
      z ub (uc _ _) (by simp) mB (mC _ _), z ub (ud _ _ hp' hd') (by simp) mB mD', z (uc _ _) ub (by simp) (mC _ _) mB,
      z (uc _ _) (ud _ _ hp' hd') (by simp) (mC _ _) mD', z (ud _ _ hp hd) ub (by simp) mD mB,
      z (ud _ _ hp hd) (uc _ _) (by simp) mD (mC _ _)]
    ring

end

/-! ## An example -/

/-- A device whose delay depends on temperature and voltage and whose leakage on temperature. -/
noncomputable def ringDev : DeviceMdl (Tapes linearNumpy) (Ext ℝ) where
  prms := [("delay", .circ { compute := (NumExpr.bin PyArith.mul (.arg "temp") (.arg "vdd")).fn ["temp", "vdd"] }),
    ("leak", .circ { compute := (NumExpr.arg "temp").fn ["temp"] })]

/-- An oven that is 2 degrees off, with 1 degree between devices. -/
noncomputable def ovenEnv : PhysTestEnv (Ext ℝ) where
  vars := [("temp", { (EnvVrtnMdl.ideal : EnvVrtnMdl (Ext ℝ)) with
    batch := ⟨1, .normal (.fin 0) (.fin 2), none⟩
    dev := ⟨2, .normal (.fin 0) (.fin 1), none⟩ })]

/-- Three oscillators and two leakage structures on each chip, and two temperature sensors. -/
def ovenPrms : PrmSel := .counts [("delay", 3), ("leak", 2), ("temp", 2)]

/-- Their numbers. -/
def ovenCount (p : String) : Nat := if p = "delay" then 3 else 2

theorem oven_step : EnvStep linearNumpy ovenEnv [("temp", 300), ("vdd", 1)] (fun _ => .offset)
    (fun k z => if k = "temp" then 0 + 2 * z else 0) (fun _ _ => 0) (fun k z => if k = "temp" then 0 + 1 * z else 0)
    ringDev ovenPrms none 5 4 4 5 ovenCount := by
  have z : (PyArith.ofRat 0 : Ext ℝ) = .fin 0 := congrArg Ext.fin Rat.cast_zero
  refine ⟨by decide, ?_, ?_, rfl, rfl, by decide, ⟨_, rfl, by decide⟩, ?_⟩
  · intro k hk
    simp only [Dict.keys, List.map_cons, List.map_nil, List.mem_cons, List.not_mem_nil, or_false] at hk
    rcases hk with rfl | rfl
    · refine ⟨rfl, rfl, ?_, rfl⟩
      show linearNumpy.value (.deterministic (PyArith.ofRat 0)) = _
      rw [z]
      rfl
    · refine ⟨rfl, ?_, ?_, ?_⟩ <;>
      · show linearNumpy.value (.deterministic (PyArith.ofRat 0)) = _
        rw [z]
        rfl
  · intro p m h
    have := Dict.mem_of_get? h
    simp only [ringDev, List.mem_cons, List.not_mem_nil, or_false, Prod.mk.injEq, PrmMdl.circ.injEq] at this
    rcases this with ⟨-, rfl⟩ | ⟨-, rfl⟩ <;> simp [PyFun.argNames, NumExpr.fn]
  · rintro p ⟨h1, h2⟩
    simp only [ovenPrms, PrmSel.toList, Dict.keys, List.map_cons, List.map_nil, List.mem_cons, List.not_mem_nil,
      or_false] at h1
    rcases h1 with rfl | rfl | rfl
    · exact absurd h2 (by simp [ringDev, Dict.get?_cons])
    · exact absurd h2 (by simp [ringDev, Dict.get?_cons])
    · decide

theorem oven_delay {k : String} (h : k = "temp" ∨ k = "vdd") : Exposed ringDev ovenPrms.toList .measure "delay" k := by
  refine ⟨by decide, _, rfl, ?_⟩
  show k ∈ PyFun.argNames (NumExpr.fn _ _)
  rcases h with rfl | rfl <;> simp [PyFun.argNames, NumExpr.fn]

theorem oven_leak : Exposed ringDev ovenPrms.toList .measure "leak" "temp" := by
  refine ⟨by decide, _, rfl, ?_⟩
  show "temp" ∈ PyFun.argNames (NumExpr.fn _ _)
  simp [PyFun.argNames, NumExpr.fn]

/-- Asked for 300 degrees, an oscillator has a temperature with variance 5, an oscillator and a leakage structure
have a covariance of 4 from the oven, and the voltage is independent. -/
example : ∃ Y Y' Z, RandomCondition (fun i j (ω : Nat × Nat → ℝ) => ω (i, j)) (fun _ => 0) ovenEnv Ex.orderA
      [("temp", 300), ("vdd", 1)] ringDev ovenPrms none .measure 5 4 "delay" "temp" 3 4 2 Y ∧
    RandomCondition (fun i j (ω : Nat × Nat → ℝ) => ω (i, j)) (fun _ => 0) ovenEnv Ex.orderA
      [("temp", 300), ("vdd", 1)] ringDev ovenPrms none .measure 5 4 "leak" "temp" 3 4 1 Y' ∧
    RandomCondition (fun i j (ω : Nat × Nat → ℝ) => ω (i, j)) (fun _ => 0) ovenEnv Ex.orderA
      [("temp", 300), ("vdd", 1)] ringDev ovenPrms none .measure 5 4 "delay" "vdd" 3 4 2 Z ∧
    (Measure.infinitePi fun _ : Nat × Nat => gaussianReal 0 1).map Y = gaussianReal 300 5 ∧
    cov[Y, Y'; Measure.infinitePi fun _ : Nat × Nat => gaussianReal 0 1] = 4 ∧
    IndepFun Y Z (Measure.infinitePi fun _ : Nat × Nat => gaussianReal 0 1) := by
  obtain ⟨Y, -, hY⟩ := C93_values (next := fun _ => 0) (ord := Ex.orderA) linear_correct exists_standard oven_step
    (by decide) (oven_delay (.inl rfl)) (3 : Fin 4) (4 : Fin 5) (d := 2) (by decide)
  obtain ⟨Y', -, hY'⟩ := C93_values (next := fun _ => 0) (ord := Ex.orderA) linear_correct exists_standard oven_step
    (by decide) oven_leak (3 : Fin 4) (4 : Fin 5) (d := 1) (by decide)
  obtain ⟨Z, -, hZ⟩ := C93_values (next := fun _ => 0) (ord := Ex.orderA) linear_correct exists_standard oven_step
    (by decide) (oven_delay (.inr rfl)) (3 : Fin 4) (4 : Fin 5) (d := 2) (by decide)
  have z : (PyArith.ofRat 0 : Ext ℝ) = .fin 0 := congrArg Ext.fin Rat.cast_zero
  have h := C93_normal linear_correct exists_standard oven_step (k := "temp") (b := 300) rfl rfl (mb := 0) (mc := 0)
    (md := 0) (sb := 2) (sc := 0) (sd := 1) (.inl rfl) (.inr ⟨congrArg Dist.deterministic z, rfl⟩) (.inl rfl)
    (oven_delay (.inl rfl)) oven_leak (by decide) (by decide) hY hY'
  refine ⟨Y, Y', Z, hY, hY', hZ, ?_, ?_, ?_⟩
  · rw [h.1]
    congr 1 <;> norm_num
  · rw [h.2]
    norm_num
  · exact C93_separate linear_correct exists_standard oven_step (by decide) (by decide) (by decide)
      (oven_delay (.inl rfl)) (oven_delay (.inr rfl)) (by decide) (by decide) hY hZ

end Gerabaldi.Props
