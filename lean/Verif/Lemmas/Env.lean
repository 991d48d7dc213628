import Verif.Lemmas.Latent
import Verif.Lemmas.Loop
import Verif.Spec.Env

/-! # Facts about environmental variation -/

namespace Gerabaldi
open Spec

variable {V : Type} [PyArith V]

/-- The object agrees with what the user configured. -/
structure EnvInv (m : EnvVrtnMdl V) (cfg : EnvCfg V) : Prop where
  vtype : m.vrtnType = some (if cfg.scaling then .scaling else .offset)
  unit : m.unitary = if cfg.scaling then PyArith.ofRat 1 else PyArith.ofRat 0
  batch : LayerOk m.unitary cfg.batch m.batch m.batchDef
  chp : LayerOk m.unitary cfg.chp m.chp m.chpDef
  dev : LayerOk m.unitary cfg.dev m.dev m.devDef

theorem EnvVrtnMdl.setVrtnType_ok {m : EnvVrtnMdl V} {s : String} {t : VType}
    (ht : VType.ofString s = some t) (hne : m.vrtnType ≠ some t) : m.setVrtnType s = .ok
      { m with
        unitary := t.unitary
        batch := if m.batchDef then m.batch else detUnit t.unitary
        chp := if m.chpDef then m.chp else detUnit t.unitary
        dev := if m.devDef then m.dev else detUnit t.unitary
        vrtnType := some t } := by
  unfold EnvVrtnMdl.setVrtnType
  rw [ht]
  simp only [hne, if_false]
  obtain ⟨u, b, c, d, fb, fc, fd, n, vt⟩ := m
  cases fb <;> cases fc <;> cases fd <;> rfl

theorem EnvInv.assign {m : EnvVrtnMdl V} {cfg : EnvCfg V} (h : EnvInv m cfg) (a : EnvAssign V) :
    match m.assign a with
    | .ok m' => EnvInv m' (cfg.record a)
    | .error _ => EnvInv m (cfg.record a) := by
  cases a with
  | batch r => exact ⟨h.vtype, h.unit, LayerOk.of_arg _ r, h.chp, h.dev⟩
  | chp r => exact ⟨h.vtype, h.unit, h.batch, LayerOk.of_arg _ r, h.dev⟩
  | dev r => exact ⟨h.vtype, h.unit, h.batch, h.chp, LayerOk.of_arg _ r⟩
  | name s => exact ⟨h.vtype, h.unit, h.batch, h.chp, h.dev⟩
  | vrtnType s =>
    simp only [EnvVrtnMdl.assign]
    rcases ofString_cases s with ⟨rfl, ht⟩ | ⟨rfl, ht⟩ | ⟨h1, h2, ht⟩
    · by_cases hv : m.vrtnType = some .scaling
      · have : m.setVrtnType "scaling" = .ok m := by
          unfold EnvVrtnMdl.setVrtnType; rw [ht]; simp [hv]
        rw [this]
        have hs : cfg.scaling = true := by
          have := h.vtype; rw [hv] at this
          by_contra hc
          simp [hc] at this
        have hc : cfg.record (.vrtnType "scaling") = cfg := by
          cases cfg; simp only [EnvCfg.record, if_true] at *; rw [hs]
        simp only [hc]
        exact h
      · rw [EnvVrtnMdl.setVrtnType_ok ht hv]
        exact ⟨rfl, rfl, h.batch.reset _, h.chp.reset _, h.dev.reset _⟩
    · by_cases hv : m.vrtnType = some .offset
      · have : m.setVrtnType "offset" = .ok m := by
          unfold EnvVrtnMdl.setVrtnType; rw [ht]; simp [hv]
        rw [this]
        have hs : cfg.scaling = false := by
          have := h.vtype; rw [hv] at this
          by_contra hc
          simp [hc] at this
        have hc : cfg.record (.vrtnType "offset") = cfg := by
          cases cfg
          have e : ¬ ("offset" = "scaling") := by decide
          simp only [EnvCfg.record, e, if_true, if_false] at *; rw [hs]
        simp only [hc]
        exact h
      · rw [EnvVrtnMdl.setVrtnType_ok ht hv]
        exact ⟨rfl, rfl, h.batch.reset _, h.chp.reset _, h.dev.reset _⟩
    · have : m.setVrtnType s = .error .invalidType := by
        unfold EnvVrtnMdl.setVrtnType; rw [ht]
      rw [this]
      have hc : cfg.record (.vrtnType s) = cfg := by
        simp only [EnvCfg.record, h1, h2, if_false]
      simp only [hc]
      exact h

theorem EnvInv.history {m : EnvVrtnMdl V} {cfg : EnvCfg V} (h : EnvInv m cfg)
    (as : List (EnvAssign V)) : EnvInv (m.history as) (as.foldl EnvCfg.record cfg) := by
  induction as generalizing m cfg with
  | nil => exact h
  | cons a as ih =>
    have ha := h.assign a
    simp only [EnvVrtnMdl.history, List.foldl_cons]
    split at ha <;> rename_i heq <;> rw [heq] <;> exact ih ha

theorem EnvInv.mk' {dev chp batch : Option (RVar V)} {vt : String} {name : Option String}
    {m : EnvVrtnMdl V} (h : EnvVrtnMdl.mk' dev chp batch vt name = .ok m) :
    EnvInv m ⟨layerOf batch, layerOf chp, layerOf dev, decide (vt = "scaling")⟩ := by
  unfold EnvVrtnMdl.mk' at h
  simp only at h
  rcases ofString_cases vt with ⟨rfl, ht⟩ | ⟨rfl, ht⟩ | ⟨hn1, hn2, ht⟩
  · rw [EnvVrtnMdl.setVrtnType_ok ht (by
      show (none : Option VType) ≠ _; simp)] at h
    cases h
    exact ⟨rfl, rfl, (LayerOk.of_arg _ batch).reset _, (LayerOk.of_arg _ chp).reset _,
      (LayerOk.of_arg _ dev).reset _⟩
  · rw [EnvVrtnMdl.setVrtnType_ok ht (by
      show (none : Option VType) ≠ _; simp)] at h
    cases h
    exact ⟨rfl, rfl, (LayerOk.of_arg _ batch).reset _, (LayerOk.of_arg _ chp).reset _,
      (LayerOk.of_arg _ dev).reset _⟩
  · unfold EnvVrtnMdl.setVrtnType at h
    rw [ht] at h
    cases h

/-- The model supplied for conditions without one. -/
theorem EnvInv.ideal : EnvInv (EnvVrtnMdl.ideal : EnvVrtnMdl V) ⟨none, none, none, false⟩ :=
  ⟨rfl, rfl, ⟨rfl, rfl⟩, ⟨rfl, rfl⟩, ⟨rfl, rfl⟩⟩

/-- `EnvVrtnMdl()` is what `EnvVrtnMdl.ideal` says. -/
theorem EnvVrtnMdl.ideal_eq :
    EnvVrtnMdl.mk' none none none "offset" none = .ok (EnvVrtnMdl.ideal : EnvVrtnMdl V) := rfl

theorem EnvInv.op_eq {m : EnvVrtnMdl V} {cfg : EnvCfg V} (h : EnvInv m cfg) :
    m.op = if cfg.scaling then PyArith.mul else PyArith.add := by
  unfold EnvVrtnMdl.op; rw [h.vtype]
  cases cfg.scaling <;> rfl

theorem combine_snoc (s : Bool) (x : V) (xs ys : List V) :
    combine s (combine s (x :: xs) :: ys) = combine s (x :: (xs ++ ys)) := by
  simp only [combine, List.foldl_append]

section sampling
variable {W : Type} [Rng W V]

/-- One contribution, drawn or neutral. -/
theorem op_pick [UnitLaws V] {m : EnvVrtnMdl V} {cfg : EnvCfg V} (h : EnvInv m cfg) (x : V)
    (o : Option (List V)) {n i : Nat} (hi : i < n) :
    m.op x ((o.getD (List.replicate n m.unitary)).getD i default) =
      combine cfg.scaling (x :: pick o i) := by
  rw [h.op_eq, h.unit]
  cases o with
  | none =>
    simp only [Option.getD_none, pick, combine, List.foldl_nil]
    rw [getD_replicate _ hi]
    cases cfg.scaling
    · exact UnitLaws.add_zero x
    · exact UnitLaws.mul_one x
  | some xs => rfl

theorem optDraw_length [LawfulRng W V] {layer : Option (Nat × Dist V)} {n : Nat} {w w' : W} {u : V}
    {o : Option (List V)} (h : drawLayer layer n w = (.ok o, w')) :
    (o.getD (List.replicate n u)).length = n := by
  cases o with
  | none => simp
  | some xs => exact drawLayer_length h

theorem EnvInv.genBatch [LawfulRng W V] [UnitLaws V] {m : EnvVrtnMdl V} {cfg : EnvCfg V}
    (h : EnvInv m cfg) (base : V) :
    (m.genBatch base : M W V) =
      (drawLayer cfg.batch 1 >>= fun o => pure (combine cfg.scaling (base :: pick o 0))) := by
  funext w
  unfold EnvVrtnMdl.genBatch
  rw [h.batch.sample 1, M.bind_assoc']
  rcases hd : drawLayer cfg.batch 1 w with ⟨r, w1⟩
  cases r with
  | error e => rw [M.bind_error hd, M.bind_error hd]
  | ok o =>
    rw [M.bind_ok hd, M.bind_ok hd]
    have hl := optDraw_length (u := m.unitary) hd
    have hp := op_pick h base o (Nat.zero_lt_one)
    simp only [M.pure_bind']
    generalize o.getD (List.replicate 1 m.unitary) = xs at hl hp
    match xs, hl with
    | [x], _ =>
      rw [← hp]
      rfl

theorem EnvInv.genChp [LawfulRng W V] [UnitLaws V] {m : EnvVrtnMdl V} {cfg : EnvCfg V}
    (h : EnvInv m cfg) (base : V) (C L : Nat) :
    (m.genChp base C L : M W (Arr3 V)) =
      (drawLayer cfg.chp (C * L) >>= fun o => pure (Arr3.ofFn L C 1 fun l c _ =>
        combine cfg.scaling (base :: pick o (l * C + c)))) := by
  funext w
  unfold EnvVrtnMdl.genChp
  rw [h.chp.sample (C * L), M.bind_assoc']
  rcases hd : drawLayer cfg.chp (C * L) w with ⟨r, w1⟩
  cases r with
  | error e => rw [M.bind_error hd, M.bind_error hd]
  | ok o =>
    rw [M.bind_ok hd, M.bind_ok hd]
    have hl := optDraw_length (u := m.unitary) hd
    simp only [M.pure_bind']
    have hl' : (o.getD (List.replicate (C * L) m.unitary)).length = L * C * 1 := by rw [hl]; ring
    rw [Arr3.reshape_ok hl', M.bind_ok (rfl : M.ofExcept (Except.ok _) w1 = (.ok _, w1))]
    simp only [M.pure_run]
    rw [Arr3.map_eq_ofFn]
    congr 2
    apply Arr3.ofFn_congr
    intro l hl1 c hc d hd1
    change l < L at hl1
    change c < C at hc
    change d < 1 at hd1
    have hi : l * C + c < C * L := by
      have := Arr3.index_lt (D := 1) (d := 0) hl1 hc (Nat.zero_lt_one)
      rw [Nat.mul_comm C L]; omega
    rw [at_mk, ← op_pick h base o hi]
    have : d = 0 := by omega
    subst this
    simp

theorem EnvInv.genDev [LawfulRng W V] [UnitLaws V] {m : EnvVrtnMdl V} {cfg : EnvCfg V}
    (h : EnvInv m cfg) (base : Arr3 V) {L C : Nat} (hb : base.HasDims L C 1) (D : Nat) :
    (m.genDev base D : M W (Arr3 V)) =
      (drawLayer cfg.dev (D * (L * C)) >>= fun o => pure (Arr3.ofFn L C D fun l c d =>
        combine cfg.scaling (base.at' l c 0 :: pick o ((l * C + c) * D + d)))) := by
  funext w
  unfold EnvVrtnMdl.genDev
  rw [hb.1, hb.2.1]
  rw [h.dev.sample, M.bind_assoc']
  rcases hd : drawLayer cfg.dev (D * (L * C)) w with ⟨r, w1⟩
  cases r with
  | error e => rw [M.bind_error hd, M.bind_error hd]
  | ok o =>
    rw [M.bind_ok hd, M.bind_ok hd]
    have hl := optDraw_length (u := m.unitary) hd
    simp only [M.pure_bind']
    have hl' : (o.getD (List.replicate (D * (L * C)) m.unitary)).length = L * C * D := by
      rw [hl]; ring
    rw [Arr3.reshape_ok hl', M.bind_ok (rfl : M.ofExcept (Except.ok _) w1 = (.ok _, w1)),
      Arr3.bcast2_chp_left m.op base _ hb (⟨rfl, rfl, rfl⟩ : Arr3.HasDims _ L C D)]
    simp only [M.ofExcept_run, M.pure_run]
    refine congrArg (fun a => (Except.ok a, w1)) ?_
    apply Arr3.ofFn_congr
    intro l hl1 c hc d hd1
    have hi : (l * C + c) * D + d < D * (L * C) := by
      have := Arr3.index_lt hl1 hc hd1
      rw [Nat.mul_comm D]; exact this
    rw [← op_pick h _ o hi]
    rfl

/-- Sampling an object equals sampling what the user configured. -/
theorem EnvInv.sample [LawfulRng W V] [UnitLaws V] {m : EnvVrtnMdl V} {cfg : EnvCfg V}
    (h : EnvInv m cfg) (base : V) (L C D : Nat) :
    (m.genEnvVrtns base D C L : M W (Arr3 V)) = sampleEnv cfg base L C D := by
  unfold EnvVrtnMdl.genEnvVrtns sampleEnv
  rw [h.genBatch, M.bind_assoc']
  congr 1
  funext b
  rw [M.pure_bind', h.genChp, M.bind_assoc']
  congr 1
  funext c
  rw [M.pure_bind', h.genDev _ (Arr3.ofFn_hasDims L C 1 _)]
  congr 1
  funext d
  congr 1
  apply Arr3.ofFn_congr
  intro l hl k hk i hi
  rw [Arr3.at_ofFn _ hl hk (Nat.zero_lt_one)]
  rw [combine_snoc, combine_snoc]
  simp

end sampling


section conds
variable {W : Type}

omit [PyArith V] in
theorem mem_filter_contains {xs ys : List String} {a : String} :
    a ∈ xs.filter (ys.contains ·) ↔ a ∈ xs ∧ a ∈ ys := by
  simp [List.mem_filter]

omit [PyArith V] in
/-- The dependencies of a parameter are the conditions one of its equations takes. -/
theorem mem_dependencies (ord : SetOrder) (p : PrmMdl W V) (conds : List String) (t : Target)
    (cond : String) :
    cond ∈ p.dependencies ord conds t ↔ cond ∈ conds ∧ NeedsCond p t cond := by
  cases p with
  | circ m => exact mem_filter_contains.trans and_comm
  | deg m =>
    show cond ∈ m.dependencies ord conds t ↔ _
    unfold DegPrmMdl.dependencies
    rw [ord.mem, List.mem_append, mem_filter_contains]
    cases t with
    | stress =>
      simp only [NeedsCond, List.mem_flatMap, mem_filter_contains]
      constructor
      · rintro (⟨h1, h2⟩ | ⟨kv, hk, h1, h2⟩)
        · exact ⟨h2, .inl h1⟩
        · exact ⟨h2, .inr ⟨kv, hk, h1⟩⟩
      · rintro ⟨h2, h1 | ⟨kv, hk, h1⟩⟩
        · exact .inl ⟨h1, h2⟩
        · exact .inr ⟨kv, hk, h1, h2⟩
    | measure =>
      simp only [NeedsCond, mem_filter_contains]
      constructor
      · rintro (⟨h1, h2⟩ | ⟨h1, h2⟩)
        · exact ⟨h2, .inl h1⟩
        · exact ⟨h2, .inr h1⟩
      · rintro ⟨h2, h1 | h1⟩
        · exact .inl ⟨h1, h2⟩
        · exact .inr ⟨h1, h2⟩

variable [Rng W V]

/-- Batch and chip values of one condition. -/
def sharedOf (env : PhysTestEnv V) (C L : Nat) (kv : String × V) : M W (V × Arr3 V) := do
  let b ← (env.vrtnMdl kv.1).genBatch kv.2
  let c ← (env.vrtnMdl kv.1).genChp b C L
  pure (b, c)

theorem genShared_eq (env : PhysTestEnv V) (C L : Nat) :
    (env.genShared C L : Dict (V × Arr3 V) → String × V → M W _) =
      fun acc kv => sharedOf env C L kv >>= fun v => pure (acc.set kv.1 v) := by
  funext acc kv
  simp only [PhysTestEnv.genShared, sharedOf, M.bind_assoc', M.pure_bind']

/-- Device values of one dependency. -/
def dependOf (env : PhysTestEnv V) (shared : Dict (V × Arr3 V)) (devCounts : Dict Nat)
    (prm cond : String) : M W (Arr3 V) := do
  let bc ← M.ofExcept (shared.getE cond)
  let n ← M.ofExcept (devCounts.getE prm)
  (env.vrtnMdl cond).genDev bc.2 n

theorem genDepend_eq (env : PhysTestEnv V) (shared : Dict (V × Arr3 V)) (devCounts : Dict Nat)
    (prm : String) :
    (env.genDepend shared devCounts prm : Dict (Arr3 V) → String → M W _) =
      fun acc cond => dependOf env shared devCounts prm cond >>= fun v => pure (acc.set (id cond) v) := by
  funext acc cond
  simp only [PhysTestEnv.genDepend, dependOf, M.bind_assoc', id]

theorem genPrmStep_eq (env : PhysTestEnv V) (ord : SetOrder) (dev : Option (DeviceMdl W V))
    (conds : List String) (t : Target) (shared : Dict (V × Arr3 V)) (devCounts : Dict Nat) :
    env.genPrmStep ord dev conds t shared devCounts =
      fun acc prm => env.genPrmConds ord dev conds t shared devCounts prm >>= fun v =>
        pure (acc.set (id prm) v) := rfl

/-- The stages of a successful `gen_env_cond_vals`. -/
theorem genEnvCondVals_inv {env : PhysTestEnv V} {ord : SetOrder} {base : Dict V} {prms : PrmSel}
    {info : Option Quantities} {dev : Option (DeviceMdl W V)} {t : Target} {nc nl : Nat} {w w' : W}
    {r : Dict (Dict (Arr3 V))}
    (h : env.genEnvCondVals ord base prms info dev t nc nl w = (.ok r, w')) :
    ∃ shared counts w1,
      M.forIn' (env.genShared ((info.map (·.numChps)).getD nc) ((info.map (·.numLots)).getD nl))
        base [] w = (.ok shared, w1) ∧
      prms.devCounts info = .ok counts ∧
      M.forIn' (env.genPrmStep ord dev base.keys t shared counts) prms.toList [] w1 = (.ok r, w') := by
  unfold PhysTestEnv.genEnvCondVals at h
  obtain ⟨shared, w1, h1, h⟩ := M.bind_eq_ok.1 h
  obtain ⟨counts, w2, h2, h3⟩ := M.bind_eq_ok.1 h
  obtain ⟨e, rfl⟩ := M.ofExcept_eq_ok.1 h2
  exact ⟨shared, counts, w2, h1, e, h3⟩

/-- The shared values of a condition. -/
theorem shared_get {env : PhysTestEnv V} {C L : Nat} {base : Dict V} (hb : base.Nodup) {w w' : W}
    {shared : Dict (V × Arr3 V)}
    (h : M.forIn' (env.genShared C L) base [] w = (.ok shared, w')) {cond : String} {v : V}
    (hv : base.get? cond = some v) :
    ∃ (b : V) (c : Arr3 V) (w1 w2 w3 : W), shared.get? cond = some (b, c) ∧
      (env.vrtnMdl cond).genBatch v w1 = (.ok b, w2) ∧
      (env.vrtnMdl cond).genChp b C L w2 = (.ok c, w3) := by
  rw [genShared_eq] at h
  obtain ⟨h1, h2, _⟩ := M.forIn'_set h
  have hm := Dict.mem_of_get? hv
  obtain ⟨⟨b, c⟩, hbc⟩ := h2 _ hm
  rcases h1 _ _ hbc with ⟨_, hx⟩ | ⟨⟨k, u⟩, hk, hkey, w1, w2, hg⟩
  · exact absurd rfl (hx _ hm)
  · simp only at hkey
    subst hkey
    have : u = v := by
      have := Dict.get?_of_mem hb hk
      rw [hv] at this; cases this; rfl
    subst this
    unfold sharedOf at hg
    obtain ⟨b', w3, g1, hg⟩ := M.bind_eq_ok.1 hg
    obtain ⟨c', w4, g2, hg⟩ := M.bind_eq_ok.1 hg
    obtain ⟨e, rfl⟩ := M.pure_eq_ok.1 hg
    cases e
    exact ⟨b, c, w1, w3, w2, hbc, g1, g2⟩

theorem shared_keys {env : PhysTestEnv V} {C L : Nat} {base : Dict V} {w w' : W}
    {shared : Dict (V × Arr3 V)}
    (h : M.forIn' (env.genShared C L) base [] w = (.ok shared, w')) {cond : String}
    {bc : V × Arr3 V} (hc : shared.get? cond = some bc) : cond ∈ base.keys := by
  rw [genShared_eq] at h
  obtain ⟨h1, _, _⟩ := M.forIn'_set h
  rcases h1 _ _ hc with ⟨hx, _⟩ | ⟨kv, hk, hkey, _⟩
  · cases hx
  · rw [← hkey]; exact List.mem_map_of_mem hk

/-- Chip values have one column. -/
theorem genChp_dims {m : EnvVrtnMdl V} {b : V} {C L : Nat} {w w' : W} {a : Arr3 V}
    (h : m.genChp b C L w = (.ok a, w')) : a.HasDims L C 1 := by
  unfold EnvVrtnMdl.genChp at h
  obtain ⟨xs, w1, _, h⟩ := M.bind_eq_ok.1 h
  obtain ⟨a0, w2, h2, h⟩ := M.bind_eq_ok.1 h
  obtain ⟨rfl, rfl⟩ := M.pure_eq_ok.1 h
  obtain ⟨e, rfl⟩ := M.ofExcept_eq_ok.1 h2
  obtain ⟨r1, r2, r3, _⟩ := Arr3.reshape_eq_ok.1 e
  exact ⟨r1, r2, r3⟩

/-- The entry of a parameter in the result. -/
theorem result_get {env : PhysTestEnv V} {ord : SetOrder} {dev : Option (DeviceMdl W V)}
    {conds : List String} {t : Target} {shared : Dict (V × Arr3 V)} {counts : Dict Nat}
    {prms : List String} {w w' : W} {r : Dict (Dict (Arr3 V))}
    (h : M.forIn' (env.genPrmStep ord dev conds t shared counts) prms [] w = (.ok r, w'))
    {prm : String} (hp : prm ∈ prms) :
    ∃ d w1 w2, r.get? prm = some d ∧
      env.genPrmConds ord dev conds t shared counts prm w1 = (.ok d, w2) := by
  rw [genPrmStep_eq] at h
  obtain ⟨h1, h2, _⟩ := M.forIn'_set h
  obtain ⟨d, hd⟩ := h2 prm hp
  rcases h1 _ _ hd with ⟨hx, _⟩ | ⟨x, hx, hkey, w1, w2, hg⟩
  · cases hx
  · simp only [id] at hkey
    subst hkey
    exact ⟨d, w1, w2, hd, hg⟩

/-- The values of a dependency of a device parameter. -/
theorem depend_get {env : PhysTestEnv V} {ord : SetOrder} {dm : DeviceMdl W V}
    {conds : List String} {t : Target} {shared : Dict (V × Arr3 V)} {counts : Dict Nat}
    {prm : String} {p : PrmMdl W V} (hp : dm.prms.get? prm = some p) {w w' : W} {d : Dict (Arr3 V)}
    (h : env.genPrmConds ord (some dm) conds t shared counts prm w = (.ok d, w')) :
    (∀ cond ∈ conds, NeedsCond p t cond → ∃ (a : Arr3 V) (bc : V × Arr3 V) (n : Nat) (w1 w2 : W),
      d.get? cond = some a ∧
      shared.get? cond = some bc ∧ counts.get? prm = some n ∧
      (env.vrtnMdl cond).genDev bc.2 n w1 = (.ok a, w2)) ∧
    (∀ cond a, d.get? cond = some a → cond ∈ conds ∧ NeedsCond p t cond) := by
  unfold PhysTestEnv.genPrmConds at h
  simp only [Option.bind_some, hp] at h
  rw [genDepend_eq] at h
  obtain ⟨h1, h2, h3⟩ := M.forIn'_set h
  constructor
  · intro cond hc hn
    have hm := (mem_dependencies ord p conds t cond).2 ⟨hc, hn⟩
    obtain ⟨a, ha⟩ := h2 cond hm
    rcases h1 _ _ ha with ⟨hx, _⟩ | ⟨x, hx, hkey, w1, w2, hg⟩
    · cases hx
    · simp only [id] at hkey ha
      subst hkey
      unfold dependOf at hg
      obtain ⟨bc, w3, g1, hg⟩ := M.bind_eq_ok.1 hg
      obtain ⟨n, w4, g2, hg'⟩ := M.bind_eq_ok.1 hg
      obtain ⟨e1, rfl⟩ := M.ofExcept_eq_ok.1 g1
      obtain ⟨e2, rfl⟩ := M.ofExcept_eq_ok.1 g2
      exact ⟨a, bc, n, _, w2, ha, Dict.getE_eq_ok.1 e1, Dict.getE_eq_ok.1 e2, hg'⟩
  · intro cond a ha
    rcases h1 _ _ ha with ⟨hx, _⟩ | ⟨x, hx, hkey, _⟩
    · cases hx
    · simp only [id] at hkey
      subst hkey
      exact (mem_dependencies ord p conds t x).1 hx

/-- The values of a sensor. -/
theorem sensor_get {env : PhysTestEnv V} {ord : SetOrder} {dev : Option (DeviceMdl W V)}
    {conds : List String} {t : Target} {shared : Dict (V × Arr3 V)} {counts : Dict Nat}
    {prm : String} (hp : (dev.bind fun d => d.prms.get? prm) = none) {w w' : W} {d : Dict (Arr3 V)}
    (h : env.genPrmConds ord dev conds t shared counts prm w = (.ok d, w')) :
    ∃ (bc : V × Arr3 V) (n : Nat) (s a : Arr3 V) (w1 : W), shared.get? prm = some bc ∧ counts.get? prm = some n ∧
      (env.vrtnMdl prm).genChp bc.1 n 1 w = (.ok s, w1) ∧
      (env.vrtnMdl prm).genDev s 1 w1 = (.ok a, w') ∧ d = [(prm, a)] := by
  unfold PhysTestEnv.genPrmConds at h
  simp only [hp] at h
  unfold PhysTestEnv.genSensor at h
  obtain ⟨bc, w1, h1, h⟩ := M.bind_eq_ok.1 h
  obtain ⟨n, w2, h2, h⟩ := M.bind_eq_ok.1 h
  obtain ⟨s, w3, h3, h⟩ := M.bind_eq_ok.1 h
  obtain ⟨a, w4, h4, h5⟩ := M.bind_eq_ok.1 h
  obtain ⟨e1, rfl⟩ := M.ofExcept_eq_ok.1 h1
  obtain ⟨e2, rfl⟩ := M.ofExcept_eq_ok.1 h2
  obtain ⟨rfl, rfl⟩ := M.pure_eq_ok.1 h5
  exact ⟨bc, n, s, a, w3, Dict.getE_eq_ok.1 e1, Dict.getE_eq_ok.1 e2, h3, h4, rfl⟩

end conds

end Gerabaldi
