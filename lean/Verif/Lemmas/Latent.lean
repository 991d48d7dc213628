import Verif.Spec.Latent

/-! # Facts about latent variables -/

namespace Gerabaldi
open Spec

variable {V : Type} [PyArith V]

/-- The operation of a variation type for the specification's flag. -/
theorem VType.op_eq (t : VType) :
    (t.op : V → V → V) = if t = .scaling then PyArith.mul else PyArith.add := by
  cases t <;> rfl

/-- One layer agrees with what the user configured. -/
def LayerOk (u : V) (layer : Option (Nat × Dist V)) (r : RVar V) (flag : Bool) : Prop :=
  flag = layer.isSome ∧
    match layer with
    | none => r.dist = .deterministic u
    | some (i, d) => r.id = i ∧ r.dist = d

/-- The object agrees with what the user configured. -/
structure LatentInv (lv : LatentVar V) (cfg : LatentCfg V) : Prop where
  vtype : lv.vrtnType = some (if cfg.scaling then .scaling else .offset)
  unit : lv.unitary = if cfg.scaling then PyArith.ofRat 1 else PyArith.ofRat 0
  base : lv.deterVal = cfg.base
  dev : LayerOk lv.unitary cfg.dev lv.dev lv.devDef
  chp : LayerOk lv.unitary cfg.chp lv.chp lv.chpDef
  lot : LayerOk lv.unitary cfg.lot lv.lot lv.lotDef

omit [PyArith V] in
theorem LayerOk.of_arg (u : V) (r : Option (RVar V)) :
    LayerOk u (layerOf r) (r.getD (detUnit u)) r.isSome := by
  cases r with
  | none => exact ⟨rfl, rfl⟩
  | some r => exact ⟨rfl, rfl, rfl⟩

omit [PyArith V] in
theorem LayerOk.rename {u : V} {layer : Option (Nat × Dist V)} {r : RVar V} {flag : Bool}
    (h : LayerOk u layer r flag) (s : Option String) : LayerOk u layer { r with name := s } flag := by
  obtain ⟨h1, h2⟩ := h
  refine ⟨h1, ?_⟩
  cases layer with
  | none => exact h2
  | some p => exact h2

omit [PyArith V] in
/-- Resetting the undefined layers for a new identity value. -/
theorem LayerOk.reset {u : V} {layer : Option (Nat × Dist V)} {r : RVar V} {flag : Bool}
    (h : LayerOk u layer r flag) (u' : V) :
    LayerOk u' layer (if flag then r else detUnit u') flag := by
  obtain ⟨h1, h2⟩ := h
  refine ⟨h1, ?_⟩
  cases layer with
  | none => simp only [Option.isSome_none] at h1; subst h1; rfl
  | some p => simp only [Option.isSome_some] at h1; subst h1; exact h2

theorem setVrtnType_ok {lv : LatentVar V} {s : String} {t : VType} (ht : VType.ofString s = some t)
    (hne : lv.vrtnType ≠ some t) : lv.setVrtnType s = .ok
      { lv with
        unitary := t.unitary
        lot := if lv.lotDef then lv.lot else detUnit t.unitary
        chp := if lv.chpDef then lv.chp else detUnit t.unitary
        dev := if lv.devDef then lv.dev else detUnit t.unitary
        vrtnType := some t } := by
  unfold LatentVar.setVrtnType
  rw [ht]
  simp only [hne, if_false]
  obtain ⟨u, dev, chp, lot, d, c, l, dv, n, vt⟩ := lv
  cases d <;> cases c <;> cases l <;> rfl

theorem ofString_cases (s : String) :
    (s = "scaling" ∧ VType.ofString s = some .scaling) ∨
    (s = "offset" ∧ VType.ofString s = some .offset) ∨
    (s ≠ "scaling" ∧ s ≠ "offset" ∧ VType.ofString s = none) := by
  unfold VType.ofString
  by_cases h1 : s = "scaling"
  · left; simp [h1]
  · by_cases h2 : s = "offset"
    · right; left; simp [h2]
    · right; right; simp [h1, h2]

theorem unitary_eq (t : VType) :
    (t.unitary : V) = if t = .scaling then PyArith.ofRat 1 else PyArith.ofRat 0 := by
  cases t <;> rfl

/-- Every assignment keeps the object in agreement with the configuration. -/
theorem LatentInv.assign {lv : LatentVar V} {cfg : LatentCfg V} (h : LatentInv lv cfg)
    (a : LatentAssign V) :
    match lv.assign a with
    | .ok lv' => LatentInv lv' (cfg.record a)
    | .error _ => LatentInv lv (cfg.record a) := by
  cases a with
  | dev r => exact ⟨h.vtype, h.unit, h.base, LayerOk.of_arg _ r, h.chp, h.lot⟩
  | chp r => exact ⟨h.vtype, h.unit, h.base, h.dev, LayerOk.of_arg _ r, h.lot⟩
  | lot r => exact ⟨h.vtype, h.unit, h.base, h.dev, h.chp, LayerOk.of_arg _ r⟩
  | deterVal v => exact ⟨h.vtype, h.unit, rfl, h.dev, h.chp, h.lot⟩
  | name s =>
    cases s with
    | none => exact ⟨h.vtype, h.unit, h.base, h.dev, h.chp, h.lot⟩
    | some n =>
      refine ⟨h.vtype, h.unit, h.base, ?_, ?_, ?_⟩
      · show LayerOk lv.unitary cfg.dev (if lv.devDef then _ else lv.dev) lv.devDef
        split
        · exact h.dev.rename _
        · exact h.dev
      · show LayerOk lv.unitary cfg.chp (if lv.chpDef then _ else lv.chp) lv.chpDef
        split
        · exact h.chp.rename _
        · exact h.chp
      · show LayerOk lv.unitary cfg.lot (if lv.lotDef then _ else lv.lot) lv.lotDef
        split
        · exact h.lot.rename _
        · exact h.lot
  | vrtnType s =>
    simp only [LatentVar.assign]
    rcases ofString_cases s with ⟨rfl, ht⟩ | ⟨rfl, ht⟩ | ⟨h1, h2, ht⟩
    · by_cases hv : lv.vrtnType = some .scaling
      · have : lv.setVrtnType "scaling" = .ok lv := by
          unfold LatentVar.setVrtnType; rw [ht]; simp [hv]
        rw [this]
        have hs : cfg.scaling = true := by
          have := h.vtype; rw [hv] at this
          by_contra hc
          simp [hc] at this
        have hc : cfg.record (.vrtnType "scaling") = cfg := by
          cases cfg; simp only [LatentCfg.record, if_true] at *; rw [hs]
        simp only [hc]
        exact h
      · rw [setVrtnType_ok ht hv]
        exact ⟨rfl, rfl, h.base, h.dev.reset _, h.chp.reset _, h.lot.reset _⟩
    · by_cases hv : lv.vrtnType = some .offset
      · have : lv.setVrtnType "offset" = .ok lv := by
          unfold LatentVar.setVrtnType; rw [ht]; simp [hv]
        rw [this]
        have hs : cfg.scaling = false := by
          have := h.vtype; rw [hv] at this
          by_contra hc
          simp [hc] at this
        have hc : cfg.record (.vrtnType "offset") = cfg := by
          cases cfg
          have e : ¬ ("offset" = "scaling") := by decide
          simp only [LatentCfg.record, e, if_true, if_false] at *; rw [hs]
        simp only [hc]
        exact h
      · rw [setVrtnType_ok ht hv]
        exact ⟨rfl, rfl, h.base, h.dev.reset _, h.chp.reset _, h.lot.reset _⟩
    · have : lv.setVrtnType s = .error .invalidType := by
        unfold LatentVar.setVrtnType; rw [ht]
      rw [this]
      have hc : cfg.record (.vrtnType s) = cfg := by
        simp only [LatentCfg.record, h1, h2, if_false]
      simp only [hc]
      exact h

theorem LatentInv.history {lv : LatentVar V} {cfg : LatentCfg V} (h : LatentInv lv cfg)
    (as : List (LatentAssign V)) : LatentInv (lv.history as) (as.foldl LatentCfg.record cfg) := by
  induction as generalizing lv cfg with
  | nil => exact h
  | cons a as ih =>
    have ha := h.assign a
    simp only [LatentVar.history, List.foldl_cons]
    split at ha <;> rename_i heq <;> rw [heq] <;> exact ih ha

/-- The constructed object agrees with the constructor arguments. -/
theorem LatentInv.mk' {dev chp lot : Option (RVar V)} {base : Option V} {name : Option String}
    {vt : String} {lv : LatentVar V} (h : LatentVar.mk' dev chp lot base name vt = .ok lv) :
    LatentInv lv ⟨layerOf dev, layerOf chp, layerOf lot, base, decide (vt = "scaling")⟩ := by
  -- before `vrtn_type` is assigned
  let lv0 : LatentVar V :=
    ({ (((LatentVar.blank.setDev dev).setChp chp).setLot lot) with deterVal := base }).setName name
  have hd : LayerOk lv0.unitary (layerOf dev) lv0.dev lv0.devDef ∧
      LayerOk lv0.unitary (layerOf chp) lv0.chp lv0.chpDef ∧
      LayerOk lv0.unitary (layerOf lot) lv0.lot lv0.lotDef ∧ lv0.deterVal = base ∧
      lv0.vrtnType = none := by
    cases name with
    | none =>
      exact ⟨LayerOk.of_arg _ dev, LayerOk.of_arg _ chp, LayerOk.of_arg _ lot, rfl, rfl⟩
    | some n =>
      refine ⟨?_, ?_, ?_, rfl, rfl⟩
      · cases dev with
        | none => exact LayerOk.of_arg _ none
        | some r => exact (LayerOk.of_arg _ (some r)).rename _
      · cases chp with
        | none => exact LayerOk.of_arg _ none
        | some r => exact (LayerOk.of_arg _ (some r)).rename _
      · cases lot with
        | none => exact LayerOk.of_arg _ none
        | some r => exact (LayerOk.of_arg _ (some r)).rename _
  obtain ⟨h1, h2, h3, h4, h5⟩ := hd
  unfold LatentVar.mk' at h
  simp only at h
  change (match lv0.setVrtnType vt with
    | .error e => (Except.error e : Except Err (LatentVar V))
    | .ok lv => if dev.isNone && base.isNone then Except.error Err.userConfig
      else Except.ok lv) = Except.ok lv at h
  rcases ofString_cases vt with ⟨rfl, ht⟩ | ⟨rfl, ht⟩ | ⟨hn1, hn2, ht⟩
  · rw [setVrtnType_ok ht (by rw [h5]; simp)] at h
    simp only at h
    split at h
    · cases h
    · cases h
      exact ⟨rfl, rfl, h4, h1.reset _, h2.reset _, h3.reset _⟩
  · rw [setVrtnType_ok ht (by rw [h5]; simp)] at h
    simp only at h
    split at h
    · cases h
    · cases h
      exact ⟨rfl, rfl, h4, h1.reset _, h2.reset _, h3.reset _⟩
  · have : lv0.setVrtnType vt = .error .invalidType := by
      unfold LatentVar.setVrtnType; rw [ht]
    rw [this] at h
    cases h

section sampling
variable {W : Type} [Rng W V]

/-- The draws of an object in agreement with the configuration. -/
theorem LayerOk.sample {u : V} {layer : Option (Nat × Dist V)} {r : RVar V} {flag : Bool}
    (h : LayerOk u layer r flag) (n : Nat) :
    (r.sample n : M W (List V)) =
      (drawLayer layer n >>= fun o => pure (o.getD (List.replicate n u))) := by
  obtain ⟨_, h2⟩ := h
  cases layer with
  | none =>
    simp only at h2
    unfold RVar.sample
    rw [h2]
    rfl
  | some p =>
    obtain ⟨i, d⟩ := p
    simp only at h2
    obtain ⟨rfl, rfl⟩ := h2
    unfold drawLayer
    simp only [M.bind_assoc', M.pure_bind', Option.getD_some]
    rw [M.bind_pure']
    unfold RVar.sample
    rfl

theorem sample_length [LawfulRng W V] {r : RVar V} {n : Nat} {w w' : W} {xs : List V}
    (h : r.sample n w = (.ok xs, w')) : xs.length = n := by
  obtain ⟨i, d, nm⟩ := r
  cases d with
  | deterministic v => cases h; simp
  | _ =>
    obtain ⟨ps, w1, _, h2⟩ := M.bind_eq_ok.1 h
    exact LawfulRng.length h2

theorem drawLayer_length [LawfulRng W V] {layer : Option (Nat × Dist V)} {n : Nat} {w w' : W}
    {xs : List V} (h : drawLayer layer n w = (.ok (some xs), w')) : xs.length = n := by
  cases layer with
  | none => cases h
  | some p =>
    obtain ⟨ys, w1, h1, h2⟩ := M.bind_eq_ok.1 h
    cases h2
    exact sample_length h1

omit [Rng W V] in
theorem at_mk {L C D : Nat} (xs : List V) (h : xs.length = L * C * D) (l c d : Nat) :
    (⟨L, C, D, xs, h⟩ : Arr3 V).at' l c d = xs.getD ((l * C + c) * D + d) default := rfl

/-- `gen_latent_vals` when all draws succeed. -/
theorem genLatentVals_run (lv : LatentVar V) {L C D : Nat} {w w1 w2 w3 : W}
    {lotS chpS devS : List V}
    (h1 : lv.lot.sample L w = (.ok lotS, w1)) (h2 : lv.chp.sample (L * C) w1 = (.ok chpS, w2))
    (h3 : lv.dev.sample (L * C * D) w2 = (.ok devS, w3))
    (l1 : lotS.length = L) (l2 : chpS.length = L * C) (l3 : devS.length = L * C * D) :
    lv.genLatentVals D C L w = (.ok (Arr3.ofFn L C D fun l c d =>
      lv.op (lv.op (match lv.deterVal with
        | some v => lv.op v (devS.getD ((l * C + c) * D + d) default)
        | none => devS.getD ((l * C + c) * D + d) default)
        (chpS.getD (l * C + c) default)) (lotS.getD l default)), w3) := by
  unfold LatentVar.genLatentVals
  have r1 : lotS.length = L * 1 * 1 := by rw [l1]; ring
  have r2 : chpS.length = L * C * 1 := by rw [l2]; ring
  rw [M.bind_ok h1, Arr3.reshape_ok r1, M.bind_ok (rfl : M.ofExcept (Except.ok _) w1 = (.ok _, w1)),
    M.bind_ok h2, Arr3.reshape_ok r2, M.bind_ok (rfl : M.ofExcept (Except.ok _) w2 = (.ok _, w2)),
    M.bind_ok h3, Arr3.reshape_ok l3, M.bind_ok (rfl : M.ofExcept (Except.ok _) w3 = (.ok _, w3))]
  have key : ∀ vals : Arr3 V, vals.HasDims L C D → ∀ f : Nat → Nat → Nat → V,
      (∀ l < L, ∀ c < C, ∀ d < D, vals.at' l c d = f l c d) →
      (M.ofExcept (Arr3.bcast2 lv.op vals ⟨L, C, 1, chpS, r2⟩) >>= fun x =>
        M.ofExcept (Arr3.bcast2 lv.op x ⟨L, 1, 1, lotS, r1⟩)) w3 =
      (.ok (Arr3.ofFn L C D fun l c d =>
        lv.op (lv.op (f l c d) (chpS.getD (l * C + c) default)) (lotS.getD l default)), w3) := by
    intro vals hv f hf
    rw [Arr3.bcast2_chp lv.op vals ⟨L, C, 1, chpS, r2⟩ hv ⟨rfl, rfl, rfl⟩,
      M.bind_ok (rfl : M.ofExcept (Except.ok _) w3 = (.ok _, w3)),
      Arr3.bcast2_lot lv.op _ ⟨L, 1, 1, lotS, r1⟩ (Arr3.ofFn_hasDims L C D _) ⟨rfl, rfl, rfl⟩]
    simp only [M.ofExcept_run]
    congr 2
    apply Arr3.ofFn_congr
    intro l hl c hc d hd
    rw [Arr3.at_ofFn _ hl hc hd, hf l hl c hc d hd, at_mk, at_mk]
    simp
  cases hdv : lv.deterVal with
  | none =>
    simp only [M.pure_bind']
    exact key _ ⟨rfl, rfl, rfl⟩ _ (fun l _ c _ d _ => rfl)
  | some v =>
    simp only
    rw [Arr3.bcast2_same lv.op (Arr3.full L C D v) ⟨L, C, D, devS, l3⟩ ⟨rfl, rfl, rfl⟩ ⟨rfl, rfl, rfl⟩,
      M.bind_ok (rfl : M.ofExcept (Except.ok _) w3 = (.ok _, w3))]
    refine key _ (Arr3.ofFn_hasDims L C D _) _ ?_
    intro l hl c hc d hd
    rw [Arr3.at_ofFn _ hl hc hd, Arr3.at_full v hl hc hd, at_mk]

/-- Inversion: a successful `gen_latent_vals` consists of the three draws. -/
theorem genLatentVals_ok_inv (lv : LatentVar V) {L C D : Nat} {w w3 : W} {r : Arr3 V}
    (h : lv.genLatentVals D C L w = (.ok r, w3)) :
    ∃ lotS chpS devS w1 w2, lv.lot.sample L w = (.ok lotS, w1) ∧
      lv.chp.sample (L * C) w1 = (.ok chpS, w2) ∧
      lv.dev.sample (L * C * D) w2 = (.ok devS, w3) ∧
      lotS.length = L ∧ chpS.length = L * C ∧ devS.length = L * C * D := by
  unfold LatentVar.genLatentVals at h
  obtain ⟨lotS, w1, h1, h⟩ := M.bind_eq_ok.1 h
  obtain ⟨lot, w1', h1', h⟩ := M.bind_eq_ok.1 h
  obtain ⟨chpS, w2, h2, h⟩ := M.bind_eq_ok.1 h
  obtain ⟨chp, w2', h2', h⟩ := M.bind_eq_ok.1 h
  obtain ⟨devS, w3', h3, h⟩ := M.bind_eq_ok.1 h
  obtain ⟨dev, w3'', h3', h⟩ := M.bind_eq_ok.1 h
  simp only [M.ofExcept_run, Prod.mk.injEq] at h1' h2' h3'
  obtain ⟨e1, rfl⟩ := h1'
  obtain ⟨e2, rfl⟩ := h2'
  obtain ⟨e3, rfl⟩ := h3'
  have hw : w3' = w3 := by
    cases hdv : lv.deterVal with
    | none =>
      rw [hdv] at h
      obtain ⟨vals, w4, h4, h⟩ := M.bind_eq_ok.1 h
      obtain ⟨x, w5, h5, h6⟩ := M.bind_eq_ok.1 h
      simp only [M.ofExcept_run, Prod.mk.injEq] at h5 h6
      cases h4
      rw [← h6.2, ← h5.2]
    | some v =>
      rw [hdv] at h
      obtain ⟨vals, w4, h4, h⟩ := M.bind_eq_ok.1 h
      obtain ⟨x, w5, h5, h6⟩ := M.bind_eq_ok.1 h
      simp only [M.ofExcept_run, Prod.mk.injEq] at h4 h5 h6
      rw [← h6.2, ← h5.2, ← h4.2]
  subst hw
  obtain ⟨a1, a2, a3, a4⟩ := Arr3.reshape_eq_ok.1 e1
  obtain ⟨b1, b2, b3, b4⟩ := Arr3.reshape_eq_ok.1 e2
  obtain ⟨c1, c2, c3, c4⟩ := Arr3.reshape_eq_ok.1 e3
  refine ⟨lotS, chpS, devS, w1, w2, h1, h2, h3, ?_, ?_, ?_⟩
  · rw [← a4, lot.wf, a1, a2, a3]; ring
  · rw [← b4, chp.wf, b1, b2, b3]; ring
  · rw [← c4, dev.wf, c1, c2, c3]

omit [Rng W V] in
theorem getD_replicate {n i : Nat} (u : V) (hi : i < n) : (List.replicate n u).getD i default = u := by
  rw [List.getD_eq_getElem _ _ (by simpa using hi)]; simp

omit [Rng W V] in
/-- Combining with identities for the missing layers equals combining the present ones. -/
theorem combine_units [UnitLaws V] (s : Bool) (base : Option V) (devS chpS lotS : Option (List V))
    {nd nc nl i j k : Nat} (hi : i < nd) (hj : j < nc) (hk : k < nl) :
    let op : V → V → V := if s then PyArith.mul else PyArith.add
    let u : V := if s then PyArith.ofRat 1 else PyArith.ofRat 0
    op (op (match base with
        | some v => op v ((devS.getD (List.replicate nd u)).getD i default)
        | none => (devS.getD (List.replicate nd u)).getD i default)
        ((chpS.getD (List.replicate nc u)).getD j default))
        ((lotS.getD (List.replicate nl u)).getD k default) =
      combine s (base.toList ++ pick devS i ++ pick chpS j ++ pick lotS k) := by
  intro op u
  have hr : ∀ x, op x u = x := by
    intro x; cases s
    · exact UnitLaws.add_zero x
    · exact UnitLaws.mul_one x
  have hl : ∀ x, op u x = x := by
    intro x; cases s
    · exact UnitLaws.zero_add x
    · exact UnitLaws.one_mul x
  have hop : (if s then PyArith.mul else PyArith.add : V → V → V) = op := rfl
  have hu : (if s then PyArith.ofRat 1 else PyArith.ofRat 0 : V) = u := rfl
  have g1 := getD_replicate u hi
  have g2 := getD_replicate u hj
  have g3 := getD_replicate u hk
  clear_value op u
  cases base <;> cases devS <;> cases chpS <;> cases lotS <;>
    simp only [combine, pick, Option.getD_none, Option.getD_some, g1, g2, g3, hr, hl, hop, hu,
      Option.toList_none, Option.toList_some, List.append_nil, List.nil_append, List.cons_append,
      List.foldl_cons, List.foldl_nil]

/-- Sampling an object equals sampling what the user configured. -/
theorem LatentInv.sample [LawfulRng W V] [UnitLaws V] {lv : LatentVar V} {cfg : LatentCfg V}
    (h : LatentInv lv cfg) (L C D : Nat) (w : W) :
    lv.genLatentVals D C L w = sampleCfg cfg L C D w := by
  have hop : lv.op = if cfg.scaling then PyArith.mul else PyArith.add := by
    unfold LatentVar.op; rw [h.vtype]
    cases cfg.scaling <;> rfl
  -- draws of the object
  have s1 := fun n w => congrFun (h.lot.sample (W := W) n) w
  have s2 := fun n w => congrFun (h.chp.sample (W := W) n) w
  have s3 := fun n w => congrFun (h.dev.sample (W := W) n) w
  unfold sampleCfg
  rcases hd1 : drawLayer cfg.lot L w with ⟨r1, w1⟩
  cases r1 with
  | error e =>
    rw [M.bind_error hd1]
    unfold LatentVar.genLatentVals
    apply M.bind_error
    rw [s1, M.bind_error hd1]
  | ok o1 =>
    have e1 : lv.lot.sample L w = (.ok (o1.getD (List.replicate L lv.unitary)), w1) := by
      rw [s1, M.bind_ok hd1]; rfl
    have l1 : (o1.getD (List.replicate L lv.unitary)).length = L := by
      cases o1 with
      | none => simp
      | some xs => exact drawLayer_length hd1
    rw [M.bind_ok hd1]
    rcases hd2 : drawLayer cfg.chp (L * C) w1 with ⟨r2, w2⟩
    cases r2 with
    | error e =>
      rw [M.bind_error hd2]
      unfold LatentVar.genLatentVals
      have r1 : (o1.getD (List.replicate L lv.unitary)).length = L * 1 * 1 := by rw [l1]; ring
      rw [M.bind_ok e1, Arr3.reshape_ok r1,
        M.bind_ok (rfl : M.ofExcept (Except.ok _) w1 = (.ok _, w1))]
      apply M.bind_error
      rw [s2, M.bind_error hd2]
    | ok o2 =>
      have e2 : lv.chp.sample (L * C) w1 = (.ok (o2.getD (List.replicate (L * C) lv.unitary)), w2) := by
        rw [s2, M.bind_ok hd2]; rfl
      have l2 : (o2.getD (List.replicate (L * C) lv.unitary)).length = L * C := by
        cases o2 with
        | none => simp
        | some xs => exact drawLayer_length hd2
      rw [M.bind_ok hd2]
      rcases hd3 : drawLayer cfg.dev (L * C * D) w2 with ⟨r3, w3⟩
      cases r3 with
      | error e =>
        rw [M.bind_error hd3]
        unfold LatentVar.genLatentVals
        have r1 : (o1.getD (List.replicate L lv.unitary)).length = L * 1 * 1 := by rw [l1]; ring
        have r2 : (o2.getD (List.replicate (L * C) lv.unitary)).length = L * C * 1 := by rw [l2]; ring
        rw [M.bind_ok e1, Arr3.reshape_ok r1,
          M.bind_ok (rfl : M.ofExcept (Except.ok _) w1 = (.ok _, w1)), M.bind_ok e2,
          Arr3.reshape_ok r2, M.bind_ok (rfl : M.ofExcept (Except.ok _) w2 = (.ok _, w2))]
        apply M.bind_error
        rw [s3, M.bind_error hd3]
      | ok o3 =>
        have e3 : lv.dev.sample (L * C * D) w2 =
            (.ok (o3.getD (List.replicate (L * C * D) lv.unitary)), w3) := by
          rw [s3, M.bind_ok hd3]; rfl
        have l3 : (o3.getD (List.replicate (L * C * D) lv.unitary)).length = L * C * D := by
          cases o3 with
          | none => simp
          | some xs => exact drawLayer_length hd3
        rw [M.bind_ok hd3, genLatentVals_run lv e1 e2 e3 l1 l2 l3]
        simp only [M.pure_run]
        congr 2
        unfold layeredVals
        apply Arr3.ofFn_congr
        intro l hl c hc d hd
        have hlc : l * C + c < L * C := by
          have := Arr3.index_lt (D := 1) hl hc (Nat.zero_lt_one)
          omega
        have := combine_units cfg.scaling cfg.base o3 o2 o1 (Arr3.index_lt hl hc hd) hlc hl
        simp only at this
        rw [← this, hop, h.base, h.unit]

end sampling

end Gerabaldi
