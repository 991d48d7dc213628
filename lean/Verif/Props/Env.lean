import Verif.Lemmas.EnvOrder
import Verif.Props.Instrument
import Verif.Spec.ExampleDevice

/-! # Properties of test environments: C10 (environment), C17, C18, C19, C21 (default instrument) -/

namespace Gerabaldi.Props
open Spec

variable {V : Type} [PyArith V] {W : Type} [Rng W V]

/-! ## C10: unspecified layers of an environmental variation -/

/-- C10 for `EnvVrtnMdl`: after construction and any history of assignments (failed ones included),
sampling is sampling of what the user configured last. -/
theorem C10_env [LawfulRng W V] [UnitLaws V] {dev chp batch : Option (RVar V)} {vt : String}
    {name : Option String} {m : EnvVrtnMdl V} (h : EnvVrtnMdl.mk' dev chp batch vt name = .ok m)
    (as : List (EnvAssign V)) (base : V) (L C D : Nat) (w : W) :
    (m.history as).genEnvVrtns base D C L w = sampleEnv (as.foldl EnvCfg.record
      ⟨layerOf batch, layerOf chp, layerOf dev, decide (vt = "scaling")⟩) base L C D w :=
  congrFun (((EnvInv.mk' h).history as).sample base L C D) w

/-- Scaling variation with a batch layer. -/
def exVrtn : Except Err (EnvVrtnMdl (Ext ℚ)) :=
  EnvVrtnMdl.mk' none none (some ⟨1, .normal (.fin 0) (.fin 1), none⟩) "scaling" none

example : exVrtn.toOption.isSome = true := by decide +kernel

-- after the history: offset, chip layer 2 only
example : (exVrtn.toOption.map fun m => ((m.history [.vrtnType "offset", .vrtnType "sum",
      .chp (some ⟨2, .uniform (.fin 0) (.fin 1), none⟩), .batch none]).genEnvVrtns (.fin 7) 2 2 1
        Counts.start).1.toOption.map (·.data)) =
    some (some [.fin 207, .fin 207, .fin 208, .fin 208]) := by decide +kernel

/-! ## C17: an ideal environment applies exactly the requested conditions -/

/-- A condition without a variation model gets the identity. -/
theorem ideal_run [LawfulRng W V] [UnitLaws V] {env : PhysTestEnv V} {cond : String}
    (hid : env.vars.get? cond = none) :
    (∀ v : V, ((env.vrtnMdl cond).genBatch v : M W V) = pure v) ∧
    (∀ (v : V) (C L : Nat), ((env.vrtnMdl cond).genChp v C L : M W (Arr3 V)) =
      pure (Arr3.full L C 1 v)) ∧
    (∀ (v : V) (L C D : Nat), ((env.vrtnMdl cond).genDev (Arr3.full L C 1 v) D : M W (Arr3 V)) =
      pure (Arr3.full L C D v)) := by
  have hm : EnvInv (env.vrtnMdl cond) ⟨none, none, none, false⟩ := by
    unfold PhysTestEnv.vrtnMdl; rw [hid]; exact EnvInv.ideal
  refine ⟨fun v => ?_, fun v C L => ?_, fun v L C D => ?_⟩
  · rw [hm.genBatch]; rfl
  · rw [hm.genChp]; rfl
  · rw [hm.genDev (Arr3.full L C 1 v) ⟨rfl, rfl, rfl⟩]
    show (pure _ : M W (Arr3 V)) = _
    congr 1
    apply Arr3.ofFn_congr
    intro l hl c hc d hd
    show (Arr3.full L C 1 v).at' l c 0 = v
    exact Arr3.at_full v hl hc Nat.zero_lt_one

/-- C17 for device parameters: every device of every parameter that needs a condition without variation
sees exactly the requested value. -/
theorem C17_device [LawfulRng W V] [UnitLaws V] {env : PhysTestEnv V} {ord : SetOrder}
    {base : Dict V} (hb : base.Nodup) {prms : PrmSel} {info : Option Quantities}
    {dm : DeviceMdl W V} {t : Target} {nc nl : Nat} {w w' : W} {r : Dict (Dict (Arr3 V))}
    (h : env.genEnvCondVals ord base prms info (some dm) t nc nl w = (.ok r, w'))
    {cond : String} (hid : env.vars.get? cond = none) {v : V} (hv : base.get? cond = some v)
    {prm : String} (hprm : prm ∈ prms.toList) {p : PrmMdl W V} (hp : dm.prms.get? prm = some p)
    (hn : NeedsCond p t cond) :
    ∃ n counts, prms.devCounts info = .ok counts ∧ counts.get? prm = some n ∧
      condOf r prm cond = some (Arr3.full ((info.map (·.numLots)).getD nl)
        ((info.map (·.numChps)).getD nc) n v) := by
  obtain ⟨i1, i2, i3⟩ := ideal_run (W := W) hid
  obtain ⟨shared, counts, w1, h1, h2, h3⟩ := genEnvCondVals_inv h
  obtain ⟨b, c, u1, u2, u3, s1, s2, s3⟩ := shared_get hb h1 hv
  rw [i1] at s2
  obtain ⟨rfl, rfl⟩ := M.pure_eq_ok.1 s2
  rw [i2] at s3
  obtain ⟨rfl, rfl⟩ := M.pure_eq_ok.1 s3
  obtain ⟨d, u4, u5, r1, r2⟩ := result_get h3 hprm
  obtain ⟨q, _⟩ := depend_get hp r2
  obtain ⟨a, bc, n, u6, u7, q1, q2, q3, q4⟩ := q cond (Dict.mem_keys_of_get? hv) hn
  rw [s1] at q2
  cases q2
  rw [i3] at q4
  obtain ⟨rfl, rfl⟩ := M.pure_eq_ok.1 q4
  refine ⟨n, counts, h2, q3, ?_⟩
  unfold condOf
  rw [r1]
  exact q1

/-- C17 for sensors: a measured condition without variation is reported by `n` sensors with exactly the
requested value. -/
theorem C17_sensor [LawfulRng W V] [UnitLaws V] {env : PhysTestEnv V} {ord : SetOrder}
    {base : Dict V} (hb : base.Nodup) {prms : PrmSel} {info : Option Quantities}
    {dev : Option (DeviceMdl W V)} {t : Target} {nc nl : Nat} {w w' : W} {r : Dict (Dict (Arr3 V))}
    (h : env.genEnvCondVals ord base prms info dev t nc nl w = (.ok r, w'))
    {cond : String} (hid : env.vars.get? cond = none) {v : V} (hv : base.get? cond = some v)
    (hprm : cond ∈ prms.toList) (hp : ∀ dm, dev = some dm → dm.prms.get? cond = none) :
    ∃ n counts, prms.devCounts info = .ok counts ∧ counts.get? cond = some n ∧
      r.get? cond = some [(cond, Arr3.full 1 n 1 v)] := by
  obtain ⟨i1, i2, i3⟩ := ideal_run (W := W) hid
  obtain ⟨shared, counts, w1, h1, h2, h3⟩ := genEnvCondVals_inv h
  obtain ⟨b, c, u1, u2, u3, s1, s2, s3⟩ := shared_get hb h1 hv
  rw [i1] at s2
  obtain ⟨rfl, rfl⟩ := M.pure_eq_ok.1 s2
  obtain ⟨d, u4, u5, r1, r2⟩ := result_get h3 hprm
  have hp' : (dev.bind fun d => d.prms.get? cond) = none := by
    cases dev with
    | none => rfl
    | some dm => exact hp dm rfl
  obtain ⟨bc, n, s, a, u6, q1, q2, q3, q4, rfl⟩ := sensor_get hp' r2
  rw [s1] at q1
  cases q1
  rw [i2] at q3
  obtain ⟨rfl, rfl⟩ := M.pure_eq_ok.1 q3
  rw [i3] at q4
  obtain ⟨rfl, rfl⟩ := M.pure_eq_ok.1 q4
  exact ⟨n, counts, h2, q2, r1⟩

/-- C17: if no condition of the step has a variation model, no random state is consumed, whatever the
outcome. -/
theorem C17_no_randomness [LawfulRng W V] [UnitLaws V] {env : PhysTestEnv V} (ord : SetOrder)
    {base : Dict V} (prms : PrmSel) (info : Option Quantities) (dev : Option (DeviceMdl W V))
    (t : Target) (nc nl : Nat) (w : W) (hid : ∀ cond ∈ base.keys, env.vars.get? cond = none) :
    (env.genEnvCondVals ord base prms info dev t nc nl w).2 = w := by
  have hinv : ∀ cond ∈ base.keys, EnvInv (env.vrtnMdl cond) ⟨none, none, none, false⟩ := by
    intro cond hc
    unfold PhysTestEnv.vrtnMdl; rw [hid cond hc]; exact EnvInv.ideal
  have kb : ∀ cond ∈ base.keys, ∀ v : V, M.Keeps ((env.vrtnMdl cond).genBatch v : M W V) := by
    intro cond hc v; rw [(hinv cond hc).genBatch]; exact M.Keeps.pure _
  have kc : ∀ cond ∈ base.keys, ∀ (v : V) C L,
      M.Keeps ((env.vrtnMdl cond).genChp v C L : M W (Arr3 V)) := by
    intro cond hc v C L; rw [(hinv cond hc).genChp]; exact M.Keeps.pure _
  have kd : ∀ cond ∈ base.keys, ∀ (a : Arr3 V) D,
      M.Keeps ((env.vrtnMdl cond).genDev a D : M W (Arr3 V)) := by
    intro cond hc a D
    unfold EnvVrtnMdl.genDev
    refine M.Keeps.bind ?_ fun xs => (M.Keeps.ofExcept _).bind fun _ => M.Keeps.ofExcept _
    rw [(hinv cond hc).dev.sample]
    exact M.Keeps.pure _
  -- the loop over the conditions, then the loop over the parameters
  rcases hs : M.forIn' (env.genShared ((info.map (·.numChps)).getD nc)
      ((info.map (·.numLots)).getD nl)) base [] w with ⟨rs, w1⟩
  have hw1 : w1 = w := by
    have hk : M.Keeps (M.forIn' (env.genShared ((info.map (·.numChps)).getD nc)
      ((info.map (·.numLots)).getD nl)) base [] : M W _) := by
      refine M.Keeps.forIn' (fun kv hkv b => ?_) []
      have hc : kv.1 ∈ base.keys := List.mem_map_of_mem hkv
      exact (kb _ hc _).bind fun _ => (kc _ hc _ _ _).bind fun _ => M.Keeps.pure _
    have := hk w
    rw [hs] at this
    exact this
  subst hw1
  unfold PhysTestEnv.genEnvCondVals
  cases rs with
  | error e => rw [M.bind_error hs]
  | ok shared =>
    rw [M.bind_ok hs]
    refine ((M.Keeps.ofExcept _).bind fun counts => M.Keeps.forIn' (fun prm _ acc => ?_) []) w1
    refine M.Keeps.bind ?_ fun _ => M.Keeps.pure _
    unfold PhysTestEnv.genPrmConds
    split
    · rename_i p hp
      refine M.Keeps.forIn' (fun cond hc b => ?_) []
      have hc' := ((mem_dependencies ord p base.keys t cond).1 hc).1
      exact (M.Keeps.ofExcept _).bind fun _ => (M.Keeps.ofExcept _).bind fun _ =>
        (kd _ hc' _ _).bind fun _ => M.Keeps.pure _
    · intro u
      unfold PhysTestEnv.genSensor
      cases hk : shared.getE prm with
      | error e => rfl
      | ok bc =>
        have hc := shared_keys hs (Dict.getE_eq_ok.1 hk)
        exact (M.Keeps.ofExcept _).bind (fun _ => (M.Keeps.ofExcept _).bind fun _ =>
          (kc _ hc _ _ _).bind fun _ => (kd _ hc _ _).bind fun _ => M.Keeps.pure _) u

/-! ## C18: environmental variation is shared at the right level -/

/-- What one layer draw contributes. -/
theorem genChp_ok {m : EnvVrtnMdl V} {b : V} {C L : Nat} {w w' : W} {a : Arr3 V}
    (h : m.genChp b C L w = (.ok a, w')) :
    ∃ xs, m.chp.sample (C * L) w = (.ok xs, w') ∧ xs.length = L * C ∧ a.HasDims L C 1 ∧
      ∀ l < L, ∀ c < C, ∃ x, xs[l * C + c]? = some x ∧ a.at' l c 0 = m.op b x := by
  unfold EnvVrtnMdl.genChp at h
  obtain ⟨xs, w1, h1, h⟩ := M.bind_eq_ok.1 h
  obtain ⟨a0, w2, h2, h3⟩ := M.bind_eq_ok.1 h
  obtain ⟨rfl, rfl⟩ := M.pure_eq_ok.1 h3
  obtain ⟨e, rfl⟩ := M.ofExcept_eq_ok.1 h2
  obtain ⟨r1, r2, r3, r4⟩ := Arr3.reshape_eq_ok.1 e
  have hlen : xs.length = L * C := by rw [← r4, a0.wf, r1, r2, r3]; ring
  refine ⟨xs, h1, hlen, ⟨r1, r2, r3⟩, ?_⟩
  intro l hl c hc
  have hi : l * C + c < xs.length := by
    rw [hlen]
    have := Arr3.index_lt (D := 1) (d := 0) hl hc Nat.zero_lt_one
    omega
  refine ⟨xs[l * C + c], List.getElem?_eq_getElem hi, ?_⟩
  rw [Arr3.at_map _ _ (by omega) (by omega) (by omega)]
  congr 1
  unfold Arr3.at'
  rw [r4, r2, r3]
  simp only [Nat.mul_one, Nat.add_zero]
  rw [List.getD_eq_getElem _ _ hi]

theorem genDev_ok {m : EnvVrtnMdl V} {b : Arr3 V} {L C D : Nat} (hb : b.HasDims L C 1) {w w' : W}
    {a : Arr3 V} (h : m.genDev b D w = (.ok a, w')) :
    ∃ xs, m.dev.sample (D * (L * C)) w = (.ok xs, w') ∧ xs.length = L * C * D ∧ a.HasDims L C D ∧
      ∀ l < L, ∀ c < C, ∀ d < D, ∃ x, xs[(l * C + c) * D + d]? = some x ∧
        a.at' l c d = m.op (b.at' l c 0) x := by
  unfold EnvVrtnMdl.genDev at h
  rw [hb.1, hb.2.1] at h
  obtain ⟨xs, w1, h1, h⟩ := M.bind_eq_ok.1 h
  obtain ⟨a0, w2, h2, h3⟩ := M.bind_eq_ok.1 h
  obtain ⟨e, rfl⟩ := M.ofExcept_eq_ok.1 h2
  obtain ⟨e3, rfl⟩ := M.ofExcept_eq_ok.1 h3
  obtain ⟨r1, r2, r3, r4⟩ := Arr3.reshape_eq_ok.1 e
  have hlen : xs.length = L * C * D := by rw [← r4, a0.wf, r1, r2, r3]
  rw [Arr3.bcast2_chp_left m.op b a0 hb ⟨r1, r2, r3⟩] at e3
  cases e3
  refine ⟨xs, h1, hlen, Arr3.ofFn_hasDims _ _ _ _, ?_⟩
  intro l hl c hc d hd
  have hi : (l * C + c) * D + d < xs.length := by rw [hlen]; exact Arr3.index_lt hl hc hd
  refine ⟨xs[(l * C + c) * D + d], List.getElem?_eq_getElem hi, ?_⟩
  rw [Arr3.at_ofFn _ hl hc hd]
  congr 1
  unfold Arr3.at'
  rw [r4, r2, r3, List.getD_eq_getElem _ _ hi]

theorem genBatch_ok {m : EnvVrtnMdl V} {v b : V} {w w' : W} (h : m.genBatch v w = (.ok b, w')) :
    ∃ x, m.batch.sample 1 w = (.ok [x], w') ∧ b = m.op v x := by
  unfold EnvVrtnMdl.genBatch at h
  obtain ⟨xs, w1, h1, h⟩ := M.bind_eq_ok.1 h
  obtain ⟨x, w2, h2, h3⟩ := M.bind_eq_ok.1 h
  obtain ⟨rfl, rfl⟩ := M.pure_eq_ok.1 h3
  obtain ⟨e, rfl⟩ := M.ofExcept_eq_ok.1 h2
  match xs, e with
  | [y], e => cases e; exact ⟨_, h1, rfl⟩

/-- C18: for every condition of the step there is one batch draw and one draw per chip, and for every
parameter that needs the condition the value of device `d` on chip `c` of lot `l` is
`base op batch op chip[l,c] op dev[l,c,d]` with device draws of that parameter only. -/
theorem C18_shared {env : PhysTestEnv V} {ord : SetOrder} {base : Dict V} (hb : base.Nodup)
    {prms : PrmSel} {info : Option Quantities} {dm : DeviceMdl W V} {t : Target} {nc nl : Nat}
    {w w' : W} {r : Dict (Dict (Arr3 V))}
    (h : env.genEnvCondVals ord base prms info (some dm) t nc nl w = (.ok r, w'))
    {L C : Nat} (hL : L = (info.map (·.numLots)).getD nl) (hC : C = (info.map (·.numChps)).getD nc)
    {cond : String} {v : V} (hv : base.get? cond = some v) :
    ∃ (x : V) (ys : List V) (w1 w2 w3 : W),
      (env.vrtnMdl cond).batch.sample 1 w1 = (.ok [x], w2) ∧
      (env.vrtnMdl cond).chp.sample (C * L) w2 = (.ok ys, w3) ∧ ys.length = L * C ∧
      ∀ prm ∈ prms.toList, ∀ p, dm.prms.get? prm = some p → NeedsCond p t cond →
        ∃ (a : Arr3 V) (D : Nat) (counts : Dict Nat) (zs : List V) (w4 w5 : W),
          condOf r prm cond = some a ∧ prms.devCounts info = .ok counts ∧
          counts.get? prm = some D ∧ a.HasDims L C D ∧
          (env.vrtnMdl cond).dev.sample (D * (L * C)) w4 = (.ok zs, w5) ∧
          zs.length = L * C * D ∧
          ∀ l < L, ∀ c < C, ∀ d < D, ∃ y z, ys[l * C + c]? = some y ∧
            zs[(l * C + c) * D + d]? = some z ∧
            a.at' l c d = (env.vrtnMdl cond).op ((env.vrtnMdl cond).op
              ((env.vrtnMdl cond).op v x) y) z := by
  subst hL hC
  obtain ⟨shared, counts, w1, h1, h2, h3⟩ := genEnvCondVals_inv h
  obtain ⟨b, c, u1, u2, u3, s1, s2, s3⟩ := shared_get hb h1 hv
  obtain ⟨x, s4, rfl⟩ := genBatch_ok s2
  obtain ⟨ys, s5, s6, s7, s8⟩ := genChp_ok s3
  refine ⟨x, ys, u1, u2, u3, s4, s5, s6, ?_⟩
  intro prm hprm p hp hn
  obtain ⟨d, u4, u5, r1, r2⟩ := result_get h3 hprm
  obtain ⟨q, _⟩ := depend_get hp r2
  obtain ⟨a, bc, n, u6, u7, q1, q2, q3, q4⟩ := q cond (Dict.mem_keys_of_get? hv) hn
  rw [s1] at q2
  cases q2
  obtain ⟨zs, z1, z2, z3, z4⟩ := genDev_ok s7 q4
  refine ⟨a, n, counts, zs, u6, u7, ?_, h2, q3, z3, z1, z2, ?_⟩
  · unfold condOf; rw [r1]; exact q1
  · intro l hl c' hc d' hd
    obtain ⟨y, y1, y2⟩ := s8 l hl c' hc
    obtain ⟨z, z5, z6⟩ := z4 l hl c' hc d' hd
    exact ⟨y, z, y1, z5, by rw [z6, y2]⟩

/-- C18: sensors of a condition share the batch draw of the step; each has its own chip and device
draw. -/
theorem C18_sensor {env : PhysTestEnv V} {ord : SetOrder} {base : Dict V} (hb : base.Nodup)
    {prms : PrmSel} {info : Option Quantities} {dev : Option (DeviceMdl W V)} {t : Target}
    {nc nl : Nat} {w w' : W} {r : Dict (Dict (Arr3 V))}
    (h : env.genEnvCondVals ord base prms info dev t nc nl w = (.ok r, w'))
    {cond : String} {v : V} (hv : base.get? cond = some v) (hprm : cond ∈ prms.toList)
    (hp : ∀ dm, dev = some dm → dm.prms.get? cond = none) :
    ∃ (a : Arr3 V) (n : Nat) (counts : Dict Nat) (x : V) (ys zs : List V) (w1 w2 w3 w4 w5 : W),
      r.get? cond = some [(cond, a)] ∧ prms.devCounts info = .ok counts ∧
      counts.get? cond = some n ∧ a.HasDims 1 n 1 ∧
      (env.vrtnMdl cond).batch.sample 1 w1 = (.ok [x], w2) ∧
      (env.vrtnMdl cond).chp.sample (n * 1) w3 = (.ok ys, w4) ∧
      (env.vrtnMdl cond).dev.sample (1 * (1 * n)) w4 = (.ok zs, w5) ∧
      ys.length = n ∧ zs.length = n ∧
      ∀ i < n, ∃ y z, ys[i]? = some y ∧ zs[i]? = some z ∧
        a.at' 0 i 0 = (env.vrtnMdl cond).op ((env.vrtnMdl cond).op
          ((env.vrtnMdl cond).op v x) y) z := by
  obtain ⟨shared, counts, w1, h1, h2, h3⟩ := genEnvCondVals_inv h
  obtain ⟨b, c, u1, u2, u3, s1, s2, s3⟩ := shared_get hb h1 hv
  obtain ⟨x, s4, rfl⟩ := genBatch_ok s2
  obtain ⟨d, u4, u5, r1, r2⟩ := result_get h3 hprm
  have hp' : (dev.bind fun d => d.prms.get? cond) = none := by
    cases dev with
    | none => rfl
    | some dm => exact hp dm rfl
  obtain ⟨bc, n, s, a, u6, q1, q2, q3, q4, rfl⟩ := sensor_get hp' r2
  rw [s1] at q1
  cases q1
  obtain ⟨ys, y1, y2, y3, y4⟩ := genChp_ok q3
  obtain ⟨zs, z1, z2, z3, z4⟩ := genDev_ok y3 q4
  refine ⟨a, n, counts, x, ys, zs, u1, u2, u4, u6, u5, r1, h2, q2, z3, s4, y1, z1, by omega, by omega,
    ?_⟩
  intro i hi
  obtain ⟨y, e1, e2⟩ := y4 0 Nat.zero_lt_one i hi
  obtain ⟨z, e3, e4⟩ := z4 0 Nat.zero_lt_one i hi 0 Nat.zero_lt_one
  simp only [Nat.zero_mul, Nat.zero_add, Nat.mul_one, Nat.add_zero] at e1 e3
  exact ⟨y, z, e1, e3, by rw [e4, e2]⟩

/-! ### A concrete step -/

/-- Two conditions; "vdd" varies per batch (generator 1), chip (2) and device (3), "temp" is ideal. -/
def exEnv : PhysTestEnv Ex.Q where
  vars := [("vdd", { (EnvVrtnMdl.ideal : EnvVrtnMdl Ex.Q) with
    batch := ⟨1, .normal (.fin 0) (.fin 1), none⟩, batchDef := true
    chp := ⟨2, .normal (.fin 0) (.fin 1), none⟩, chpDef := true
    dev := ⟨3, .normal (.fin 0) (.fin 1), none⟩, devDef := true })]

/-- The conditions of the example step. -/
def exBase : Dict Ex.Q := [("temp", .fin 50), ("vdd", .fin 1000)]

/-- Two chips, one lot. -/
def exInfo : Quantities := ⟨[("vth", 2), ("delay", 2), ("vdd", 3)], 2, 1⟩

/-- Measuring both parameters and the condition "vdd". -/
def exConds : Except Err (Dict (Dict (Arr3 Ex.Q))) :=
  (exEnv.genEnvCondVals Ex.orderA exBase (.counts exInfo.devCounts) (some exInfo) (some Ex.dev) .measure
    1 1 Counts.start).1

-- `delay` needs "vdd": 1000 + 100 + (200, 201) + (300, 301, 302, 303)
example : (exConds.toOption.bind fun r => (condOf r "delay" "vdd").map (·.data)) =
    some [.fin 1600, .fin 1601, .fin 1603, .fin 1604] := by decide +kernel

-- the three sensors of "vdd" share the batch value 1100 only
example : (exConds.toOption.bind fun r => (condOf r "vdd" "vdd").map (·.data)) =
    some [.fin 1606, .fin 1608, .fin 1610] := by decide +kernel

-- stress needs "temp", which is ideal
example : ((exEnv.genEnvCondVals Ex.orderA exBase (.names ["vth"]) (some exInfo) (some Ex.dev) .stress
    1 1 Counts.start).1.toOption.bind fun r => (condOf r "vth" "temp").map (·.data)) =
    some [.fin 50, .fin 50, .fin 50, .fin 50] := by decide +kernel

example : exBase.Nodup ∧ exEnv.vars.get? "temp" = none := by decide +kernel
example : NeedsCond (.deg (Ex.degPrm [("burn", Ex.burn)] (.fin 3))) .stress "temp" :=
  Or.inr ⟨("burn", Ex.burn), by simp [Ex.degPrm], by decide +kernel⟩
example : NeedsCond (W := Counts) (.circ { compute := Ex.eqn2 "vth" "vdd" PyArith.mul }) .measure "vdd" :=
  show "vdd" ∈ ["vth", "vdd"] by decide

/-! ## C19: the iteration order of sets does not matter -/

/-- C19 for the generated condition values: for any two iteration orders of sets (two hash seeds) the
environment succeeds with the same random state afterwards, the same parameters in the same order and
the same value of every condition of every parameter, if device layers of different conditions do not
share a generator. -/
theorem C19_conditions [LawfulRng W V] {env : PhysTestEnv V} {base : Dict V}
    (hi : ∀ c ∈ base.keys, ∀ c' ∈ base.keys, c ≠ c' →
      Independent (env.vrtnMdl c).dev (env.vrtnMdl c').dev)
    (o1 o2 : SetOrder) {prms : PrmSel} {info : Option Quantities} {dev : Option (DeviceMdl W V)}
    {t : Target} {nc nl : Nat} {w w' : W} {r : Dict (Dict (Arr3 V))}
    (h : env.genEnvCondVals o1 base prms info dev t nc nl w = (.ok r, w')) :
    ∃ r', env.genEnvCondVals o2 base prms info dev t nc nl w = (.ok r', w') ∧ r.keys = r'.keys ∧
      ∀ prm cond, condOf r prm cond = condOf r' prm cond := by
  obtain ⟨r', h1, h2⟩ := genEnvCondVals_order hi o1 o2 h
  exact ⟨r', h1, h2.keys, fun prm cond => h2.condOf prm cond⟩

/-- A mechanism of two varying conditions. -/
def exTwo : DeviceMdl Counts Ex.Q where
  prms := [("vth", .deg (Ex.degPrm
    [("m", .mk' .deg 0 (some (Ex.eqn2 "temp" "vdd" PyArith.mul)) none (.fin 0) none [])] (.fin 3)))]

/-- Both conditions vary per device. -/
def exEnv2 (i j : Nat) : PhysTestEnv Ex.Q where
  vars := [("vdd", { (EnvVrtnMdl.ideal : EnvVrtnMdl Ex.Q) with
      dev := ⟨i, .normal (.fin 0) (.fin 1), none⟩, devDef := true }),
    ("temp", { (EnvVrtnMdl.ideal : EnvVrtnMdl Ex.Q) with
      dev := ⟨j, .normal (.fin 0) (.fin 1), none⟩, devDef := true })]

/-- The "vdd" value under a set order. -/
def exOrd (i j : Nat) (o : SetOrder) : Option (List Ex.Q) :=
  ((exEnv2 i j).genEnvCondVals o exBase (.names ["vth"]) (some exInfo) (some exTwo) .stress 1 1
    Counts.start).1.toOption.bind fun r => (condOf r "vth" "vdd").map (·.data)

-- the two orders really differ, the values do not
example : Ex.orderA.order ["temp", "vdd"] ≠ Ex.orderB.order ["temp", "vdd"] := by decide
example : exOrd 3 4 Ex.orderA = exOrd 3 4 Ex.orderB ∧ (exOrd 3 4 Ex.orderA).isSome := by decide +kernel
example : Independent ((exEnv2 3 4).vrtnMdl "temp").dev ((exEnv2 3 4).vrtnMdl "vdd").dev :=
  Or.inr (Or.inr (by decide +kernel))
-- the condition on generators is needed
example : exOrd 3 3 Ex.orderA ≠ exOrd 3 3 Ex.orderB := by decide +kernel

/-! ## C21: the instrument supplied for parameters without one -/

/-- C21 for parameters without an instrument: readings are the true values, nothing is drawn. Partial:
the name 'meas' is excluded (see C51). -/
theorem C21_default_partial {V : Type} [PyNum V] [Rng W V] {env : PhysTestEnv V} {prm : String}
    (h : env.instms.get? prm = none) (hm : prm ≠ "meas") (hm' : env.instms.get? "meas" = none)
    (xs : List V) (w : W) :
    ∃ ins, env.measInstm prm = .ok ins ∧ ins.measure .series xs w = (.ok (.series, xs), w) := by
  refine ⟨{}, ?_, rfl⟩
  unfold PhysTestEnv.measInstm
  have : env.instms.has "meas" = false := by simp [Dict.has, hm']
  rw [this, h, if_neg hm]
  simp

example : exEnv.instms.get? "vth" = none ∧ exEnv.instms.get? "meas" = none := by decide +kernel

end Gerabaldi.Props
