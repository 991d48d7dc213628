import Verif.Lemmas.Env
import Verif.Lemmas.Latent
import Verif.Lemmas.Loop
import Verif.Props.Env

/-! # Computations that never raise -/

namespace Gerabaldi

/-- The computation returns a value from every state. -/
def M.Total {W α : Type} (m : M W α) : Prop := ∀ w, ∃ a w', m w = (.ok a, w')

theorem M.Total.bind {W α β : Type} {m : M W α} {f : α → M W β} (hm : M.Total m)
    (hf : ∀ a, M.Total (f a)) : M.Total (m >>= f) := by
  intro w
  obtain ⟨a, w1, h1⟩ := hm w
  obtain ⟨b, w2, h2⟩ := hf a w1
  exact ⟨b, w2, (M.bind_ok h1).trans h2⟩

theorem M.Total.pure {W α : Type} (a : α) : M.Total (Pure.pure a : M W α) := fun w => ⟨a, w, rfl⟩

/-- A loop with an invariant on its accumulator. -/
theorem M.forIn'_total {W α β : Type} {f : β → α → M W β} {xs : List α} (P : β → Prop)
    (hf : ∀ x ∈ xs, ∀ b, P b → ∀ w, ∃ b' w', f b x w = (.ok b', w') ∧ P b') {b : β} (hb : P b) (w : W) :
    ∃ b' w', M.forIn' f xs b w = (.ok b', w') ∧ P b' := by
  induction xs generalizing b w with
  | nil => exact ⟨b, w, rfl, hb⟩
  | cons x xs ih =>
    obtain ⟨b1, w1, h1, p1⟩ := hf x List.mem_cons_self b hb w
    obtain ⟨b2, w2, h2, p2⟩ := ih (fun y hy => hf y (List.mem_cons_of_mem _ hy)) p1 w1
    exact ⟨b2, w2, (M.bind_ok h1).trans h2, p2⟩

section
variable {W V : Type} [PyArith V] [Rng W V]

/-- Drawing from the variable never raises. -/
def DrawsWork (W : Type) [Rng W V] (r : RVar V) : Prop :=
  ∀ n (w : W), ∃ xs w', r.sample n w = (.ok xs, w')

/-- Drawing from the variables of the environment never raises. -/
def EnvDraws (W : Type) [Rng W V] (env : PhysTestEnv V) : Prop :=
  ∀ c, DrawsWork W (env.vrtnMdl c).batch ∧ DrawsWork W (env.vrtnMdl c).chp ∧
    DrawsWork W (env.vrtnMdl c).dev

/-- An environment without variations. -/
theorem envDraws_empty (instms : Dict (Instrument V)) : EnvDraws W (⟨[], instms⟩ : PhysTestEnv V) := by
  intro c
  exact ⟨fun n w => ⟨_, w, rfl⟩, fun n w => ⟨_, w, rfl⟩, fun n w => ⟨_, w, rfl⟩⟩

variable [LawfulRng W V]

theorem genBatch_total {m : EnvVrtnMdl V} (h : DrawsWork W m.batch) (v : V) :
    M.Total (m.genBatch v : M W V) := by
  intro w
  obtain ⟨xs, w1, h1⟩ := h 1 w
  have hl := sample_length h1
  match xs, hl with
  | [x], _ =>
    unfold EnvVrtnMdl.genBatch
    rw [M.bind_ok h1]
    exact ⟨_, _, rfl⟩

theorem genChp_total {m : EnvVrtnMdl V} (h : DrawsWork W m.chp) (v : V) (C L : Nat) :
    M.Total (m.genChp v C L : M W (Arr3 V)) := by
  intro w
  obtain ⟨xs, w1, h1⟩ := h (C * L) w
  have hl := sample_length h1
  unfold EnvVrtnMdl.genChp
  rw [M.bind_ok h1, Arr3.reshape_ok (by rw [hl]; ring)]
  exact ⟨_, _, rfl⟩

theorem genDev_total {m : EnvVrtnMdl V} (h : DrawsWork W m.dev) {b : Arr3 V} {L C : Nat}
    (hb : b.HasDims L C 1) (n : Nat) : M.Total (m.genDev b n : M W (Arr3 V)) := by
  intro w
  obtain ⟨xs, w1, h1⟩ := h (n * (b.nl * b.nc)) w
  have hl := sample_length h1
  obtain ⟨b1, b2, b3⟩ := hb
  unfold EnvVrtnMdl.genDev
  rw [M.bind_ok h1, Arr3.reshape_ok (by rw [hl]; ring)]
  simp only [M.bind_run, M.ofExcept_run]
  have hd : Arr3.bdim b.nl b.nl = some b.nl ∧ Arr3.bdim b.nc b.nc = some b.nc ∧
      Arr3.bdim b.nd n = some n := by
    simp [Arr3.bdim, b3]
  unfold Arr3.bcast2
  simp only [hd]
  exact ⟨_, _, rfl⟩

/-- The values shared by all parameters. -/
theorem shared_total {env : PhysTestEnv V} (he : EnvDraws W env) (C L : Nat) (base : Dict V) (w : W) :
    ∃ shared w', M.forIn' (env.genShared C L) base [] w = (.ok shared, w') ∧
      (∀ c ∈ base.keys, shared.has c = true) ∧
      ∀ c bc, shared.get? c = some bc → c ∈ base.keys ∧ bc.2.HasDims L C 1 := by
  obtain ⟨shared, w', h, hd⟩ := M.forIn'_total (f := env.genShared C L) (xs := base) (W := W)
    (fun (acc : Dict (V × Arr3 V)) => ∀ c bc, acc.get? c = some bc → bc.2.HasDims L C 1)
    (fun kv _ acc hacc w => by
      obtain ⟨b, w1, h1⟩ := genBatch_total (he kv.1).1 kv.2 w
      obtain ⟨a, w2, h2⟩ := genChp_total (he kv.1).2.1 b C L w1
      refine ⟨_, w2, (M.bind_ok h1).trans ((M.bind_ok h2).trans rfl), ?_⟩
      intro c bc hc
      rw [Dict.get?_set] at hc
      split at hc
      · cases hc
        exact genChp_dims h2
      · exact hacc c bc hc) (b := []) (fun c bc h => by cases h) w
  refine ⟨shared, w', h, ?_, fun c bc hc => ⟨shared_keys h hc, hd c bc hc⟩⟩
  intro c hc
  rw [genShared_eq] at h
  obtain ⟨_, h2, _⟩ := M.forIn'_set h
  obtain ⟨kv, hkv, rfl⟩ := List.mem_map.1 hc
  obtain ⟨v, hv⟩ := h2 kv hkv
  simp [Dict.has, hv]

/-- One parameter: either all its values can be generated, or the name is unknown. -/
theorem genPrmConds_total {env : PhysTestEnv V} (he : EnvDraws W env) {ord : SetOrder}
    {dev : DeviceMdl W V} {base : Dict V} {t : Target} {shared : Dict (V × Arr3 V)} {L C : Nat}
    (hs : ∀ c ∈ base.keys, shared.has c = true)
    (hd : ∀ c bc, shared.get? c = some bc → c ∈ base.keys ∧ bc.2.HasDims L C 1) {counts : Dict Nat}
    {prm : String} {n : Nat} (hn : counts.get? prm = some n)
    (hk : prm ∈ dev.prms.keys ∨ prm ∈ base.keys) :
    M.Total (env.genPrmConds ord (some dev) base.keys t shared counts prm) := by
  intro w
  unfold PhysTestEnv.genPrmConds
  simp only [Option.bind_some]
  cases hp : dev.prms.get? prm with
  | some p =>
    obtain ⟨d, w', h, _⟩ := M.forIn'_total (f := env.genDepend shared counts prm) (W := W)
      (xs := p.dependencies ord base.keys t) (fun _ => True) (fun c hc acc _ w => by
        obtain ⟨bc, hbc⟩ := Option.isSome_iff_exists.1 (hs c ((mem_dependencies ..).1 hc).1)
        obtain ⟨a, w1, h1⟩ := genDev_total (he c).2.2 (hd c bc hbc).2 n w
        refine ⟨acc.set c a, w1, ?_, trivial⟩
        unfold PhysTestEnv.genDepend
        simp only [M.bind_run, M.ofExcept_run, Dict.getE_eq_ok.2 hbc, Dict.getE_eq_ok.2 hn, h1]
        rfl) (b := []) trivial w
    exact ⟨d, w', h⟩
  | none =>
    have hb : prm ∈ base.keys := hk.resolve_left ((Dict.get?_eq_none_iff _ _).1 hp)
    obtain ⟨bc, hbc⟩ := Option.isSome_iff_exists.1 (hs prm hb)
    obtain ⟨a, w1, h1⟩ := genChp_total (he prm).2.1 bc.1 n 1 w
    obtain ⟨b, w2, h2⟩ := genDev_total (he prm).2.2 (genChp_dims h1) 1 w1
    refine ⟨[(prm, b)], w2, ?_⟩
    unfold PhysTestEnv.genSensor
    simp only [M.bind_run, M.ofExcept_run, Dict.getE_eq_ok.2 hbc, Dict.getE_eq_ok.2 hn, h1, h2]
    rfl

/-- When the names are all known and have counts, the condition values can be generated. -/
theorem genEnvCondVals_total {env : PhysTestEnv V} (he : EnvDraws W env) {ord : SetOrder}
    {dev : DeviceMdl W V} {base : Dict V} {prms : PrmSel} {q : Quantities} {counts : Dict Nat}
    (hc : prms.devCounts (some q) = .ok counts) (hn : ∀ p ∈ prms.toList, counts.has p = true)
    (hk : ∀ p ∈ prms.toList, p ∈ dev.prms.keys ∨ p ∈ base.keys) {t : Target} {nc nl : Nat} :
    M.Total (env.genEnvCondVals ord base prms (some q) (some dev) t nc nl) := by
  intro w
  obtain ⟨shared, w1, h1, hs, hd⟩ := shared_total he q.numChps q.numLots base w
  obtain ⟨r, w2, h2, _⟩ := M.forIn'_total
    (f := env.genPrmStep ord (some dev) base.keys t shared counts) (W := W) (xs := prms.toList)
    (fun _ => True) (fun p hp acc _ w => by
      obtain ⟨n, hn⟩ := Option.isSome_iff_exists.1 (hn p hp)
      obtain ⟨d, w3, h3⟩ := genPrmConds_total he hs hd hn (hk p hp) (ord := ord) (t := t) w
      exact ⟨_, w3, (M.bind_ok h3).trans rfl, trivial⟩) (b := []) trivial w1
  refine ⟨r, w2, ?_⟩
  unfold PhysTestEnv.genEnvCondVals
  refine (M.bind_ok h1).trans ?_
  rw [hc]
  exact h2

/-- An unknown name ends with `KeyError`. -/
theorem genEnvCondVals_unknown {env : PhysTestEnv V} (he : EnvDraws W env) {ord : SetOrder}
    {dev : DeviceMdl W V} {base : Dict V} {prms : PrmSel} {q : Quantities} {counts : Dict Nat}
    (hc : prms.devCounts (some q) = .ok counts) (hn : ∀ p ∈ prms.toList, counts.has p = true)
    {p : String} (hp : p ∈ prms.toList) (hk : p ∉ dev.prms.keys) (hb : p ∉ base.keys) {t : Target}
    {nc nl : Nat} (w : W) :
    (env.genEnvCondVals ord base prms (some q) (some dev) t nc nl w).1 = .error .keyError := by
  obtain ⟨shared, w1, h1, hs, hd⟩ := shared_total he q.numChps q.numLots base w
  unfold PhysTestEnv.genEnvCondVals
  refine congrArg Prod.fst (M.bind_ok h1) |>.trans ?_
  rw [hc]
  have key : ∀ (ps : List String), (∀ x ∈ ps, counts.has x = true) → p ∈ ps → ∀ acc (w : W), (M.forIn'
      (env.genPrmStep ord (some dev) base.keys t shared counts) ps acc w).1 = .error .keyError := by
    intro ps
    induction ps with
    | nil => intro _ h; cases h
    | cons x rest ih =>
      intro hx hm acc w
      by_cases hkn : x ∈ dev.prms.keys ∨ x ∈ base.keys
      · have hne : p ≠ x := by
          rintro rfl
          exact hkn.elim hk hb
        obtain ⟨n, hn⟩ := Option.isSome_iff_exists.1 (hx x List.mem_cons_self)
        obtain ⟨d, w2, h2⟩ := genPrmConds_total he hs hd hn hkn (ord := ord) (t := t) w
        have h3 : env.genPrmStep ord (some dev) base.keys t shared counts acc x w =
          (.ok (acc.set x d), w2) := M.bind_ok h2
        refine congrArg Prod.fst (M.bind_ok h3) |>.trans ?_
        exact ih (fun y hy => hx y (List.mem_cons_of_mem _ hy))
          ((List.mem_cons.1 hm).resolve_left hne) _ _
      · rw [not_or] at hkn
        have hs' : shared.get? x = none := by
          cases hg : shared.get? x with
          | none => rfl
          | some bc => exact absurd (hd x bc hg).1 hkn.2
        have h2 : env.genPrmConds ord (some dev) base.keys t shared counts x w =
            (.error .keyError, w) := by
          unfold PhysTestEnv.genPrmConds
          simp only [Option.bind_some, (Dict.get?_eq_none_iff _ _).2 hkn.1]
          unfold PhysTestEnv.genSensor
          simp only [M.bind_run, M.ofExcept_run, Dict.getE, hs']
        have h3 : env.genPrmStep ord (some dev) base.keys t shared counts acc x w =
          (.error .keyError, w) := M.bind_error h2
        exact congrArg Prod.fst (M.bind_error h3)
  exact key _ hn hp _ _

end

end Gerabaldi
