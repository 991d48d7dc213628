import Verif.Spec.Noise
import Verif.Lemmas.Blind
import Verif.Lemmas.Requests
import Verif.Props.Instrument
import Verif.Model.CookbookMech

/-! # C95: measurement errors are independent of the devices -/

namespace Gerabaldi.Props
open Gerabaldi Spec MeasureTheory ProbabilityTheory

variable {N : Numpy} {ι : Type}

/-- Worlds that differ only in the generators `G`. -/
def OffG (G : Set Nat) (t t₀ : Nat → Nat → ℝ) (ng : Nat → Nat) (w w₀ : Tapes N) : Prop :=
  w.tape = t ∧ w₀.tape = t₀ ∧ (∀ i ∉ G, w.next i = w₀.next i) ∧ ∀ i ∈ G, w.next i = ng i

section blind
variable {G : Set Nat} {t t₀ : Nat → Nat → ℝ} {ng : Nat → Nat}

theorem sample_elsewhere (ht : ∀ i ∉ G, t i = t₀ i) {r : RVar (Ext ℝ)} (h : Elsewhere G r) :
    BlindVar (OffG (N := N) G t t₀ ng) r := by
  intro n
  unfold RVar.sample
  have key : ∀ d : Dist (Ext ℝ), (r.id ∉ G) → Blind (OffG (N := N) G t t₀ ng)
      (M.ofExcept (d.getDistParams "numpy") >>= fun ps => (Rng.draw r.id d.typeName ps n : M (Tapes N) (List (Ext ℝ)))) := by
    intro d hid
    refine (Blind.ofExcept _).bind fun ps w w' ⟨h1, h2, h3, h4⟩ => ⟨?_, h1, h2, fun i hi => ?_, fun i hi => ?_⟩
    · show Except.ok _ = Except.ok _
      rw [h1, h2, ht _ hid, h3 _ hid]
    · show (if i = r.id then _ else _) = (if i = r.id then _ else _)
      rw [h3 _ hid, h3 _ hi]
    · show (if i = r.id then _ else _) = _
      rw [if_neg (fun e : i = r.id => hid (e ▸ hi))]
      exact h4 i hi
  rcases h with h | ⟨v, h⟩
  · cases r.dist with
    | deterministic v => exact Blind.pure _
    | _ => exact key _ h
  · rw [h]
    exact Blind.pure _

theorem function_blind {R : Tapes N → Tapes N → Prop} {f : PyFun (Tapes N) (Ext ℝ)} (h : IsFunction f) : BlindFun R f := by
  intro args
  obtain ⟨e, he⟩ := h args
  rw [he]
  exact Blind.ofExcept _

theorem model_latents (ht : ∀ i ∉ G, t i = t₀ i) {m : LatentMdl (Tapes N) (Ext ℝ)} (h : ModelElsewhere G m) :
    ∀ kv ∈ m.latentVars, BlindLatent (OffG (N := N) G t t₀ ng) kv.2 := fun kv hkv =>
  ⟨sample_elsewhere ht (h.latents kv hkv).1, sample_elsewhere ht (h.latents kv hkv).2.1,
    sample_elsewhere ht (h.latents kv hkv).2.2⟩

variable {dev : DeviceMdl (Tapes N) (Ext ℝ)} {env : PhysTestEnv (Ext ℝ)}

theorem own_latents (ht : ∀ i ∉ G, t i = t₀ i) (h : OwnGenerators N G dev env) :
    BlindLatents (OffG (N := N) G t t₀ ng) dev where
  deg := fun kv hkv m hm => by
    obtain ⟨h1, h2, h3, h4⟩ := h.deg kv hkv m hm
    exact ⟨model_latents ht h1, model_latents ht h2, model_latents ht h3, fun k hk => model_latents ht (h4 k hk),
      function_blind h3.eqn⟩
  circ := fun kv hkv m hm => model_latents ht (h.circ kv hkv m hm)

theorem own_equations {R : Tapes N → Tapes N → Prop} (h : OwnGenerators N G dev env) : BlindEquations R dev where
  deg := fun p m hm => by
    obtain ⟨h1, h2, h3, h4⟩ := h.deg _ (Dict.mem_of_get? hm) m rfl
    exact ⟨function_blind h1.eqn, function_blind h2.eqn, function_blind h3.eqn, fun k hk => function_blind (h4 k hk).eqn⟩
  circ := fun p m hm => function_blind (h.circ _ (Dict.mem_of_get? hm) m rfl).eqn

theorem own_conds (ht : ∀ i ∉ G, t i = t₀ i) (h : OwnGenerators N G dev env) :
    ∀ kv ∈ env.vars, BlindVrtn (OffG (N := N) G t t₀ ng) kv.2 := fun kv hkv =>
  ⟨sample_elsewhere ht (h.conds kv hkv).1, sample_elsewhere ht (h.conds kv hkv).2.1,
    sample_elsewhere ht (h.conds kv hkv).2.2⟩

end blind

section shown

/-- The range applied to one value. -/
noncomputable def ranged (ins : Instrument (Ext ℝ)) (x : Ext ℝ) : Ext ℝ :=
  match ins.range with
  | none => x
  | some (lo, hi) => clip1 lo hi x

/-- The precision applied to one value. -/
noncomputable def rounded (ins : Instrument (Ext ℝ)) (x : Ext ℝ) : Except Err (Ext ℝ) :=
  match ins.precision with
  | none => .ok x
  | some p => if p = 0 then .ok x else sigRound p x

theorem range_list (ins : Instrument (Ext ℝ)) (xs : List (Ext ℝ)) : ins.applyRange xs = xs.map (ranged ins) := by
  unfold Instrument.applyRange ranged
  cases ins.range with
  | none => exact (List.map_id' xs).symm
  | some p => rfl

theorem precision_list (ins : Instrument (Ext ℝ)) {xs zs : List (Ext ℝ)}
    (h : List.Forall₂ (fun x z => rounded ins x = .ok z) xs zs) : ins.applyPrecision xs = .ok zs := by
  unfold Instrument.applyPrecision
  unfold rounded at h
  have same : List.Forall₂ (fun x z : Ext ℝ => (Except.ok x : Except Err _) = .ok z) xs zs → xs = zs := by
    clear h
    intro h
    induction h with
    | nil => rfl
    | cons e _ ih => cases e; rw [ih]
  cases hp : ins.precision with
  | none =>
    simp only [hp] at h
    rw [same h]
  | some p =>
    simp only [hp] at h
    dsimp only
    split_ifs with h0
    · simp only [h0, if_true] at h
      rw [same h]
    · simp only [h0, if_false] at h
      clear same
      induction h with
      | nil => rfl
      | cons e _ ih => simp only [mapExcept, e, ih]

theorem rounded_exists (ins : Instrument (Ext ℝ)) {x : Ext ℝ} (hx : x ≠ .nan) : ∃ y, rounded ins x = .ok y := by
  unfold rounded
  cases ins.precision with
  | none => exact ⟨_, rfl⟩
  | some p =>
    dsimp only
    split_ifs
    · exact ⟨_, rfl⟩
    · cases x with
      | nan => exact absurd rfl hx
      | pinf => exact ⟨_, sigRound_pinf p⟩
      | ninf => exact ⟨_, sigRound_ninf p⟩
      | fin x =>
        by_cases h0 : x = 0
        · subst h0
          exact ⟨_, sigRound_zero p⟩
        · exact ⟨_, sigRound_fin p h0⟩

theorem shownFor_of {ins : Instrument (Ext ℝ)} {x z : Ext ℝ} (h : rounded ins x = .ok z) :
    ShownFor N ins x (ranged ins z) := by
  intro w
  have z1 := precision_list { ins with error := none } (xs := [x]) (zs := [z]) (.cons h .nil)
  have z2 : M.ofExcept (({ ins with error := none } : Instrument (Ext ℝ)).applyPrecision [x]) w = (.ok [z], w) := by
    rw [z1]
    rfl
  have z0 : ({ ins with error := none } : Instrument (Ext ℝ)).addNoise [x] w = (.ok [x], w) := rfl
  unfold Instrument.measureVals
  rw [M.bind_ok z0, M.bind_ok z2]
  show (Except.ok _, w) = _
  rw [range_list]
  rfl

end shown

section rows
variable (env : PhysTestEnv (Ext ℝ))

/-- The error of the instrument of a name; without one, the constant 0. -/
def errorVar (p : String) : RVar (Ext ℝ) := (instrumentOf env p).error.getD (detUnit (.fin 0))

/-- The requests for the errors of the rows of a table. -/
def noiseReqs : Nat → List (MeasRow (Ext ℝ)) → List (Request Nat)
  | _, [] => []
  | k, t :: ts => ⟨k, errorVar env t.prm, 1⟩ :: noiseReqs (k + 1) ts

/-- Rows are readings of true rows with errors. -/
def ReadsAs (N : Numpy) (x : Nat → Nat → ℝ) : Nat → List (MeasRow (Ext ℝ)) → List (MeasRow (Ext ℝ)) → Prop
  | _, [], [] => True
  | k, t :: ts, m :: ms => (∃ y, ShownFor N (instrumentOf env t.prm) (PyArith.add t.measured (.fin (x k 0))) y ∧
      m = { t with measured := y }) ∧ ReadsAs N x (k + 1) ts ms
  | _, _, _ => False

variable {env}

theorem noiseReqs_append (k : Nat) (as bs : List (MeasRow (Ext ℝ))) :
    noiseReqs env k (as ++ bs) = noiseReqs env k as ++ noiseReqs env (k + as.length) bs := by
  induction as generalizing k with
  | nil => simp [noiseReqs]
  | cons a as ih =>
    simp only [List.cons_append, noiseReqs, ih, List.length_cons]
    rw [Nat.add_assoc, Nat.add_comm 1]

theorem readsAs_append {x : Nat → Nat → ℝ} {k : Nat} {as bs ms ns : List (MeasRow (Ext ℝ))}
    (h : ReadsAs env N x k as ms) (h' : ReadsAs env N x (k + as.length) bs ns) : ReadsAs env N x k (as ++ bs) (ms ++ ns) := by
  induction as generalizing k ms with
  | nil =>
    cases ms with
    | nil => exact h'
    | cons _ _ => exact h.elim
  | cons a as ih =>
    cases ms with
    | nil => exact h.elim
    | cons m ms =>
      refine ⟨h.1, ih h.2 ?_⟩
      rw [List.length_cons] at h'
      rw [Nat.add_assoc, Nat.add_comm 1]
      exact h'

theorem after_congr {G : Set Nat} {r : RVar (Ext ℝ)} (n : Nat) {next next' : Nat → Nat} (h : ∀ i ∈ G, next i = next' i)
    (i : Nat) (hi : i ∈ G) : afterSample r n next i = afterSample r n next' i := by
  unfold afterSample
  cases r.dist with
  | deterministic _ => exact h i hi
  | _ =>
    dsimp only
    split_ifs with e
    · rw [← e, h i hi]
    · exact h i hi

theorem afterAll_agree {G : Set Nat} {rs : List (Request ι)} {next next' : Nat → Nat} (h : ∀ i ∈ G, next i = next' i) :
    ∀ i ∈ G, afterAll rs next i = afterAll rs next' i := by
  induction rs generalizing next next' with
  | nil => exact h
  | cons r rs ih => exact ih (after_congr r.size h)

theorem reads_agree {G : Set Nat} {rs : List (Request ι)} (hG : ∀ r ∈ rs, draws r.var = true → r.var.id ∈ G)
    {t t' : Nat → Nat → ℝ} (ht : ∀ i ∈ G, t i = t' i) {next next' : Nat → Nat} (hn : ∀ i ∈ G, next i = next' i)
    {x : ι → Nat → ℝ} (h : Reads N t next rs x) : Reads N t' next' rs x := by
  induction rs generalizing next next' with
  | nil => exact h
  | cons r rs ih =>
    refine ⟨fun f hf i hi => ?_, ih (fun r hr => hG r (List.mem_cons_of_mem _ hr)) (after_congr r.size hn) h.2⟩
    rw [h.1 f hf i hi]
    cases hd : draws r.var with
    | true =>
      have := hG r List.mem_cons_self hd
      rw [ht _ this, hn _ this]
    | false => exact value_const hf hd _ _

theorem after_add (r : RVar (Ext ℝ)) (m n : Nat) (next : Nat → Nat) :
    afterSample r n (afterSample r m next) = afterSample r (m + n) next := by
  unfold afterSample
  cases r.dist with
  | deterministic _ => rfl
  | _ =>
    funext j
    dsimp only
    by_cases h : j = r.id
    · rw [if_pos h, if_pos rfl, if_pos h]
      omega
    · rw [if_neg h, if_neg h, if_neg h]

/-- One sample for all rows is as good as one for each row. -/
theorem reads_rows {p : String} {f : ℝ → ℝ} (hf : N.value (errorVar env p).dist = some f) {t : Nat → Nat → ℝ}
    {x : Nat → Nat → ℝ} {rows : List (MeasRow (Ext ℝ))} (hp : ∀ r ∈ rows, r.prm = p) {k : Nat} {next : Nat → Nat}
    (h : Reads N t next (noiseReqs env k rows) x) :
    afterAll (noiseReqs env k rows) next = afterSample (errorVar env p) rows.length next ∧
      ∀ i < rows.length, x (k + i) 0 = f (t (errorVar env p).id (next (errorVar env p).id + i)) := by
  induction rows generalizing k next with
  | nil =>
    refine ⟨?_, fun i hi => absurd hi (Nat.not_lt_zero _)⟩
    show next = afterSample _ 0 next
    unfold afterSample
    cases (errorVar env p).dist with
    | deterministic _ => rfl
    | _ =>
      funext j
      dsimp only
      split_ifs with e
      · rw [e]; rfl
      · rfl
  | cons r rows ih =>
    obtain ⟨h1, h2⟩ := h
    rw [hp r List.mem_cons_self] at h1 h2
    obtain ⟨i1, i2⟩ := ih (fun r hr => hp r (List.mem_cons_of_mem _ hr)) h2
    refine ⟨?_, fun i hi => ?_⟩
    · show afterAll (noiseReqs env (k + 1) rows) (afterSample (errorVar env r.prm) 1 next) = _
      rw [hp r List.mem_cons_self, i1, after_add, List.length_cons, Nat.add_comm 1]
    · cases i with
      | zero => exact h1 f hf 0 Nat.zero_lt_one
      | succ i =>
        have := i2 i (by rw [List.length_cons] at hi; omega)
        rw [Nat.add_assoc, Nat.add_comm 1] at this
        rw [this]
        cases hd : draws (errorVar env p) with
        | false => exact value_const hf hd _ _
        | true =>
          dsimp only
          rw [after_next hd, Nat.add_assoc, Nat.add_comm 1]

/-- The true values with their errors. -/
noncomputable def noisy (x : Nat → Nat → ℝ) : Nat → List (MeasRow (Ext ℝ)) → List (Ext ℝ)
  | _, [] => []
  | k, t :: ts => PyArith.add t.measured (.fin (x k 0)) :: noisy x (k + 1) ts

theorem noisy_zip (x : Nat → Nat → ℝ) (k : Nat) (rows : List (MeasRow (Ext ℝ))) {es : List (Ext ℝ)}
    (hl : es.length = rows.length) (h : ∀ i (hi : i < es.length), es[i] = .fin (x (k + i) 0)) :
    List.zipWith PyArith.add (rows.map (·.measured)) es = noisy x k rows := by
  induction rows generalizing k es with
  | nil => rfl
  | cons r rows ih =>
    cases es with
    | nil => simp at hl
    | cons e es =>
      have h0 : e = .fin (x k 0) := h 0 (Nat.zero_lt_succ _)
      rw [h0]
      show _ :: _ = _ :: _
      rw [ih (k + 1) (by simpa using hl) fun i hi => by
        have := h (i + 1) (by simpa using hi)
        rw [Nat.add_assoc, Nat.add_comm 1]
        exact this]

theorem add_zero_ext (x : Ext ℝ) : PyArith.add x (.fin 0) = x := by
  cases x with
  | fin a => exact congrArg Ext.fin (add_zero a)
  | pinf => rfl
  | ninf => rfl
  | nan => rfl

theorem add_fin_ne_nan {x : Ext ℝ} (hx : x ≠ .nan) (e : ℝ) : PyArith.add x (.fin e) ≠ .nan := by
  cases x with
  | fin a => exact fun h => by cases h
  | pinf => exact fun h => by cases h
  | ninf => exact fun h => by cases h
  | nan => exact absurd rfl hx

theorem noisy_none (x : Nat → Nat → ℝ) (k : Nat) (rows : List (MeasRow (Ext ℝ)))
    (h : ∀ i < rows.length, x (k + i) 0 = 0) : noisy x k rows = rows.map (·.measured) := by
  induction rows generalizing k with
  | nil => rfl
  | cons r rows ih =>
    show _ :: _ = _ :: _
    rw [ih (k + 1) fun i hi => by
      rw [Nat.add_assoc, Nat.add_comm 1]
      exact h (i + 1) (by simpa using hi), show x k 0 = 0 from h 0 (Nat.zero_lt_succ _), add_zero_ext]

theorem noisy_shown {p : String} (x : Nat → Nat → ℝ) (k : Nat) {rows : List (MeasRow (Ext ℝ))}
    (hp : ∀ r ∈ rows, r.prm = p) (hn : ∀ r ∈ rows, r.measured ≠ .nan) :
    ∃ zs, List.Forall₂ (fun x z => rounded (instrumentOf env p) x = .ok z) (noisy x k rows) zs ∧
      ReadsAs env N x k rows (List.zipWith (fun r y => { r with measured := y }) rows (zs.map (ranged (instrumentOf env p)))) := by
  induction rows generalizing k with
  | nil => exact ⟨[], .nil, trivial⟩
  | cons r rows ih =>
    obtain ⟨zs, z1, z2⟩ := ih (k + 1) (fun r hr => hp r (List.mem_cons_of_mem _ hr))
      (fun r hr => hn r (List.mem_cons_of_mem _ hr))
    obtain ⟨z, hz⟩ := rounded_exists (instrumentOf env p)
      (add_fin_ne_nan (hn r List.mem_cons_self) (x k 0))
    refine ⟨z :: zs, .cons hz z1, ⟨_, ?_, rfl⟩, z2⟩
    rw [hp r List.mem_cons_self]
    exact shownFor_of hz

theorem readRows_run {p : String} {f : ℝ → ℝ} (hf : N.value (errorVar env p).dist = some f)
    {rows : List (MeasRow (Ext ℝ))} (hp : ∀ r ∈ rows, r.prm = p) (hn : ∀ r ∈ rows, r.measured ≠ .nan) {w : Tapes N}
    {k : Nat} {x : Nat → Nat → ℝ} (h : Reads N w.tape w.next (noiseReqs env k rows) x) :
    ∃ rows', readRows (instrumentOf env p) rows w = (.ok rows', ⟨w.tape, afterAll (noiseReqs env k rows) w.next⟩) ∧
      ReadsAs env N x k rows rows' := by
  obtain ⟨h1, h2⟩ := reads_rows hf hp h
  obtain ⟨zs, z1, z2⟩ := noisy_shown (env := env) (N := N) x k hp hn
  have e1 : (instrumentOf env p).addNoise (rows.map (·.measured)) w =
      (.ok (noisy x k rows), ⟨w.tape, afterAll (noiseReqs env k rows) w.next⟩) := by
    rw [h1]
    unfold Instrument.addNoise
    cases he : (instrumentOf env p).error with
    | none =>
      have hv : errorVar env p = detUnit (.fin 0) := by
        unfold errorVar
        rw [he]
        rfl
      rw [hv] at hf h2 ⊢
      have hf' : f = fun _ => 0 := by
        simp only [detUnit, Numpy.value, Option.some.injEq] at hf
        exact hf.symm
      rw [noisy_none x k rows fun i hi => by rw [h2 i hi, hf']]
      rfl
    | some r =>
      have hv : errorVar env p = r := by
        unfold errorVar
        rw [he]
        rfl
      rw [hv] at hf h2 ⊢
      have hs := tape_sample hf rows.length w
      rw [← List.length_map (f := fun r : MeasRow (Ext ℝ) => r.measured)] at hs
      show (r.sample (rows.map (·.measured)).length >>= fun es => _) w = _
      rw [M.bind_ok hs]
      show (Except.ok _, _) = _
      rw [noisy_zip x k rows (by simp) fun i hi => ?_, List.length_map]
      simp only [List.length_map, List.length_range] at hi
      simp only [List.getElem_map, List.getElem_range]
      rw [h2 i hi]
  refine ⟨_, ?_, z2⟩
  have e2 := precision_list _ z1
  unfold readRows Instrument.measureVals
  rw [M.bind_assoc', M.bind_ok e1, e2]
  show (Except.ok _, _) = _
  rw [range_list]

end rows

section runs
variable {G : Set Nat} {t t₀ : Nat → Nat → ℝ} {dev : DeviceMdl (Tapes N) (Ext ℝ)} {env : PhysTestEnv (Ext ℝ)}

theorem exact_get (env : PhysTestEnv (Ext ℝ)) (p : String) : (exactEnv env).measInstm p =
    (env.measInstm p).map fun _ => { precision := none, range := none, error := none } := by
  have h2 : ∀ p, (exactEnv env).instms.get? p =
      (env.instms.get? p).map fun _ => { precision := none, range := none, error := none } := fun p =>
    Dict.get?_map (fun _ _ => ({ precision := none, range := none, error := none } : Instrument (Ext ℝ))) env.instms p
  have h1 : (exactEnv env).instms.has "meas" = env.instms.has "meas" := by
    unfold Dict.has
    rw [h2]
    cases env.instms.get? "meas" <;> rfl
  unfold PhysTestEnv.measInstm
  rw [h1, h2]
  by_cases h : env.instms.has "meas" = true
  · rw [if_pos h, if_pos h]
    rfl
  · rw [if_neg h, if_neg h]
    cases env.instms.get? p with
    | some i => rfl
    | none =>
      by_cases hp : p = "meas"
      · simp only [Option.map_none, if_pos hp]
        rfl
      · simp only [Option.map_none, if_neg hp]
        rfl

theorem exact_rows {rows rows' : List (MeasRow (Ext ℝ))} {w w' : Tapes N}
    (h : readRows { precision := none, range := none, error := none } rows w = (.ok rows', w')) : rows' = rows ∧ w' = w := by
  have hz : ∀ rows : List (MeasRow (Ext ℝ)),
      List.zipWith (fun r y => { r with measured := y }) rows (rows.map (·.measured)) = rows := by
    intro rows
    induction rows with
    | nil => rfl
    | cons r rows ih => rw [List.map_cons, List.zipWith_cons_cons, ih]
  have e : readRows { precision := none, range := none, error := none } rows w = (.ok rows, w) := by
    show (Except.ok (List.zipWith _ rows (rows.map (·.measured))), w) = _
    rw [hz]
  rw [e] at h
  cases h
  exact ⟨rfl, rfl⟩

theorem error_value (h : OwnGenerators N G dev env) (p : String) : ∃ f, N.value (errorVar env p).dist = some f := by
  unfold errorVar instrumentOf
  cases hp : env.instms.get? p with
  | none => exact ⟨_, rfl⟩
  | some i =>
    dsimp only
    cases he : i.error with
    | none => exact ⟨_, rfl⟩
    | some r => exact (h.errors _ (Dict.mem_of_get? hp) r he).2

theorem error_own (h : OwnGenerators N G dev env) {p : String} (hd : draws (errorVar env p) = true) :
    (errorVar env p).id ∈ G := by
  unfold errorVar instrumentOf at hd ⊢
  cases hp : env.instms.get? p with
  | none => rw [hp] at hd; cases hd
  | some i =>
    rw [hp] at hd
    dsimp only at hd ⊢
    cases he : i.error with
    | none => rw [he] at hd; cases hd
    | some r => exact (h.errors _ (Dict.mem_of_get? hp) r he).1

theorem noiseReqs_own (h : OwnGenerators N G dev env) {k : Nat} {rows : List (MeasRow (Ext ℝ))} :
    ∀ r ∈ noiseReqs env k rows, draws r.var = true → r.var.id ∈ G := by
  induction rows generalizing k with
  | nil => exact fun r hr => by cases hr
  | cons a rows ih =>
    intro r hr hd
    rcases List.mem_cons.1 hr with rfl | hr
    · exact error_own h hd
    · exact ih r hr hd

theorem after_other {G : Set Nat} {rs : List (Request ι)} (hG : ∀ r ∈ rs, draws r.var = true → r.var.id ∈ G)
    (next : Nat → Nat) {i : Nat} (hi : i ∉ G) : afterAll rs next i = next i := by
  induction rs generalizing next with
  | nil => rfl
  | cons r rs ih =>
    show afterAll rs _ i = _
    rw [ih (fun r hr => hG r (List.mem_cons_of_mem _ hr))]
    have h0 := hG r List.mem_cons_self
    unfold afterSample
    unfold draws at h0
    cases hd : r.var.dist with
    | deterministic _ => rfl
    | _ =>
      rw [hd] at h0
      dsimp only
      rw [if_neg]
      rintro rfl
      exact hi (h0 rfl)

/-- The errors that the rest of a table needs, from the state of the generators. -/
theorem reads_later (h : OwnGenerators N G dev env) {x : Nat → Nat → ℝ} {k : Nat} {rows : List (MeasRow (Ext ℝ))}
    {next next' : Nat → Nat} (hn : ∀ i ∈ G, next i = next' i) (hx : Reads N t next (noiseReqs env k rows) x) :
    Reads N t next' (noiseReqs env k rows) x :=
  reads_agree (noiseReqs_own h) (fun _ _ => rfl) hn hx

theorem measure_grows {q : Quantities} {e : PhysTestEnv (Ext ℝ)} {step : MeasSpec (Ext ℝ)} {i : Nat}
    {s : SimState (Ext ℝ)} {conds : Dict (Dict (Arr3 (Ext ℝ)))} {ms : Dict Nat} {acc all : List (MeasRow (Ext ℝ))}
    {w w' : Tapes N} (h : M.forIn' (measurePrm q dev e step i s conds) ms acc w = (.ok all, w')) :
    ∃ rows, all = acc ++ rows := by
  induction ms generalizing acc w with
  | nil =>
    cases h
    exact ⟨[], (List.append_nil _).symm⟩
  | cons kv ms ih =>
    obtain ⟨acc1, u, h1, h2⟩ := M.bind_eq_ok.1 h
    obtain ⟨t, ins, ys, w2, -, -, -, rfl⟩ := measurePrm_ok h1
    obtain ⟨rows, rfl⟩ := ih h2
    exact ⟨_, List.append_assoc _ _ _⟩

/-- The loop over the names of a measurement, exact and with errors. -/
theorem measure_both (h : OwnGenerators N G dev env) {q : Quantities} {step : MeasSpec (Ext ℝ)}
    {i : Nat} {s : SimState (Ext ℝ)} {conds : Dict (Dict (Arr3 (Ext ℝ)))} {x : Nat → Nat → ℝ} {ms : Dict Nat}
    {acc acc₀ rows₀ : List (MeasRow (Ext ℝ))} {w w₀ w₀' : Tapes N} {k : Nat} (hw : OffG G t t₀ w.next w w₀)
    (h0 : M.forIn' (measurePrm q dev (exactEnv env) step i s conds) ms acc₀ w₀ = (.ok (acc₀ ++ rows₀), w₀'))
    (hn : ∀ r ∈ rows₀, r.measured ≠ .nan) (hx : Reads N t w.next (noiseReqs env k rows₀) x) : ∃ rows w',
      M.forIn' (measurePrm q dev env step i s conds) ms acc w = (.ok (acc ++ rows), w') ∧
      OffG G t t₀ w'.next w' w₀' ∧ (∀ j ∈ G, w'.next j = afterAll (noiseReqs env k rows₀) w.next j) ∧
      ReadsAs env N x k rows₀ rows := by
  induction ms generalizing acc acc₀ rows₀ w w₀ k with
  | nil =>
    have h0 : (Except.ok acc₀, w₀) = ((Except.ok (acc₀ ++ rows₀) : Except Err _), w₀') := h0
    obtain ⟨e1, rfl⟩ := Prod.mk.inj h0
    have e1 : acc₀ = acc₀ ++ rows₀ := Except.ok.inj e1
    have : rows₀ = [] := by simpa using e1
    subst this
    exact ⟨[], w, by rw [List.append_nil]; rfl, hw, fun _ _ => rfl, trivial⟩
  | cons kv ms ih =>
    obtain ⟨acc1, u₀, h1, h2⟩ := M.bind_eq_ok.1 h0
    obtain ⟨rows1, v₀, h3, h4⟩ := M.bind_eq_ok.1 h1
    rw [exact_get] at h4
    obtain ⟨ins, hi, h4⟩ := M.ofExcept_bind_ok.1 h4
    cases hm : env.measInstm kv.1 with
    | error e => rw [hm] at hi; cases hi
    | ok ins' =>
      rw [hm] at hi
      cases hi
      obtain ⟨rows1', v1, h5, h6⟩ := M.bind_eq_ok.1 h4
      cases h6
      obtain ⟨e5, e6⟩ := exact_rows h5
      rw [e5, e6] at h2
      obtain ⟨rows2, e2⟩ := measure_grows h2
      rw [List.append_assoc] at e2
      have e2 := List.append_cancel_left e2
      subst e2
      have hp := fun r hr => (measureTrue_step h3 r hr).2.1
      obtain ⟨b1, b2⟩ := blind_measureTrue (own_equations (R := OffG G t t₀ w.next) h) q step i s conds kv.1 kv.2 w w₀ hw
      rw [h3] at b1 b2
      rcases hr : measureTrue q dev step i s conds kv.1 kv.2 w with ⟨e, v⟩
      rw [hr] at b1 b2
      simp only at b1 b2
      subst b1
      rw [noiseReqs_append] at hx
      obtain ⟨x1, x2⟩ := reads_append.1 hx
      obtain ⟨f, hf⟩ := error_value h kv.1
      have x1' : Reads N v.tape v.next (noiseReqs env k rows1) x := by
        rw [b2.1]
        exact reads_later h (fun j hj => (b2.2.2.2 j hj).symm) x1
      obtain ⟨rows', r1, r2⟩ := readRows_run hf hp (fun r hr => hn r (List.mem_append_left _ hr)) x1'
      have hstep : measurePrm q dev env step i s conds acc kv w =
          (.ok (acc ++ rows'), ⟨v.tape, afterAll (noiseReqs env k rows1) v.next⟩) := by
        unfold measurePrm
        rw [M.bind_ok hr, hm]
        show (readRows ins' rows1 >>= fun r => _) v = _
        rw [measInstm_eq hm, M.bind_ok r1]
        rfl
      have agree : ∀ j ∈ G, afterAll (noiseReqs env k rows1) v.next j = afterAll (noiseReqs env k rows1) w.next j := by
        exact afterAll_agree b2.2.2.2
      obtain ⟨rows'', w', g1, g2, g3, g4⟩ := ih (acc := acc ++ rows') (acc₀ := acc₀ ++ rows1) (rows₀ := rows2)
        (w := ⟨v.tape, afterAll (noiseReqs env k rows1) v.next⟩) (k := k + rows1.length)
        ⟨b2.1, b2.2.1, fun j hj => (after_other (noiseReqs_own h) v.next hj).trans (b2.2.2.1 j hj), fun _ _ => rfl⟩
        (by rw [List.append_assoc]; exact h2) (fun r hr => hn r (List.mem_append_right _ hr))
        (reads_later h (fun j hj => (agree j hj).symm) x2)
      refine ⟨rows' ++ rows'', w', ?_, g2, fun j hj => ?_, readsAs_append r2 g4⟩
      · show (measurePrm q dev env step i s conds acc kv >>= fun b => _) w = _
        rw [M.bind_ok hstep, g1, List.append_assoc]
      · rw [g3 j hj, noiseReqs_append, afterAll_append]
        exact afterAll_agree agree j hj

theorem blind_run {α : Type} {p : M (Tapes N) α} {ng : Nat → Nat} (hp : Blind (OffG G t t₀ ng) p) {w w₀ w₀' : Tapes N} {a : α}
    (hw : OffG G t t₀ ng w w₀) (h : p w₀ = (.ok a, w₀')) : ∃ w', p w = (.ok a, w') ∧ OffG G t t₀ ng w' w₀' := by
  obtain ⟨b1, b2⟩ := hp w w₀ hw
  rw [h] at b1 b2
  rcases hr : p w with ⟨e, v⟩
  rw [hr] at b1 b2
  simp only at b1 b2
  subst b1
  exact ⟨v, rfl, b2⟩

/-- One step, exact and with errors. -/
theorem step_both (ht : ∀ i ∉ G, t i = t₀ i) (h : OwnGenerators N G dev env) {ord : SetOrder} {q : Quantities}
    {st : Step (Ext ℝ)} {i : Nat} {s s' : SimState (Ext ℝ)} {x : Nat → Nat → ℝ}
    {rows₀ : List (MeasRow (Ext ℝ))} {lines : List (SumRow (Ext ℝ))} {w w₀ w₀' : Tapes N} {k : Nat}
    (hw : OffG G t t₀ w.next w w₀)
    (h0 : stepDelta ord dev (exactEnv env) q i st s w₀ = (.ok (s', rows₀, lines), w₀'))
    (hn : ∀ r ∈ rows₀, r.measured ≠ .nan) (hx : Reads N t w.next (noiseReqs env k rows₀) x) : ∃ rows w',
      stepDelta ord dev env q i st s w = (.ok (s', rows, lines), w') ∧ OffG G t t₀ w'.next w' w₀' ∧
      (∀ j ∈ G, w'.next j = afterAll (noiseReqs env k rows₀) w.next j) ∧ ReadsAs env N x k rows₀ rows := by
  cases st with
  | other d =>
    cases h0
    exact ⟨[], w, rfl, hw, fun _ _ => rfl, trivial⟩
  | strs st =>
    have hb : Blind (OffG G t t₀ w.next) (strsDelta ord dev env q i st s) := by
      refine (blind_conds (own_conds ht h) _ _ _ _ _ _ _ _).bind fun conds =>
        Blind.bind (Blind.forIn' (fun kv hkv s => ?_) _) fun s =>
        (Blind.ofExcept _).bind fun _ => (Blind.ofExcept _).bind fun _ => Blind.pure _
      refine blind_stressPrm ((own_equations h).deg kv.1 kv.2 ?_)
      exact Dict.get?_of_mem h.names (Gerabaldi.mem_degPrms.1 hkv)
    obtain ⟨w', g1, g2⟩ := blind_run hb hw h0
    have : rows₀ = [] := by
      obtain ⟨_, _, _, h1⟩ := M.bind_eq_ok.1 (show strsDelta ord dev _ q i st s w₀ = _ from h0)
      obtain ⟨_, _, _, h1⟩ := M.bind_eq_ok.1 h1
      obtain ⟨_, _, h1⟩ := M.ofExcept_bind_ok.1 h1
      obtain ⟨_, _, h1⟩ := M.ofExcept_bind_ok.1 h1
      cases h1
      rfl
    subst this
    exact ⟨[], w', g1, ⟨g2.1, g2.2.1, g2.2.2.1, fun _ _ => rfl⟩, g2.2.2.2, trivial⟩
  | meas m =>
    have h0 : measDelta ord dev (exactEnv env) q i m s w₀ = _ := h0
    obtain ⟨conds, v₀, h1, h2⟩ := M.bind_eq_ok.1 h0
    obtain ⟨rows, h3, h4⟩ := M.bind_pure_ok.1 h2
    cases h4
    obtain ⟨v, g1, g2⟩ := blind_run (blind_conds (own_conds ht h) ord m.conditions (.counts m.measurements) (some q)
      (some dev) .measure 1 1) hw h1
    have ng : ∀ j ∈ G, w.next j = v.next j := fun j hj => (g2.2.2.2 j hj).symm
    obtain ⟨rows', w', r1, r2, r3, r4⟩ := measure_both (acc := []) (acc₀ := []) h (w := v)
      ⟨g2.1, g2.2.1, g2.2.2.1, fun _ _ => rfl⟩ h3 hn (reads_later h ng hx)
    refine ⟨rows', w', ?_, r2, fun j hj => ?_, r4⟩
    · show measDelta ord dev env q i m s w = _
      unfold measDelta
      rw [M.bind_ok g1, M.bind_ok r1]
      rfl
    · rw [r3 j hj]
      exact (afterAll_agree ng j hj).symm

/-- All steps. -/
theorem run_both (ht : ∀ i ∉ G, t i = t₀ i) (h : OwnGenerators N G dev env) {ord : SetOrder} {q : Quantities}
    {steps : List (Step (Ext ℝ))} {i : Nat} {s s' : SimState (Ext ℝ)} {x : Nat → Nat → ℝ}
    {rows₀ : List (MeasRow (Ext ℝ))} {lines : List (SumRow (Ext ℝ))} {w w₀ w₀' : Tapes N} {k : Nat}
    (hw : OffG G t t₀ w.next w w₀)
    (h0 : runDelta ord dev (exactEnv env) q i steps s w₀ = (.ok (s', rows₀, lines), w₀'))
    (hn : ∀ r ∈ rows₀, r.measured ≠ .nan) (hx : Reads N t w.next (noiseReqs env k rows₀) x) : ∃ rows w',
      runDelta ord dev env q i steps s w = (.ok (s', rows, lines), w') ∧ OffG G t t₀ w'.next w' w₀' ∧
      ReadsAs env N x k rows₀ rows := by
  induction steps generalizing i s rows₀ lines w w₀ k with
  | nil =>
    cases h0
    exact ⟨[], w, rfl, hw, trivial⟩
  | cons st steps ih =>
    obtain ⟨s1, rows1, lines1, rows2, lines2, w1, h1, h2, rfl, rfl⟩ := runDelta_cons_ok.1 h0
    rw [noiseReqs_append] at hx
    obtain ⟨x1, x2⟩ := reads_append.1 hx
    obtain ⟨rows', v, g1, g2, g3, g4⟩ := step_both ht h hw h1 (fun r hr => hn r (List.mem_append_left _ hr)) x1
    obtain ⟨rows'', w', r1, r0, r2⟩ := ih g2 h2 (fun r hr => hn r (List.mem_append_right _ hr))
      (reads_later h (fun j hj => (g3 j hj).symm) x2)
    exact ⟨rows' ++ rows'', w', runDelta_cons_ok.2 ⟨_, _, _, _, _, _, g1, r1, rfl, rfl⟩, r0, readsAs_append g4 r2⟩

/-- The whole simulation. -/
theorem simulate_both (ht : ∀ i ∉ G, t i = t₀ i) (h : OwnGenerators N G dev env) {ord : SetOrder} {test : TestSpec (Ext ℝ)}
    {init : Option (SimState (Ext ℝ))} {x : Nat → Nat → ℝ} {r₀ : SimReport (Ext ℝ)} {next : Nat → Nat} {w₀' : Tapes N}
    (h0 : simulate ord test dev (exactEnv env) init ⟨t₀, next⟩ = (.ok r₀, w₀'))
    (hn : ∀ r ∈ r₀.measurements, r.measured ≠ .nan) (hx : Reads N t next (noiseReqs env 0 r₀.measurements) x) : ∃ rows w',
      simulate ord test dev env init ⟨t, next⟩ = (.ok { r₀ with measurements := rows }, w') ∧
      ReadsAs env N x 0 r₀.measurements rows := by
  obtain ⟨⟨sf, rf⟩, u, h1, h2⟩ := M.bind_eq_ok.1 h0
  cases h2
  obtain ⟨⟨s, r⟩, u₀, h3, h4⟩ := M.bind_eq_ok.1 h1
  have hr : r.measurements = [] := by
    cases init with
    | none =>
      obtain ⟨x, w1, h1, h2⟩ := M.bind_eq_ok.1 h3
      obtain ⟨q, -, h2⟩ := M.ofExcept_bind_ok.1 h2
      cases h2
      rfl
    | some s => cases h3; rfl
  obtain ⟨rows₀, lines, h5, rfl⟩ := runSteps_ok.1 h4
  have hb : Blind (OffG G t t₀ next) (simStart dev test init) := by
    unfold simStart
    cases init with
    | some s => exact Blind.pure _
    | none => exact (blind_genInit (own_latents ht h) _ _ _ _ _).bind fun _ => (Blind.ofExcept _).bind fun _ => Blind.pure _
  obtain ⟨v, g1, g2⟩ := blind_run (w := ⟨t, next⟩) (w₀ := ⟨t₀, next⟩) hb ⟨rfl, rfl, fun _ _ => rfl, fun _ _ => rfl⟩ h3
  have hm : (r.grow rows₀ lines).measurements = rows₀ := by
    show r.measurements ++ rows₀ = _
    rw [hr, List.nil_append]
  rw [hm] at hn hx ⊢
  obtain ⟨rows, w', r1, -, r2⟩ := run_both ht h (w := v) ⟨g2.1, g2.2.1, g2.2.2.1, fun _ _ => rfl⟩ h5 hn
    (reads_later h (fun j hj => (g2.2.2.2 j hj).symm) hx)
  refine ⟨rows, w', ?_, r2⟩
  have hs : simulateFull ord test dev env init ⟨t, next⟩ = (.ok (sf, r.grow rows lines), w') := by
    unfold simulateFull
    rw [M.bind_ok g1]
    exact runSteps_ok.2 ⟨rows, lines, r1, rfl⟩
  unfold simulate
  rw [M.bind_ok hs]
  show (Except.ok (r.grow rows lines), w') = _
  unfold SimReport.grow
  rw [hr]
  rfl

end runs

section errors
variable {Ω : Type} [MeasurableSpace Ω] {P : Measure Ω} {P₀ : Measure ℝ} {raw : Nat → Nat → Ω → ℝ}
variable {G : Set Nat} {dev : DeviceMdl (Tapes N) (Ext ℝ)} {env : PhysTestEnv (Ext ℝ)}

theorem noiseReqs_mem {k j : Nat} {rows : List (MeasRow (Ext ℝ))} (hj : j < rows.length) :
    (⟨k + j, errorVar env rows[j].prm, 1⟩ : Request Nat) ∈ noiseReqs env k rows := by
  induction rows generalizing k j with
  | nil => exact absurd hj (Nat.not_lt_zero _)
  | cons r rows ih =>
    cases j with
    | zero => exact List.mem_cons_self
    | succ j =>
      refine List.mem_cons_of_mem _ ?_
      have := ih (k := k + 1) (j := j) (by simpa using hj)
      rw [Nat.add_assoc, Nat.add_comm 1] at this
      exact this

theorem noiseReqs_label {k : Nat} {rows : List (MeasRow (Ext ℝ))} :
    (noiseReqs env k rows).map (·.label) = List.range' k rows.length := by
  induction rows generalizing k with
  | nil => rfl
  | cons r rows ih =>
    rw [List.length_cons, List.range'_succ, ← ih]
    rfl

theorem noiseReqs_value (h : OwnGenerators N G dev env) {k : Nat} {rows : List (MeasRow (Ext ℝ))} :
    ∀ r ∈ noiseReqs env k rows, ∃ f, N.value r.var.dist = some f := by
  induction rows generalizing k with
  | nil => exact fun r hr => by cases hr
  | cons a rows ih =>
    intro r hr
    rcases List.mem_cons.1 hr with rfl | hr
    · exact error_value h _
    · exact ih r hr

theorem reads_value {x : Nat → Nat → ℝ} {t : Nat → Nat → ℝ} {next : Nat → Nat} {rs : List (Request Nat)}
    (h : Reads N t next rs x) {r : Request Nat} (hr : r ∈ rs) {f : ℝ → ℝ} (hf : N.value r.var.dist = some f) {i : Nat}
    (hi : i < r.size) : ∃ u, x r.label i = f u := by
  induction rs generalizing next with
  | nil => cases hr
  | cons a rs ih =>
    rcases List.mem_cons.1 hr with rfl | hr
    · exact ⟨_, h.1 f hf i hi⟩
    · exact ih h.2 hr

theorem readsAs_at {x : Nat → Nat → ℝ} {k : Nat} {rows ms : List (MeasRow (Ext ℝ))} (h : ReadsAs env N x k rows ms) :
    ms.length = rows.length ∧ ∀ j (hj : j < rows.length), ∃ y, ShownFor N (instrumentOf env rows[j].prm)
      (PyArith.add rows[j].measured (.fin (x (k + j) 0))) y ∧ ms[j]? = some { rows[j] with measured := y } := by
  induction rows generalizing k ms with
  | nil =>
    cases ms with
    | nil => exact ⟨rfl, fun j hj => absurd hj (Nat.not_lt_zero _)⟩
    | cons _ _ => exact h.elim
  | cons r rows ih =>
    cases ms with
    | nil => exact h.elim
    | cons m ms =>
      obtain ⟨⟨y, y1, y2⟩, h2⟩ := h
      obtain ⟨i1, i2⟩ := ih h2
      refine ⟨by simp [i1], fun j hj => ?_⟩
      cases j with
      | zero => exact ⟨y, y1, by rw [y2]; rfl⟩
      | succ j =>
        obtain ⟨z, z1, z2⟩ := i2 j (by simpa using hj)
        refine ⟨z, ?_, z2⟩
        rw [Nat.add_assoc, Nat.add_comm 1] at z1
        exact z1

/-- **C95**: whatever the devices and conditions turn out to be (all numbers of the other generators are fixed), the
table of a simulation shows the table of exact instruments with errors added: one for every row, independent, with
the distribution of the error of the instrument. Nothing else in the report changes. -/
theorem C95_errors (hN : N.Correct P₀) (hr : Standard P P₀ raw) (h : OwnGenerators N G dev env) {ord : SetOrder}
    {test : TestSpec (Ext ℝ)} {init : Option (SimState (Ext ℝ))} {tape : Nat → Nat → ℝ} {next : Nat → Nat}
    {r₀ : SimReport (Ext ℝ)} {w₀ : Tapes N}
    (h0 : simulate ord test dev (exactEnv env) init ⟨tape, next⟩ = (.ok r₀, w₀))
    (hn : ∀ r ∈ r₀.measurements, r.measured ≠ .nan) :
    ∃ E : Fin r₀.measurements.length → Ω → ℝ, iIndepFun E P ∧ (∀ j, Measurable (E j)) ∧
      (∀ j, ErrorOf N P P₀ (instrumentOf env r₀.measurements[j].prm) (E j)) ∧
      ∀ ω, ∃ rows w', simulate ord test dev env init (mixed G raw tape next ω) =
          (.ok { r₀ with measurements := rows }, w') ∧ rows.length = r₀.measurements.length ∧
        ∀ j : Fin r₀.measurements.length, ∃ y, ShownFor N (instrumentOf env r₀.measurements[j].prm)
          (PyArith.add r₀.measurements[j].measured (.fin (E j ω))) y ∧
          rows[j.val]? = some { r₀.measurements[j] with measured := y } := by
  obtain ⟨X, x1, x2, x3, x4⟩ := requests_independent hN hr (rs := noiseReqs env 0 r₀.measurements)
    (by rw [noiseReqs_label]; exact List.nodup_range') (noiseReqs_value h) next
  have hmem : ∀ j : Fin r₀.measurements.length, (⟨j.val, errorVar env r₀.measurements[j].prm, 1⟩ : Request Nat) ∈
      noiseReqs env 0 r₀.measurements := by
    intro j
    have := noiseReqs_mem (env := env) (k := 0) j.2
    rwa [Nat.zero_add] at this
  refine ⟨fun j => X j.val 0, ?_, fun j => x2 _ _, fun j => ?_, fun ω => ?_⟩
  · have hinj : Function.Injective (fun j : Fin r₀.measurements.length =>
        (⟨(j.val, 0), ⟨_, hmem j, rfl, Nat.zero_lt_one⟩⟩ :
          {p : Nat × Nat // ∃ r ∈ noiseReqs env 0 r₀.measurements, r.label = p.1 ∧ p.2 < r.size})) := by
      intro a b e
      exact Fin.ext (congrArg (fun z => z.1.1) e)
    exact x1.precomp hinj
  · unfold ErrorOf
    have hv : errorVar env r₀.measurements[j].prm = (instrumentOf env r₀.measurements[j].prm).error.getD (detUnit (.fin 0)) := rfl
    cases he : (instrumentOf env r₀.measurements[j].prm).error with
    | none =>
      rw [he] at hv
      intro ω
      obtain ⟨u, hu⟩ := reads_value (x4 ω) (hmem j) (f := fun _ => 0) (by rw [hv]; rfl) Nat.zero_lt_one
      exact hu
    | some r =>
      rw [he] at hv
      intro f hf
      exact x3 _ (hmem j) f (by rw [hv]; exact hf) 0
  · have hx : Reads N (mixed (N := N) G raw tape next ω).tape next (noiseReqs env 0 r₀.measurements) (fun a i => X a i ω) :=
      reads_agree (noiseReqs_own h) (fun i hi => by funext j; exact (if_pos hi).symm) (fun _ _ => rfl) (x4 ω)
    obtain ⟨rows, w', g1, g2⟩ := simulate_both (t := (mixed (N := N) G raw tape next ω).tape)
      (fun i hi => by funext j; exact if_neg hi) h h0 hn hx
    obtain ⟨k1, k2⟩ := readsAs_at g2
    refine ⟨rows, w', g1, k1, fun j => ?_⟩
    have := k2 j.val j.2
    rw [Nat.zero_add] at this
    exact this

theorem shown_plain {ins : Instrument (Ext ℝ)} (hp : ins.precision = none) (hr : ins.range = none) {x y : Ext ℝ}
    (h : ShownFor N ins x y) : y = x := by
  have e : ({ ins with error := none } : Instrument (Ext ℝ)).measureVals [x] (⟨fun _ _ => 0, fun _ => 0⟩ : Tapes N) =
      (.ok [x], ⟨fun _ _ => 0, fun _ => 0⟩) := by
    unfold Instrument.measureVals Instrument.applyPrecision Instrument.applyRange
    rw [hp, hr]
    rfl
  have := h (⟨fun _ _ => 0, fun _ => 0⟩ : Tapes N)
  rw [e] at this
  injection this with h1 h2
  injection h1 with h1
  injection h1 with h1 _
  exact h1.symm

/-- **C95** for normal errors: such readings are independent and normally distributed around the true values. -/
theorem C95_normal (hN : N.Correct P₀) (hr : Standard P P₀ raw) (h : OwnGenerators N G dev env) {ord : SetOrder}
    {test : TestSpec (Ext ℝ)} {init : Option (SimState (Ext ℝ))} {tape : Nat → Nat → ℝ} {next : Nat → Nat}
    {r₀ : SimReport (Ext ℝ)} {w₀ : Tapes N}
    (h0 : simulate ord test dev (exactEnv env) init ⟨tape, next⟩ = (.ok r₀, w₀))
    (hn : ∀ r ∈ r₀.measurements, r.measured ≠ .nan) :
    ∃ Y : Fin r₀.measurements.length → Ω → ℝ, iIndepFun Y P ∧ (∀ j, Measurable (Y j)) ∧
      (∀ j mu sigma v, NormalError (instrumentOf env r₀.measurements[j].prm) mu sigma →
        r₀.measurements[j].measured = .fin v → P.map (Y j) = gaussianReal (mu + v) (sigma ^ 2)) ∧
      ∀ ω, ∃ rows w', simulate ord test dev env init (mixed G raw tape next ω) =
          (.ok { r₀ with measurements := rows }, w') ∧
        ∀ (j : Fin r₀.measurements.length) mu sigma v, NormalError (instrumentOf env r₀.measurements[j].prm) mu sigma →
          r₀.measurements[j].measured = .fin v →
          rows[j.val]? = some { r₀.measurements[j] with measured := .fin (Y j ω) } := by
  obtain ⟨E, e1, e2, e3, e4⟩ := C95_errors hN hr h h0 hn
  let base : Fin r₀.measurements.length → ℝ := fun j => match r₀.measurements[j].measured with
    | .fin v => v
    | _ => 0
  have hb : ∀ j v, r₀.measurements[j].measured = .fin v → base j = v := by
    intro j v hv
    show (match r₀.measurements[j].measured with | .fin v => v | _ => 0) = v
    rw [hv]
  refine ⟨fun j => (fun e => base j + e) ∘ E j, e1.comp (fun j e => base j + e) fun j => measurable_const_add _,
    fun j => (measurable_const_add _).comp (e2 j), ?_, fun ω => ?_⟩
  · rintro j mu sigma v ⟨⟨r, h1, h2⟩, -, -⟩ hv
    have h3 := e3 j
    unfold ErrorOf at h3
    rw [h1] at h3
    have h4 := h3 (N.normal mu sigma) (by rw [h2]; rfl)
    rw [← Measure.map_map (measurable_const_add _) (e2 j), h4, hN.gaussian, gaussianReal_map_const_add, hb j v hv]
  · obtain ⟨rows, w', g1, -, g3⟩ := e4 ω
    refine ⟨rows, w', g1, fun j mu sigma v hno hv => ?_⟩
    obtain ⟨y, y1, y2⟩ := g3 j
    rw [y2, shown_plain hno.precision hno.range y1, hv]
    show some _ = some _
    rw [← hb j v hv]
    rfl

end errors

/-! ## An example -/

/-- A leakage current that depends on temperature and varies between devices. -/
noncomputable def leakMdl : LatentMdl (Tapes linearNumpy) (Ext ℝ) where
  latentVars := [("amp", lotLatent)]
  compute := (NumExpr.bin PyArith.mul (.arg "temp") (.arg "amp")).fn ["temp", "amp"]

noncomputable def leakDev : DeviceMdl (Tapes linearNumpy) (Ext ℝ) := ⟨[("leak", .circ leakMdl)], none⟩

/-- An oven with an offset, a thermometer and an ammeter with errors. -/
noncomputable def gaugeEnv : PhysTestEnv (Ext ℝ) where
  vars := [("temp", { (EnvVrtnMdl.ideal : EnvVrtnMdl (Ext ℝ)) with batch := ⟨1, .normal (.fin 0) (.fin (2 : NNReal)), none⟩ })]
  instms := [("temp", { error := some ⟨5, .normal (.fin 0) (.fin (3 : NNReal)), none⟩ }),
    ("leak", { error := some ⟨5, .normal (.fin 0) (.fin (1 : NNReal)), none⟩ })]

/-- Two sensors and two leakage currents are read twice. -/
noncomputable def gaugeTest : TestSpec (Ext ℝ) where
  steps := [.meas ⟨[("temp", 2), ("leak", 2)], [("temp", .fin 300)], "first"⟩,
    .meas ⟨[("temp", 2), ("leak", 2)], [("temp", .fin 300)], "second"⟩]

theorem gauge_own : OwnGenerators linearNumpy {5} leakDev gaugeEnv := by
  refine ⟨List.nodup_singleton _, ?_, ?_, ?_, ?_⟩
  · intro kv hkv r hr
    rcases List.mem_cons.1 hkv with rfl | hkv
    · cases hr
      exact ⟨rfl, _, rfl⟩
    · rw [List.mem_singleton.1 hkv] at hr
      cases hr
      exact ⟨rfl, _, rfl⟩
  · intro kv hkv
    rw [List.mem_singleton.1 hkv]
    exact ⟨.inl (by simp), .inr ⟨_, rfl⟩, .inr ⟨_, rfl⟩⟩
  · intro kv hkv m hm
    rw [List.mem_singleton.1 hkv] at hm
    cases hm
  · intro kv hkv m hm
    rw [List.mem_singleton.1 hkv] at hm
    cases hm
    refine ⟨fun args => ⟨_, rfl⟩, fun kv hkv => ?_⟩
    rw [List.mem_singleton.1 hkv]
    exact ⟨.inl (by simp [lotLatent]), .inr ⟨_, rfl⟩, .inl (by simp [lotLatent])⟩

/-- Is this an ordinary number? -/
def isFin : Ext ℝ → Bool
  | .fin _ => true
  | _ => false

/-- The numbers of the other generators. -/
noncomputable def gaugeTape (i j : Nat) : ℝ := i + j

/-- The readings of exact instruments. -/
noncomputable def gaugeRows : List (MeasRow (Ext ℝ)) :=
  match (simulate Ex.orderA gaugeTest leakDev (exactEnv gaugeEnv) none ⟨gaugeTape, fun _ => 0⟩).1 with
  | .ok r => r.measurements
  | .error _ => []

theorem gauge_rows : gaugeRows.all (fun r => isFin r.measured) = true ∧
    gaugeRows.map (·.prm) = ["temp", "temp", "leak", "leak", "temp", "temp", "leak", "leak"] := by
  decide +kernel

theorem gauge_exact : ∃ r₀ w₀, simulate Ex.orderA gaugeTest leakDev (exactEnv gaugeEnv) none ⟨gaugeTape, fun _ => 0⟩ =
    (.ok r₀, w₀) ∧ r₀.measurements = gaugeRows := by
  refine ⟨_, _, rfl, rfl⟩

/-- The eight readings of this test are independent, and normally distributed with a standard deviation of 3 degrees
for the sensors and 1 for the currents. -/
example : ∃ Y : Fin gaugeRows.length → (Nat × Nat → ℝ) → ℝ,
    iIndepFun Y (Measure.infinitePi fun _ : Nat × Nat => gaussianReal 0 1) ∧
    ∀ j, ∃ v, (Measure.infinitePi fun _ : Nat × Nat => gaussianReal 0 1).map (Y j) =
        gaussianReal v ((if (gaugeRows.get j).prm = "temp" then 3 else 1) ^ 2) ∧
      ∀ ω, ∃ r w, simulate Ex.orderA gaugeTest leakDev gaugeEnv none
          (mixed {5} (fun i j (ω : Nat × Nat → ℝ) => ω (i, j)) gaugeTape (fun _ => 0) ω) = (.ok r, w) ∧
        (r.measurements.map (·.measured))[j.val]? = some (.fin (Y j ω)) := by
  obtain ⟨r₀, w₀, h0, h1⟩ := gauge_exact
  have gr := gauge_rows
  generalize gaugeRows = rows at *
  subst h1
  have hfin : ∀ r ∈ r₀.measurements, ∃ v, r.measured = .fin v := by
    intro r hr
    have := List.all_eq_true.1 gr.1 r hr
    cases h : r.measured with
    | fin v => exact ⟨v, rfl⟩
    | _ => rw [h] at this; cases this
  have hnorm : ∀ j : Fin r₀.measurements.length, NormalError (instrumentOf gaugeEnv r₀.measurements[j].prm) 0
      (if r₀.measurements[j].prm = "temp" then 3 else 1) := by
    intro j
    have : r₀.measurements[j].prm ∈ r₀.measurements.map (·.prm) :=
      List.mem_map.2 ⟨_, List.getElem_mem j.isLt, rfl⟩
    rw [gr.2] at this
    simp only [List.mem_cons, List.not_mem_nil, or_false, or_self] at this
    have : r₀.measurements[j].prm = "temp" ∨ r₀.measurements[j].prm = "leak" := by tauto
    rcases this with h | h <;> rw [h]
    · exact ⟨⟨_, rfl, rfl⟩, rfl, rfl⟩
    · exact ⟨⟨_, rfl, rfl⟩, rfl, rfl⟩
  obtain ⟨Y, y1, -, y3, y4⟩ := C95_normal linear_correct exists_standard gauge_own h0 fun r hr h => by
    obtain ⟨v, hv⟩ := hfin r hr
    rw [hv] at h
    cases h
  refine ⟨Y, y1, fun j => ?_⟩
  obtain ⟨v, hv⟩ := hfin _ (List.getElem_mem j.isLt)
  refine ⟨0 + v, y3 j _ _ v (hnorm j) hv, fun ω => ?_⟩
  obtain ⟨rows, w, g1, g2⟩ := y4 ω
  refine ⟨_, w, g1, ?_⟩
  rw [List.getElem?_map, g2 j _ _ v (hnorm j) hv]
  rfl

end Gerabaldi.Props
