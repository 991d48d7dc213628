import Verif.Lemmas.Sim
import Verif.Spec.Sim

/-!
# What the steps of a simulation add

`stepDelta` and `runDelta` describe a step (a sequence of steps) by the new state and the rows it adds;
they do not mention the report except for its quantities.
-/

namespace Gerabaldi
open Spec

namespace M
variable {W α β γ : Type}

/-- A loop whose accumulator is seen through `g`. -/
theorem forIn'_map {f : β → α → M W β} {f' : γ → α → M W γ} (g : β → γ)
    {xs : List α} (h : ∀ x ∈ xs, ∀ b, f' (g b) x = (f b x >>= fun b' => Pure.pure (g b'))) (b : β) :
    forIn' f' xs (g b) = (forIn' f xs b >>= fun b' => Pure.pure (g b')) := by
  induction xs generalizing b with
  | nil => simp only [forIn', pure_bind']
  | cons x xs ih =>
    simp only [forIn', bind_assoc']
    rw [h x List.mem_cons_self, bind_assoc']
    congr 1
    funext b'
    rw [pure_bind']
    exact ih (fun y hy => h y (List.mem_cons_of_mem _ hy)) b'

end M

theorem enumFrom_append {α : Type} (i : Nat) (xs ys : List α) :
    enumFrom i (xs ++ ys) = enumFrom i xs ++ enumFrom (i + xs.length) ys := by
  induction xs generalizing i with
  | nil => simp [enumFrom]
  | cons x xs ih =>
    simp only [List.cons_append, enumFrom, List.length_cons]
    rw [ih, show i + 1 + xs.length = i + (xs.length + 1) by omega]

variable {W V : Type}

/-- New state, new measurement rows, new summary rows. -/
abbrev Delta (V : Type) := SimState V × List (MeasRow V) × List (SumRow V)

/-- A report with more rows. -/
def SimReport.grow (r : SimReport V) (rows : List (MeasRow V)) (lines : List (SumRow V)) : SimReport V :=
  { r with measurements := r.measurements ++ rows, summary := r.summary ++ lines }

theorem SimReport.grow_nil (r : SimReport V) : r.grow [] [] = r := by
  unfold grow; simp

theorem SimReport.grow_grow (r : SimReport V) (a b : List (MeasRow V)) (c d : List (SumRow V)) :
    (r.grow a c).grow b d = r.grow (a ++ b) (c ++ d) := by
  unfold grow; simp

theorem SimReport.info_grow (r : SimReport V) (a : List (MeasRow V)) (c : List (SumRow V)) :
    (r.grow a c).info = r.info := rfl

variable [PyNum V] [Rng W V]

/-- What a stress step does. -/
def strsDelta (ord : SetOrder) (dev : DeviceMdl W V) (env : PhysTestEnv V) (q : Quantities) (i : Nat)
    (step : StrsSpec V) (s : SimState V) : M W (Delta V) := do
  let conds ← env.genEnvCondVals ord step.conditions (.names (dev.degPrms.map (·.1)))
    (some q) (some dev) .stress 1 1
  let s ← M.forIn' (stressPrm q step.duration conds) dev.degPrms s
  let e ← M.ofExcept (s.elapsed.add step.duration)
  let start ← M.ofExcept (e.sub step.duration)
  pure ({ s with elapsed := e }, [],
    [summaryRow step.name "stress" i step.duration start e step.conditions])

/-- What a measurement step does. -/
def measDelta (ord : SetOrder) (dev : DeviceMdl W V) (env : PhysTestEnv V) (q : Quantities) (i : Nat)
    (step : MeasSpec V) (s : SimState V) : M W (Delta V) := do
  let conds ← env.genEnvCondVals ord step.conditions (.counts step.measurements)
    (some q) (some dev) .measure 1 1
  let rows ← M.forIn' (measurePrm q dev env step i s conds) step.measurements []
  pure (s, rows, [summaryRow step.name "measure" i (.td 0) s.elapsed s.elapsed step.conditions])

/-- What a step does. -/
def stepDelta (ord : SetOrder) (dev : DeviceMdl W V) (env : PhysTestEnv V) (q : Quantities) (i : Nat)
    (st : Step V) (s : SimState V) : M W (Delta V) :=
  match st with
  | .strs st => strsDelta ord dev env q i st s
  | .meas m => measDelta ord dev env q i m s
  | .other _ => pure (s, [], [])

/-- What a sequence of steps does. -/
def runDelta (ord : SetOrder) (dev : DeviceMdl W V) (env : PhysTestEnv V) (q : Quantities) :
    Nat → List (Step V) → SimState V → M W (Delta V)
  | _, [], s => pure (s, [], [])
  | i, st :: rest, s => do
    let d ← stepDelta ord dev env q i st s
    let e ← runDelta ord dev env q (i + 1) rest d.1
    pure (e.1, d.2.1 ++ e.2.1, d.2.2 ++ e.2.2)

theorem simStep_eq (ord : SetOrder) (dev : DeviceMdl W V) (env : PhysTestEnv V) (i : Nat) (st : Step V)
    (s : SimState V) (r : SimReport V) :
    simStep ord dev env (s, r) (i, st) =
      (stepDelta ord dev env r.info i st s >>= fun d => pure (d.1, r.grow d.2.1 d.2.2)) := by
  cases st with
  | strs st =>
    simp only [simStep, stepDelta, simStress, strsDelta, M.bind_assoc', M.pure_bind', SimReport.grow,
      SimReport.addSummary, List.append_nil]
  | meas m =>
    simp only [simStep, stepDelta, simMeas, measDelta, M.bind_assoc', M.pure_bind', SimReport.grow,
      SimReport.addSummary, SimReport.addMeasurements]
  | other d =>
    simp only [simStep, stepDelta, M.pure_bind', SimReport.grow_nil]

theorem runSteps_eq (ord : SetOrder) (dev : DeviceMdl W V) (env : PhysTestEnv V) (i : Nat)
    (steps : List (Step V)) (s : SimState V) (r : SimReport V) :
    runSteps ord dev env i steps (s, r) =
      (runDelta ord dev env r.info i steps s >>= fun d => pure (d.1, r.grow d.2.1 d.2.2)) := by
  unfold runSteps
  induction steps generalizing i s r with
  | nil => simp only [enumFrom, M.forIn', runDelta, M.pure_bind', SimReport.grow_nil]
  | cons st rest ih =>
    simp only [enumFrom, M.forIn', runDelta]
    rw [simStep_eq]
    simp only [M.bind_assoc', M.pure_bind']
    congr 1
    funext d
    rw [ih, SimReport.info_grow]
    congr 1
    funext e
    rw [SimReport.grow_grow]

theorem runSteps_ok {ord : SetOrder} {dev : DeviceMdl W V} {env : PhysTestEnv V} {i : Nat}
    {steps : List (Step V)} {s s' : SimState V} {r r' : SimReport V} {w w' : W} :
    runSteps ord dev env i steps (s, r) w = (.ok (s', r'), w') ↔
      ∃ rows lines, runDelta ord dev env r.info i steps s w = (.ok (s', rows, lines), w') ∧
        r' = r.grow rows lines := by
  rw [runSteps_eq, M.bind_pure_ok]
  constructor
  · rintro ⟨⟨s1, rows, lines⟩, h, e⟩
    cases e
    exact ⟨rows, lines, h, rfl⟩
  · rintro ⟨rows, lines, h, rfl⟩
    exact ⟨_, h, rfl⟩

theorem runDelta_append (ord : SetOrder) (dev : DeviceMdl W V) (env : PhysTestEnv V) (q : Quantities)
    (i : Nat) (xs ys : List (Step V)) (s : SimState V) :
    runDelta ord dev env q i (xs ++ ys) s =
      (runDelta ord dev env q i xs s >>= fun d =>
        runDelta ord dev env q (i + xs.length) ys d.1 >>= fun e =>
          pure (e.1, d.2.1 ++ e.2.1, d.2.2 ++ e.2.2)) := by
  induction xs generalizing i s with
  | nil =>
    simp only [List.nil_append, runDelta, M.pure_bind', List.length_nil, Nat.add_zero]
    exact (M.bind_pure' _).symm
  | cons x xs ih =>
    simp only [List.cons_append, runDelta, M.bind_assoc', M.pure_bind', List.length_cons]
    congr 1
    funext d
    rw [ih]
    simp only [M.bind_assoc', M.pure_bind', List.append_assoc]
    rw [show i + 1 + xs.length = i + (xs.length + 1) by omega]

/-! ## Step numbers are only labels -/

omit [PyNum V] [Rng W V] in
theorem formatMeasurements_later (v : PyVal V) (prm : String) (t : TimeVal) (i k : Nat) (ty : PrmType) :
    (M.ofExcept (formatMeasurements v prm t (i + k) ty) : M W _) =
      (M.ofExcept (formatMeasurements v prm t i ty) >>= fun rows =>
        pure (rows.map (laterRow k))) := by
  cases v with
  | arr a =>
    show (fun w => (Except.ok (formatArr a prm t (i + k) ty), w)) = _
    funext w
    rw [M.bind_run, M.ofExcept_run]
    refine congrArg (fun x => (Except.ok x, w)) ?_
    unfold formatArr
    rw [List.map_zipWith]
    rfl
  | scal x => rfl
  | npscal x => rfl

omit [Rng W V] in
theorem measureTrue_later (q : Quantities) (dev : DeviceMdl W V) (step : MeasSpec V) (i k : Nat)
    (s : SimState V) (conds : Dict (Dict (Arr3 V))) (prm : String) (n : Nat) :
    measureTrue q dev step (i + k) s conds prm n =
      (measureTrue q dev step i s conds prm n >>= fun rows => pure (rows.map (laterRow k))) := by
  unfold measureTrue
  split
  · split
    · simp only [M.bind_assoc', formatMeasurements_later]
    · rfl
  · split
    · simp only [M.bind_assoc', formatMeasurements_later]
    · rfl
    · split
      · simp only [M.bind_assoc', formatMeasurements_later]
      · rfl

theorem readRows_later (ins : Instrument V) (rows : List (MeasRow V)) (k : Nat) :
    (readRows ins (rows.map (laterRow k)) : M W _) =
      (readRows ins rows >>= fun rows => pure (rows.map (laterRow k))) := by
  unfold readRows
  simp only [M.bind_assoc', M.pure_bind']
  have : (rows.map (laterRow k)).map (·.measured) = rows.map (·.measured) := by
    rw [List.map_map]; rfl
  rw [this]
  congr 1
  funext ys
  rw [List.zipWith_map_left, List.map_zipWith]
  rfl

theorem measurePrm_later (q : Quantities) (dev : DeviceMdl W V) (env : PhysTestEnv V) (step : MeasSpec V)
    (i k : Nat) (s : SimState V) (conds : Dict (Dict (Arr3 V))) (acc : List (MeasRow V))
    (kv : String × Nat) :
    measurePrm q dev env step (i + k) s conds (acc.map (laterRow k)) kv =
      (measurePrm q dev env step i s conds acc kv >>= fun rows => pure (rows.map (laterRow k))) := by
  unfold measurePrm
  rw [measureTrue_later]
  simp only [M.bind_assoc', M.pure_bind']
  congr 1
  funext rows
  congr 1
  funext ins
  rw [readRows_later]
  simp only [M.bind_assoc', M.pure_bind', List.map_append]

omit [PyNum V] [Rng W V] in
theorem set_map_cell (f : Cell V → Cell V) (d : SumRow V) (k : String) (c : Cell V) :
    (d.set k c).map (fun kv => (kv.1, f kv.2)) = Dict.set (d.map fun kv => (kv.1, f kv.2)) k (f c) := by
  induction d with
  | nil => rfl
  | cons hd d ih =>
    obtain ⟨k0, v0⟩ := hd
    simp only [Dict.set, List.map_cons]
    split
    · rfl
    · rw [List.map_cons, ih]

omit [PyNum V] [Rng W V] in
theorem summaryRow_later (name type : String) (i k : Nat) (dur start stop : TimeVal) (conds : Dict V) :
    summaryRow name type (i + k) dur start stop conds =
      laterLine k (summaryRow name type i dur start stop conds) := by
  unfold summaryRow laterLine Dict.update
  have h : ∀ (d : SumRow V), (conds.map fun kv => (kv.1, (Cell.val kv.2 : Cell V))).foldl
      (fun acc kv => Dict.set acc kv.1 kv.2) (d.map fun kv => (kv.1, laterCell k kv.2)) =
      ((conds.map fun kv => (kv.1, (Cell.val kv.2 : Cell V))).foldl
        (fun acc kv => Dict.set acc kv.1 kv.2) d).map fun kv => (kv.1, laterCell k kv.2) := by
    induction conds with
    | nil => intro d; rfl
    | cons c cs ih =>
      intro d
      simp only [List.map_cons, List.foldl_cons]
      rw [← ih, set_map_cell]
      rfl
  exact h [("step name", .str name), ("step type", .str type), ("step number", .nat i),
    ("duration", .time dur), ("start time", .time start), ("end time", .time stop)]

/-- A delta with its step numbers `k` higher. -/
def laterDelta (k : Nat) (d : Delta V) : Delta V :=
  (d.1, d.2.1.map (laterRow k), d.2.2.map (laterLine k))

theorem stepDelta_later (ord : SetOrder) (dev : DeviceMdl W V) (env : PhysTestEnv V) (q : Quantities)
    (i k : Nat) (st : Step V) (s : SimState V) :
    stepDelta ord dev env q (i + k) st s =
      (stepDelta ord dev env q i st s >>= fun d => pure (laterDelta k d)) := by
  cases st with
  | strs st =>
    simp only [stepDelta, strsDelta, M.bind_assoc', M.pure_bind', laterDelta, List.map_nil,
      List.map_cons, summaryRow_later]
  | other d => simp only [stepDelta, M.pure_bind', laterDelta, List.map_nil]
  | meas m =>
    simp only [stepDelta, measDelta, M.bind_assoc', M.pure_bind', laterDelta, List.map_nil,
      List.map_cons, summaryRow_later]
    congr 1
    funext conds
    have := M.forIn'_map (f := measurePrm q dev env m i s conds)
      (f' := measurePrm q dev env m (i + k) s conds) (List.map (laterRow k)) (xs := m.measurements)
      (fun x _ b => measurePrm_later q dev env m i k s conds b x) []
    rw [List.map_nil] at this
    rw [this]
    simp only [M.bind_assoc', M.pure_bind']

theorem runDelta_later (ord : SetOrder) (dev : DeviceMdl W V) (env : PhysTestEnv V) (q : Quantities)
    (i k : Nat) (steps : List (Step V)) (s : SimState V) :
    runDelta ord dev env q (i + k) steps s =
      (runDelta ord dev env q i steps s >>= fun d => pure (laterDelta k d)) := by
  induction steps generalizing i s with
  | nil => simp only [runDelta, M.pure_bind', laterDelta, List.map_nil]
  | cons st rest ih =>
    simp only [runDelta, M.bind_assoc', M.pure_bind']
    rw [stepDelta_later]
    simp only [M.bind_assoc', M.pure_bind']
    congr 1
    funext d
    rw [show i + k + 1 = i + 1 + k by omega]
    show (runDelta ord dev env q (i + 1 + k) rest d.1 >>= _) = _
    rw [ih]
    simp only [M.bind_assoc', M.pure_bind', laterDelta, List.map_append]

end Gerabaldi
