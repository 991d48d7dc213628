import Verif.Model.Sim
import Verif.Lemmas.Mech
import Verif.Lemmas.Sim
import Verif.Lemmas.Report
import Verif.Spec.ExampleDevice
import Verif.Props.Report
import Mathlib.Algebra.BigOperators.Group.List.Basic

/-!
# The default parameter equation: C34
-/

namespace Gerabaldi.Props

open Gerabaldi Gerabaldi.Spec

variable {W V : Type}

theorem update_append {α : Type} (d d' : Dict α) (hnd : d'.Nodup) (hdis : ∀ k ∈ d'.keys, k ∉ d.keys) :
    d.update d' = d ++ d' := by
  unfold Dict.update
  induction d' generalizing d with
  | nil => simp
  | cons kv rest ih =>
    obtain ⟨k, v⟩ := kv
    simp only [Dict.Nodup, Dict.keys, List.map_cons, List.nodup_cons] at hnd
    rw [List.foldl_cons, Dict.set_append_of_not_mem v (hdis k (by simp [Dict.keys])), ih _ hnd.2]
    · simp
    · intro k' hk'
      simp only [Dict.keys, List.map_append, List.map_cons, List.map_nil, List.mem_append,
        List.mem_singleton]
      rintro (h | h)
      · exact hdis k' (by simp only [Dict.keys, List.map_cons, List.mem_cons]; exact .inr hk') h
      · subst h; exact hnd.1 hk'

theorem fillMissing_same {src : String → Option (PyVal V)} {names : List String} {acc : Dict (PyVal V)}
    (h : ∀ a ∈ names, acc.has a = true ∨ src a = none) : fillMissing src names acc = acc := by
  induction names with
  | nil => rfl
  | cons a as ih =>
    simp only [fillMissing]
    have h' := ih fun b hb => h b (List.mem_cons_of_mem _ hb)
    rcases h a List.mem_cons_self with h1 | h1
    · rw [if_pos h1]; exact h'
    · rw [h1]; simpa using h'

variable [PyNum V]

/-- The sum of the default equation at one sample: Python's left to right order. -/
def defaultSum (init cond : V) (mechs : List V) : V :=
  PyArith.add (PyArith.add init cond) (mechs.foldl PyArith.add (PyArith.ofRat 0))

/-- A latent node cut to `n` devices. -/
def cutNode (n : Nat) : LatNode V → LatNode V
  | .arr a => .arr (a.takeDev n)
  | .sub d => .sub (d.map fun kv => (kv.1, kv.2.takeDev n))

theorem reduceLatents_get? (latents : Dict (LatNode V)) (n : Nat) (k : String) :
    (reduceLatents latents n).get? k = (latents.get? k).map (cutNode n) := by
  rw [← Dict.get?_map (fun _ => cutNode n)]
  unfold reduceLatents
  congr 1

/-- The default equation on its arguments. -/
theorem basicSum_like {i c : PyVal V} {rest : Dict (PyVal V)} {L C D : Nat} {gi gc : Nat → Nat → Nat → V}
    {g : String × PyVal V → Nat → Nat → Nat → V} (hi : Like i L C D gi) (hc : Like c L C D gc)
    (hr : ∀ kv ∈ rest, Like kv.2 L C D (g kv)) (hn : ∀ k ∈ Dict.keys rest, k ≠ "init" ∧ k ≠ "cond")
    (w : W) :
    ∃ r, (basicSum : PyFun W V).invoke (("init", i) :: ("cond", c) :: rest) w = (.ok r, w) ∧
      Like r L C D (fun l c d => defaultSum (gi l c d) (gc l c d) (rest.map fun kv => g kv l c d)) ∧
      (i.isArr = true → r.isArr = true) := by
  obtain ⟨ic, e1, l1, a1⟩ := bin_like PyArith.add hi hc
  obtain ⟨s, e2, l2⟩ := foldlM_like rest g hr (.scal (PyArith.ofRat 0)) (fun _ _ _ => PyArith.ofRat 0)
    (fun _ _ _ _ _ _ => rfl)
  obtain ⟨r, e3, l3, a3⟩ := bin_like PyArith.add l1 l2
  refine ⟨r, ?_, l3, ?_⟩
  · unfold PyFun.invoke
    have hacc : (basicSum : PyFun W V).accepts (("init", i) :: ("cond", c) :: rest) = true := by
      simp [PyFun.accepts, basicSum, Dict.has, Dict.get?_cons]
    rw [if_pos hacc]
    show (basicSumVal (("init", i) :: ("cond", c) :: rest), w) = _
    refine congrArg (fun a => (a, w)) ?_
    unfold basicSumVal
    have hf : List.filter (fun kv => decide (kv.1 ≠ "init" ∧ kv.1 ≠ "cond"))
        (("init", i) :: ("cond", c) :: rest) = rest := by
      rw [List.filter_cons_of_neg (by simp), List.filter_cons_of_neg (by simp), List.filter_eq_self]
      intro kv hkv
      simpa using hn kv.1 (List.mem_map_of_mem hkv)
    rw [hf]
    have g1 : Dict.getE (("init", i) :: ("cond", c) :: rest) "init" = .ok i := by
      simp [Dict.getE, Dict.get?_cons]
    have g2 : Dict.getE (("init", i) :: ("cond", c) :: rest) "cond" = .ok c := by
      simp [Dict.getE, Dict.get?_cons]
    rw [g1, g2]
    show (do
      let ic ← PyVal.bin PyArith.add i c
      let s ← List.foldlM (m := Except Err) (fun (acc : PyVal V) (kv : String × PyVal V) => PyVal.bin PyArith.add acc kv.2) (.scal (PyArith.ofRat 0)) rest
      PyVal.bin PyArith.add ic s) = _
    rw [e1]
    show (do
      let s ← List.foldlM (m := Except Err) (fun (acc : PyVal V) (kv : String × PyVal V) => PyVal.bin PyArith.add acc kv.2) (.scal (PyArith.ofRat 0)) rest
      PyVal.bin PyArith.add ic s) = _
    rw [e2]
    exact e3
  · intro h
    rw [a3, a1, h]
    simp

/-- The names 'init' and 'cond' are not used for mechanisms, and no latent variable of the parameter is
called 'mechs'. -/
structure PlainNames (m : DegPrmMdl W V) (latents : Dict (LatNode V)) : Prop where
  nodup : m.mechs.Nodup
  init : "init" ∉ m.mechs.keys
  cond : "cond" ∉ m.mechs.keys
  mechs : ownLatent latents "mechs" = none

/-- Arguments of the default equation, for any values of the mechanisms. -/
theorem default_args {m : DegPrmMdl W V} {latents : Dict (LatNode V)} (hp : PlainNames m latents)
    (i c : PyVal V) {rest : Dict (PyVal V)} (hk : rest.keys = m.mechs.keys) :
    fillMissing (ownLatent latents) (basicSum : PyFun W V).argNames
      (Dict.update [("init", i), ("cond", c)] rest) = ("init", i) :: ("cond", c) :: rest := by
  have hu : Dict.update [("init", i), ("cond", c)] rest = ("init", i) :: ("cond", c) :: rest := by
    rw [update_append]
    · rfl
    · unfold Dict.Nodup; rw [hk]; exact hp.nodup
    · intro k hk'
      rw [hk] at hk'
      simp only [Dict.keys, List.map_cons, List.map_nil, List.mem_cons, List.not_mem_nil, or_false]
      rintro (rfl | rfl)
      · exact hp.init hk'
      · exact hp.cond hk'
  rw [hu, fillMissing_same]
  intro a ha
  have : a = "init" ∨ a = "cond" ∨ a = "mechs" := by
    simpa [PyFun.argNames, basicSum] using ha
  rcases this with rfl | rfl | rfl
  · left; simp [Dict.has, Dict.get?_cons]
  · left; simp [Dict.has, Dict.get?_cons]
  · right; exact hp.mechs

omit [PyNum V] in
theorem plain_rest {m : DegPrmMdl W V} {latents : Dict (LatNode V)} (hp : PlainNames m latents)
    {rest : Dict (PyVal V)} (hk : rest.keys = m.mechs.keys) :
    ∀ k ∈ Dict.keys rest, k ≠ "init" ∧ k ≠ "cond" := by
  intro k hk'
  rw [hk] at hk'
  constructor
  · rintro rfl; exact hp.init hk'
  · rintro rfl; exact hp.cond hk'

theorem like_arr {v : PyVal V} {L C D : Nat} {g : Nat → Nat → Nat → V} (h : Like v L C D g)
    (ha : v.isArr = true) :
    ∃ a, v = .arr a ∧ a.HasDims L C D ∧ ∀ l < L, ∀ c < C, ∀ d < D, a.at' l c d = g l c d := by
  cases v with
  | arr a => exact ⟨a, rfl, h.1, h.2⟩
  | scal x => cases ha
  | npscal x => cases ha

theorem computeOrLoop_ok {f : PyFun W V} {args : Dict (PyVal V)} {L C D : Nat} {w w' : W} {r : PyVal V}
    (h : f.invoke args w = (.ok r, w')) : computeOrLoop f args L C D w = (.ok r, w') := by
  unfold computeOrLoop M.catchValueError
  rw [h]

/-- **C34**, true value (for plain names): after a stress step a parameter with the default equation has
at every sample the sum of its initial value, the neutral value of its conditional model and its
mechanism values. -/
theorem C34_true_value_partial {m : DegPrmMdl W V} (hb : m.mdl.compute = basicSum)
    {latents : Dict (LatNode V)} (hn : PlainNames m latents) {L C D : Nat} {ia : Arr3 V}
    (hia : ia.HasDims L C D) {times conds degVals mv : Dict (Arr3 V)} {p : PyVal V} {w w' : W}
    (h : m.calcDegVals L C D times conds (.arr ia) latents degVals w = (.ok (p, mv), w'))
    (hmv : ∀ kv ∈ mv, kv.2.HasDims L C D) :
    mv.keys = m.mechs.keys ∧ ∃ a, p = .arr a ∧ a.HasDims L C D ∧ ∀ l < L, ∀ c < C, ∀ d < D,
      a.at' l c d = defaultSum (ia.at' l c d) m.condUnitary (mv.map fun kv => kv.2.at' l c d) := by
  unfold DegPrmMdl.calcDegVals at h
  obtain ⟨ys, w1, h1, h⟩ := M.bind_eq_ok.1 h
  obtain ⟨p', h2, h⟩ := M.bind_pure_ok.1 h
  cases h
  have hkeys := degLoop_keys hn.nodup h1
  refine ⟨hkeys, ?_⟩
  have hk2 : Dict.keys (mv.map fun kv => (kv.1, PyVal.arr kv.2)) = m.mechs.keys := by
    rw [← hkeys]; simp [Dict.keys]
  unfold DegPrmMdl.degArgs at h2
  rw [hb, default_args hn _ _ hk2] at h2
  obtain ⟨r, e1, e2, e3⟩ := basicSum_like (W := W) (i := .arr ia) (c := .scal m.condUnitary)
    (rest := mv.map fun kv => (kv.1, PyVal.arr kv.2)) (L := L) (C := C) (D := D) (gi := ia.at')
    (gc := fun _ _ _ => m.condUnitary) (g := fun kv l c d => sampleVal kv.2 l c d)
    ⟨hia, fun _ _ _ _ _ _ => rfl⟩ (fun _ _ _ _ _ _ => rfl) (by
      intro kv hkv
      obtain ⟨kv', hkv', rfl⟩ := List.mem_map.1 hkv
      exact ⟨hmv kv' hkv', fun _ _ _ _ _ _ => rfl⟩) (plain_rest hn hk2) w1
  rw [computeOrLoop_ok e1] at h2
  cases h2
  obtain ⟨a, rfl, hd, hv⟩ := like_arr e2 (e3 rfl)
  refine ⟨a, rfl, hd, ?_⟩
  intro l hl c hc d hd
  rw [hv l hl c hc d hd, List.map_map]
  rfl

/-- **C34**, measured value (for plain names): a measurement of `n` devices returns at every sample the
sum of the true value, the conditional shift and the neutral values of the mechanisms. -/
theorem C34_measured_partial {m : DegPrmMdl W V} (hb : m.mdl.compute = basicSum)
    {latents : Dict (LatNode V)} (hn : PlainNames m latents) {L C D n : Nat} {cur : Arr3 V}
    (hcur : cur.HasDims L C D) (hle : n ≤ D) {conds : Dict (Arr3 V)} {clat : Dict (Arr3 V)}
    (hlat : subLatents (if n < D then reduceLatents latents n else latents) "cond" = .ok clat)
    {shift : PyVal V} {gs : Nat → Nat → Nat → V} {w w' : W}
    (hs : calcCondVals m.condMdl conds clat L C n w = (.ok shift, w')) (hsl : Like shift L C n gs) :
    ∃ a, m.calcCondShifted L C n conds (.arr cur) latents w = (.ok (.arr a), w') ∧ a.HasDims L C n ∧
      ∀ l < L, ∀ c < C, ∀ d < n,
        a.at' l c d = defaultSum (cur.at' l c d) (gs l c d) (m.mechs.map fun kv => kv.2.unitary) := by
  obtain ⟨rfl, rfl, rfl⟩ := hcur
  have hn' : PlainNames m (if n < cur.nd then reduceLatents latents n else latents) := by
    refine ⟨hn.nodup, hn.init, hn.cond, ?_⟩
    split
    · have := hn.mechs
      unfold ownLatent at this ⊢
      rw [reduceLatents_get?]
      cases h : latents.get? "mechs" with
      | none => rfl
      | some v =>
        rw [h] at this
        cases v with
        | arr a => cases this
        | sub d => rfl
    · exact hn.mechs
  have hk : Dict.keys (m.mechs.map fun kv => (kv.1, (PyVal.scal kv.2.unitary : PyVal V))) =
      m.mechs.keys := by simp [Dict.keys]
  have hdims : (if n < cur.nd then cur.takeDev n else cur).HasDims cur.nl cur.nc n := by
    split
    · exact Arr3.takeDev_hasDims _ (by omega)
    · have : n = cur.nd := by omega
      subst this
      exact ⟨rfl, rfl, rfl⟩
  have hat : ∀ l < cur.nl, ∀ c < cur.nc, ∀ d < n,
      (if n < cur.nd then cur.takeDev n else cur).at' l c d = cur.at' l c d := by
    intro l hl c hc d hd
    split
    · exact Arr3.at_takeDev _ (by omega) hl hc hd
    · rfl
  obtain ⟨r, e1, e2, e3⟩ := basicSum_like (W := W)
    (i := .arr (if n < cur.nd then cur.takeDev n else cur)) (c := shift)
    (rest := m.mechs.map fun kv => (kv.1, PyVal.scal kv.2.unitary)) (L := cur.nl) (C := cur.nc) (D := n)
    (gi := cur.at') (gc := gs) (g := fun kv l c d => sampleVal kv.2 l c d)
    ⟨hdims, hat⟩ hsl (by
      intro kv hkv
      obtain ⟨kv', _, rfl⟩ := List.mem_map.1 hkv
      exact fun _ _ _ _ _ _ => rfl) (plain_rest hn hk) w'
  obtain ⟨a, rfl, hd, hv⟩ := like_arr e2 (e3 rfl)
  refine ⟨a, ?_, hd, ?_⟩
  · show (M.ofExcept (subLatents _ "cond") >>= fun clat =>
      calcCondVals m.condMdl conds clat cur.nl cur.nc n >>= fun c =>
        computeOrLoop m.mdl.compute (m.shiftArgs (if n < cur.nd then cur.takeDev n else cur) c
          (if n < cur.nd then reduceLatents latents n else latents)) cur.nl cur.nc n) w = _
    rw [hlat]
    show (calcCondVals m.condMdl conds clat cur.nl cur.nc n >>= _) w = _
    rw [M.bind_ok hs]
    unfold DegPrmMdl.shiftArgs
    rw [hb, default_args hn' _ _ hk]
    exact computeOrLoop_ok e1
  · intro l hl c hc d hd
    rw [hv l hl c hc d hd, List.map_map]
    rfl

/-- In exact arithmetic the default equation is an ordinary sum. -/
theorem defaultSum_fin {K : Type} [Field K] [LinearOrder K] [FloorRing K] [Pow10 K] (i u : K)
    (xs : List K) : defaultSum (Ext.fin i) (.fin u) (xs.map .fin) = .fin (i + u + xs.sum) := by
  have h : ∀ (xs : List K) (a : K), (xs.map Ext.fin).foldl PyArith.add (Ext.fin a) = .fin (a + xs.sum) := by
    intro xs
    induction xs with
    | nil => intro a; simp
    | cons x xs ih =>
      intro a
      rw [List.map_cons, List.foldl_cons, show PyArith.add (Ext.fin a) (Ext.fin x) = .fin (a + x) from rfl,
        ih, List.sum_cons, add_assoc]
  unfold defaultSum
  rw [show (PyArith.ofRat 0 : Ext K) = .fin 0 by
    show Ext.fin _ = _; simp, h]
  show Ext.fin (i + u + (0 + xs.sum)) = _
  rw [zero_add]

/-- **C34** on exact numbers: the true value is initial value + neutral value + sum of the mechanisms. -/
theorem C34_exact_sum_partial {K : Type} [Field K] [LinearOrder K] [FloorRing K] [Pow10 K]
    {m : DegPrmMdl W (Ext K)} (hb : m.mdl.compute = basicSum)
    {latents : Dict (LatNode (Ext K))} (hn : PlainNames m latents) {L C D : Nat} {ia : Arr3 (Ext K)}
    (hia : ia.HasDims L C D) {times conds degVals mv : Dict (Arr3 (Ext K))} {p : PyVal (Ext K)} {w w' : W}
    (h : m.calcDegVals L C D times conds (.arr ia) latents degVals w = (.ok (p, mv), w'))
    (hmv : ∀ kv ∈ mv, kv.2.HasDims L C D) {l c d : Nat} (hl : l < L) (hc : c < C) (hd : d < D) {i u : K}
    (hi : ia.at' l c d = .fin i) (hu : m.condUnitary = .fin u) (x : String → K)
    (hx : ∀ kv ∈ mv, kv.2.at' l c d = .fin (x kv.1)) :
    ∃ a, p = .arr a ∧ a.at' l c d = .fin (i + u + (m.mechs.keys.map x).sum) := by
  obtain ⟨hk, a, ha, -, hv⟩ := C34_true_value_partial hb hn hia h hmv
  refine ⟨a, ha, ?_⟩
  rw [hv l hl c hc d hd, hi, hu, ← hk, ← defaultSum_fin]
  congr 1
  unfold Dict.keys
  rw [List.map_map, List.map_map]
  apply List.map_congr_left
  intro kv hkv
  exact hx kv hkv

/-- Default parameter: no conditional shift, neutral value 0 for all mechanisms. -/
structure NeutralZero (m : DegPrmMdl W V) : Prop where
  sum : m.mdl.compute = basicSum
  cond : m.condMdl.compute = constEqn (PyArith.ofRat 0)
  mechs : ∀ kv ∈ m.mechs, kv.2.unitary = PyArith.ofRat 0

theorem subLatents_reduce {latents : Dict (LatNode V)} {k : String} {d : Dict (Arr3 V)}
    (h : subLatents latents k = .ok d) (b : Prop) [Decidable b] (n : Nat) :
    ∃ d', subLatents (if b then reduceLatents latents n else latents) k = .ok d' := by
  split
  · unfold subLatents at h ⊢
    rw [reduceLatents_get?]
    cases hg : latents.get? k with
    | none => rw [hg] at h; cases h
    | some v =>
      cases v with
      | arr a => rw [hg] at h; cases h
      | sub e => exact ⟨_, rfl⟩
  · exact ⟨d, h⟩

omit [PyNum V] in
theorem expectedRows_congr [Inhabited V] {L C D : Nat} {f g : Nat → Nat → Nat → V} {prm : String}
    {time : TimeVal} {step : Nat} (h : ∀ l < L, ∀ c < C, ∀ d < D, f l c d = g l c d) :
    expectedRows L C D f prm time step = expectedRows L C D g prm time step := by
  unfold expectedRows
  rw [List.flatMap_def, List.flatMap_def]
  congr 1
  apply List.map_congr_left
  intro l hl
  rw [List.flatMap_def, List.flatMap_def]
  congr 1
  apply List.map_congr_left
  intro c hc
  apply List.map_congr_left
  intro d hd
  rw [h l (List.mem_range.1 hl) c (List.mem_range.1 hc) d (List.mem_range.1 hd)]

/-- The true rows of a parameter with no conditional model and neutral value 0. -/
theorem measureTrue_default [UnitLaws V] [Rng W V] {m : DegPrmMdl W V} (hm : NeutralZero m)
    {q : Quantities} {dev : DeviceMdl W V} {step : MeasSpec V} {i n : Nat}
    {s : SimState V} {conds : Dict (Dict (Arr3 V))} {prm : String} {cur : Arr3 V}
    {cs clat : Dict (Arr3 V)} {lat : Dict (LatNode V)}
    (hn : PlainNames m lat) (hp : dev.prms.get? prm = some (.deg m))
    (hcur : s.currPrm.get? prm = some (.arr cur)) (hdims : cur.nl = q.numLots ∧ cur.nc = q.numChps)
    (hle : n ≤ cur.nd) (hcs : conds.get? prm = some cs) (hlat : s.latents.get? prm = some lat)
    (hclat : subLatents lat "cond" = .ok clat) (w : W) :
    measureTrue q dev step i s conds prm n w =
      (.ok (expectedRows q.numLots q.numChps n cur.at' prm s.elapsed i), w) := by
  obtain ⟨clat', hclat'⟩ := subLatents_reduce hclat (n < cur.nd) n
  have hs : calcCondVals m.condMdl cs clat' q.numLots q.numChps n w =
      (.ok (.scal (PyArith.ofRat 0)), w) := by
    unfold calcCondVals
    rw [hm.cond]
    rfl
  obtain ⟨a, e1, e2, e3⟩ := C34_measured_partial hm.sum hn (L := q.numLots) (C := q.numChps)
    (D := cur.nd) ⟨hdims.1, hdims.2, rfl⟩ hle hclat' hs (gs := fun _ _ _ => PyArith.ofRat 0)
    (fun _ _ _ _ _ _ => rfl)
  have hz : (m.mechs.map fun kv => kv.2.unitary).foldl PyArith.add (PyArith.ofRat 0 : V) =
      PyArith.ofRat 0 := by
    have := hm.mechs
    generalize m.mechs = ms at this
    induction ms with
    | nil => rfl
    | cons kv ms ih =>
      rw [List.map_cons, List.foldl_cons, this kv List.mem_cons_self, UnitLaws.add_zero]
      exact ih fun x hx => this x (List.mem_cons_of_mem _ hx)
  have hval : expectedRows q.numLots q.numChps n a.at' prm s.elapsed i =
      expectedRows q.numLots q.numChps n cur.at' prm s.elapsed i := by
    apply expectedRows_congr
    intro l hl c hc d hd
    rw [e3 l hl c hc d hd]
    unfold defaultSum
    rw [hz, UnitLaws.add_zero, UnitLaws.add_zero]
  unfold measureTrue
  rw [hcur]
  simp only
  rw [hp]
  simp only
  have g1 : conds.getE prm = .ok cs := by simp [Dict.getE, hcs]
  have g2 : s.latents.getE prm = .ok lat := by simp [Dict.getE, hlat]
  rw [g1, g2]
  show (m.calcCondShifted q.numLots q.numChps n cs (.arr cur) lat >>= fun v =>
    M.ofExcept (formatMeasurements v prm s.elapsed i .parameter)) w = _
  rw [M.bind_ok e1, C38_rows, e2.1, e2.2.1, e2.2.2, hval]
  rfl

/-- **C34**, the report (for plain names): with no conditional model, neutral value 0 and no instrument of
its own, the rows of a measurement of `n` devices show exactly the true values. -/
theorem C34_report_partial [UnitLaws V] [Rng W V] {m : DegPrmMdl W V} (hm : NeutralZero m)
    {q : Quantities} {dev : DeviceMdl W V} {env : PhysTestEnv V} {step : MeasSpec V} {i n : Nat}
    {s : SimState V} {conds : Dict (Dict (Arr3 V))} {prm : String} {cur : Arr3 V}
    {cs clat : Dict (Arr3 V)} {lat : Dict (LatNode V)}
    (hn : PlainNames m lat) (hp : dev.prms.get? prm = some (.deg m))
    (hcur : s.currPrm.get? prm = some (.arr cur)) (hdims : cur.nl = q.numLots ∧ cur.nc = q.numChps)
    (hle : n ≤ cur.nd) (hcs : conds.get? prm = some cs) (hlat : s.latents.get? prm = some lat)
    (hclat : subLatents lat "cond" = .ok clat) (hins : env.measInstm prm = .ok {})
    (acc : List (MeasRow V)) (w : W) :
    measurePrm q dev env step i s conds acc (prm, n) w =
      (.ok (acc ++ expectedRows q.numLots q.numChps n cur.at' prm s.elapsed i), w) := by
  have ht : measureTrue q dev step i s conds prm n w =
      (.ok (expectedRows q.numLots q.numChps n cur.at' prm s.elapsed i), w) :=
    measureTrue_default hm hn hp hcur hdims hle hcs hlat hclat w
  unfold measurePrm
  rw [M.bind_ok ht, hins]
  show (readRows {} _ >>= fun rows' => pure (acc ++ rows')) w = _
  have hr : ∀ rows : List (MeasRow V), (readRows {} rows : M W _) w = (.ok rows, w) := by
    intro rows
    unfold readRows
    have : ({} : Instrument V).measureVals (rows.map (·.measured)) w =
        (.ok (rows.map (·.measured)), w) := rfl
    rw [M.bind_ok this]
    show (Except.ok _, w) = _
    rw [List.zipWith_map_right, List.zipWith_self]
    simp
  rw [M.bind_ok (hr _)]
  rfl

/-! ### Reserved names -/

open Ex in
/-- The parameter of the witness: its mechanism is called 'init'. -/
def initNamed : DegPrmMdl Counts Q := degPrm [("init", drift)] (.fin 3)

open Ex in
/-- **C34** fails for a mechanism called 'init': its value replaces the initial value instead of being
added to it. Stress time 2 at temperature 10 from initial value 3 gives 20, not 23. -/
theorem C34_reserved_name_violated :
    (initNamed.calcDegVals 1 1 1 [("init", Arr3.full 1 1 1 (.fin 2))] [("temp", Arr3.full 1 1 1 (.fin 10))]
      (.arr (Arr3.full 1 1 1 (.fin 3))) [("cond", .sub []), ("init", .sub [])]
      [("init", Arr3.full 1 1 1 (.fin 0))] Counts.start).1 =
      .ok (.arr (Arr3.full 1 1 1 (.fin 20)), [("init", Arr3.full 1 1 1 (.fin 20))]) := by
  decide +kernel

/-! ### Examples -/

open Ex in
/-- Two mechanisms on one parameter. -/
def twoMechs : DegPrmMdl Counts Q := degPrm [("drift", drift), ("burn", burn)] (.fin 3)

open Ex in
example : PlainNames twoMechs [("cond", .sub []), ("drift", .sub []), ("burn", .sub [])] where
  nodup := by decide
  init := by decide
  cond := by decide
  mechs := by decide

open Ex in
example : NeutralZero twoMechs where
  sum := rfl
  cond := rfl
  mechs := by
    intro kv h
    simp only [twoMechs, degPrm, List.mem_cons, List.not_mem_nil, or_false] at h
    rcases h with rfl | rfl <;> rfl

open Ex in
example : ∃ a b c, ((twoMechs.calcDegVals 1 1 1
      [("drift", Arr3.full 1 1 1 (.fin 2)), ("burn", Arr3.full 1 1 1 (.fin 2))]
      [("temp", Arr3.full 1 1 1 (.fin 110))] (.arr (Arr3.full 1 1 1 (.fin 3)))
      [("cond", .sub []), ("drift", .sub []), ("burn", .sub [])]
      [("drift", Arr3.full 1 1 1 (.fin 0)), ("burn", Arr3.full 1 1 1 (.fin 0))] Counts.start).1 =
      .ok (.arr a, [("drift", b), ("burn", c)])) ∧
    a.at' 0 0 0 = .fin 228 ∧ b.at' 0 0 0 = .fin 220 ∧ c.at' 0 0 0 = .fin 5 :=
  ⟨Arr3.full 1 1 1 (.fin 228), Arr3.full 1 1 1 (.fin 220), Arr3.full 1 1 1 (.fin 5), by decide +kernel,
    by decide +kernel, by decide +kernel, by decide +kernel⟩

end Gerabaldi.Props
