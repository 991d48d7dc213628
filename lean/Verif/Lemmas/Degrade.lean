import Verif.Spec.Degrade
import Verif.Lemmas.Sim
import Verif.Lemmas.Mech
import Verif.Lemmas.Minimize

/-! # One mechanism and one sample of a stress step -/

namespace Gerabaldi
open Spec

variable {W V : Type}

/-! ## Arguments of one sample -/

theorem Dict.map_set {α β : Type} (f : α → β) (d : Dict α) (k : String) (v : α) :
    List.map (fun kv : String × α => (kv.1, f kv.2)) (d.set k v) =
      Dict.set (List.map (fun kv : String × α => (kv.1, f kv.2)) d) k (f v) := by
  induction d with
  | nil => rfl
  | cons kv d ih =>
    obtain ⟨k', v'⟩ := kv
    simp only [Dict.set, List.map_cons]
    by_cases h : k' = k
    · simp [h]
    · simp [h, ih]

section
variable [Inhabited V]

theorem sampleArgs_set (d : Dict (PyVal V)) (k : String) (v : PyVal V) (l c e : Nat) :
    sampleArgs (d.set k v) l c e = (sampleArgs d l c e).set k (.scal (sampleVal v l c e)) :=
  Dict.map_set (fun v => PyVal.scal (sampleVal v l c e)) d k v

theorem sampleArgs_fillArgs (src : String → Option (PyVal V)) (names : List String)
    {acc acc' : Dict (PyVal V)} {l c d : Nat} (h : sampleArgs acc l c d = sampleArgs acc' l c d) :
    sampleArgs (fillArgs src names acc) l c d = sampleArgs (fillArgs src names acc') l c d := by
  induction names generalizing acc acc' with
  | nil => exact h
  | cons a as ih =>
    simp only [fillArgs]
    apply ih
    cases src a with
    | none => exact h
    | some v => simp only [sampleArgs_set, h]

/-- The arguments of one sample depend on the times only through the sample's own time. -/
theorem sampleArgs_times (m : MechMdl W V) {times : Arr3 V} (conds lat : Dict (Arr3 V)) {L C D : Nat}
    {l c d : Nat} (hl : l < L) (hc : c < C) (hd : d < D) :
    sampleArgs (m.args times conds lat) l c d =
      sampleArgs (m.args (Arr3.full L C D (times.at' l c d)) conds lat) l c d := by
  unfold MechMdl.args
  apply sampleArgs_fillArgs
  simp only [sampleArgs, List.map_cons, List.map_nil, sampleVal]
  rw [Arr3.at_full _ hl hc hd]

end

variable [PyNum V]

/-- The mechanism's equation on arrays of the right size. -/
theorem sampleWise_call {m : MechMdl W V} {g : Dict (PyVal V) → V} {conds lat : Dict (Arr3 V)}
    {L C D : Nat} (hs : SampleWise m g conds lat L C D) {times : Arr3 V} (ht : times.HasDims L C D)
    (w : W) : ∃ r, m.mdl.compute.invoke (m.args times conds lat) w = (.ok (.arr r), w) ∧
      r.HasDims L C D ∧ ∀ l < L, ∀ c < C, ∀ d < D,
        r.at' l c d = curve m g conds lat L C D l c d (times.at' l c d) := by
  obtain ⟨r, h1, h2, h3⟩ := args_elementwise hs.eqn ht hs.condDims hs.latDims (hs.acc _) w
  refine ⟨r, h1, h2, fun l hl c hc d hd => ?_⟩
  rw [h3 l hl c hc d hd, sampleArgs_times m conds lat hl hc hd]
  rfl

/-- The residue of the search acts on each sample separately and has no effect on the world. -/
theorem residue_sample {m : MechMdl W V} {g : Dict (PyVal V) → V} {conds lat : Dict (Arr3 V)}
    {L C D : Nat} (hs : SampleWise m g conds lat L C D) {cur : Arr3 V} (hcur : cur.HasDims L C D)
    {pts : List V} (hp : pts.length = cur.data.length) (w : W) :
    ∃ ys, m.residue cur conds lat L C D pts w = (.ok ys, w) ∧ ys.length = cur.data.length ∧
      ∀ l < L, ∀ c < C, ∀ d < D, ∀ x, pts[(l * C + c) * D + d]? = some x →
        ys[(l * C + c) * D + d]? = some
          (PyArith.abs (PyArith.sub (cur.at' l c d) (curve m g conds lat L C D l c d x))) := by
  obtain ⟨rfl, rfl, rfl⟩ := hcur
  have hp' : pts.length = cur.nl * cur.nc * cur.nd := by rw [hp, cur.wf]
  have ht : (⟨cur.nl, cur.nc, cur.nd, pts, hp'⟩ : Arr3 V).HasDims cur.nl cur.nc cur.nd :=
    ⟨rfl, rfl, rfl⟩
  obtain ⟨r, h1, h2, h3⟩ := sampleWise_call hs ht w
  have hd : absDiff cur (.arr r) = .ok ((Arr3.ofFn cur.nl cur.nc cur.nd fun l c d =>
      PyArith.sub (cur.at' l c d) (r.at' l c d)).map PyArith.abs) := by
    unfold absDiff
    rw [show (PyVal.arr r).toArr = r from rfl, Arr3.bcast2_same _ _ _ ⟨rfl, rfl, rfl⟩ h2]
  refine ⟨((Arr3.ofFn cur.nl cur.nc cur.nd fun l c d =>
      PyArith.sub (cur.at' l c d) (r.at' l c d)).map PyArith.abs).data, ?_, ?_, ?_⟩
  · unfold MechMdl.residue
    rw [Arr3.reshape_ok hp', M.bind_ok (M.ofExcept_run _ _)]
    refine (M.bind_ok (a := (Arr3.ofFn cur.nl cur.nc cur.nd fun l c d =>
      PyArith.sub (cur.at' l c d) (r.at' l c d)).map PyArith.abs) (w' := w) ?_).trans rfl
    unfold MechMdl.residueArr M.catchValueError
    rw [M.bind_ok h1, hd]
    rfl
  · rw [Arr3.wf, cur.wf]; rfl
  · intro l hl c hc d hd' x hx
    have hi := Arr3.index_lt hl hc hd'
    have key := Arr3.at_map PyArith.abs (Arr3.ofFn cur.nl cur.nc cur.nd fun l c d =>
      PyArith.sub (cur.at' l c d) (r.at' l c d)) (l := l) (c := c) (d := d) hl hc hd'
    rw [Arr3.at_ofFn _ hl hc hd', h3 l hl c hc d hd'] at key
    have hx' : (⟨cur.nl, cur.nc, cur.nd, pts, hp'⟩ : Arr3 V).at' l c d = x := by
      unfold Arr3.at'
      rw [List.getD_eq_getElem?_getD]
      simp only
      rw [hx]; rfl
    rw [hx'] at key
    rw [← key]
    unfold Arr3.at'
    rw [List.getD_eq_getElem _ _ (by rw [Arr3.wf]; exact hi), List.getElem?_eq_getElem]
    rfl

/-! ## What the log of a search contains -/

theorem minLoop_outcomes (c : MinCfg V) (func : List V → M W (List V)) :
    ∀ (k : Nat) (ss : List (BState V)) (wl : W × List (Call V)),
      (∀ e ∈ wl.2, ∃ w, e.2 = (func e.1 w).1) →
      ∀ e ∈ (minLoop c (logged func) k ss wl).2.2, ∃ w, e.2 = (func e.1 w).1 := by
  intro k
  induction k with
  | zero => intro ss wl h; exact h
  | succ k ih =>
    intro ss wl h
    rw [minLoop]
    split
    · exact h
    · rw [M.bind_run]
      have hlog : ∀ e ∈ (logged func (nextPoints c ss) wl).2.2, ∃ w, e.2 = (func e.1 w).1 := by
        intro e he
        simp only [logged, List.mem_append, List.mem_singleton] at he
        rcases he with he | rfl
        · exact h e he
        · exact ⟨wl.1, rfl⟩
      cases hl : logged func (nextPoints c ss) wl with
      | mk r w2 =>
        rw [hl] at hlog
        cases r with
        | error e => exact hlog
        | ok fus =>
          simp only
          split
          · exact ih _ _ hlog
          · exact hlog

/-- Every outcome in the log is an outcome of the objective. -/
theorem minimize_outcomes (c : MinCfg V) (func : List V → M W (List V)) (n : Nat) (w : W) :
    ∀ e ∈ (minimize c (logged func) n (w, [])).2.2, ∃ w, e.2 = (func e.1 w).1 := by
  rw [minimize, M.bind_run]
  have hlog : ∀ e ∈ (logged func (List.replicate n (c.xf c.x0)) (w, [])).2.2,
      ∃ w, e.2 = (func e.1 w).1 := by
    intro e he
    simp only [logged, List.nil_append, List.mem_singleton] at he
    subst he
    exact ⟨w, rfl⟩
  cases hl : logged func (List.replicate n (c.xf c.x0)) (w, []) with
  | mk r w2 =>
    rw [hl] at hlog
    cases r with
    | error e => exact hlog
    | ok fus =>
      simp only
      split
      · rw [M.bind_run]
        have := minLoop_outcomes c func c.maxiter (fus.map c.init) w2 hlog
        cases hm : minLoop c (logged func) c.maxiter (fus.map c.init) w2 with
        | mk r w3 =>
          rw [hm] at this
          cases r with
          | error e => exact this
          | ok ss => exact this
      · exact hlog

/-! ## The value of one sample -/

/-- `MechMdl.calc_deg_vals` for one sample of an elementwise mechanism (`devices.py:417-463`): past the
limit the previous value (unless it is infinite), otherwise the curve. -/
theorem calcDegBase_sample [InfLaw V] {m : MechMdl W V} {g : Dict (PyVal V) → V}
    {conds lat : Dict (Arr3 V)} {L C D : Nat} (hs : SampleWise m g conds lat L C D)
    {times pre : Arr3 V} (ht : times.HasDims L C D) (hp : pre.HasDims L C D) (w : W) :
    ∃ v, m.calcDegBase times pre conds lat L C D w = (.ok v, w) ∧ v.HasDims L C D ∧
      ∀ l < L, ∀ c < C, ∀ d < D, v.at' l c d =
        if PyArith.lt (PyArith.ofRat 9000000000) (times.at' l c d) = true ∧
            PyArith.eq (pre.at' l c d) PyNum.inf = false then pre.at' l c d
        else curve m g conds lat L C D l c d (times.at' l c d) := by
  obtain ⟨r, h1, h2, h3⟩ := sampleWise_call hs ht w
  have hcl : computeOrLoop m.mdl.compute (m.args times conds lat) L C D w = (.ok (.arr r), w) := by
    unfold computeOrLoop M.catchValueError
    rw [h1]
  refine ⟨Arr3.ofFn L C D fun l c d =>
      if PyArith.eq ((Arr3.ofFn L C D fun l c d =>
        if pastLimit (times.at' l c d) then pre.at' l c d else PyNum.inf).at' l c d) PyNum.inf
      then r.at' l c d else (Arr3.ofFn L C D fun l c d =>
        if pastLimit (times.at' l c d) then pre.at' l c d else PyNum.inf).at' l c d,
    ?_, Arr3.ofFn_hasDims L C D _, ?_⟩
  · unfold MechMdl.calcDegBase
    rw [Arr3.bcast2_same _ _ _ ht hp, M.bind_ok (M.ofExcept_run _ _), M.bind_ok hcl,
      show (PyVal.arr r).toArr = r from rfl,
      Arr3.bcast2_same _ _ _ (Arr3.ofFn_hasDims L C D _) h2, M.ofExcept_run]
  · intro l hl c hc d hd
    rw [Arr3.at_ofFn _ hl hc hd, Arr3.at_ofFn _ hl hc hd, h3 l hl c hc d hd]
    unfold pastLimit PyArith.gt
    cases PyArith.lt (PyArith.ofRat 9000000000) (times.at' l c d) with
    | false => simp [InfLaw.eq_inf]
    | true => cases he : PyArith.eq (pre.at' l c d) PyNum.inf <;> simp [he]

/-! ## One mechanism of a stress step -/

theorem addDurations_get? {duration : TimeVal} {mechs : Dict (MechMdl W V)} {ts ts' : Dict (Arr3 V)}
    (h : addDurations duration mechs ts = .ok ts') {k : String} {t' : Arr3 V}
    (hk : ts'.get? k = some t') :
    ∃ t m q, ts.get? k = some t ∧ mechs.get? k = some m ∧ convertTime duration m.timeUnit = .ok (.num q) ∧
      t' = t.map fun x => PyArith.add x (PyArith.ofRat q) := by
  unfold addDurations at h
  induction ts generalizing ts' with
  | nil =>
    rw [List.mapM_nil] at h
    cases h
    cases hk
  | cons kv ts ih =>
    rw [List.mapM_cons] at h
    cases h1 : addDuration duration mechs kv with
    | error e => rw [h1] at h; cases h
    | ok kv' =>
      cases h2 : List.mapM (addDuration duration mechs) ts with
      | error e => rw [h1, h2] at h; cases h
      | ok tl =>
        rw [h1, h2] at h
        have h : kv' :: tl = ts' := by cases h; rfl
        subst h
        obtain ⟨key, t⟩ := kv
        have hkv : ∃ m q, mechs.get? key = some m ∧ convertTime duration m.timeUnit = .ok (.num q) ∧
            kv' = (key, t.map fun x => PyArith.add x (PyArith.ofRat q)) := by
          unfold addDuration at h1
          cases hm : mechs.get? key with
          | none => simp only [hm] at h1; cases h1
          | some m =>
            simp only [hm] at h1
            cases hq : convertTime duration m.timeUnit with
            | error e => simp only [hq] at h1; cases h1
            | ok v =>
              simp only [hq] at h1
              cases v with
              | num q => exact ⟨m, q, rfl, hq, by cases h1; rfl⟩
              | td us => cases h1
              | pdtd us => cases h1
        obtain ⟨m, q, hm, hq, rfl⟩ := hkv
        rw [Dict.get?_cons] at hk ⊢
        by_cases hkk : key = k
        · subst hkk
          simp only [if_true] at hk ⊢
          cases hk
          exact ⟨t, m, q, rfl, hm, hq, rfl⟩
        · simp only [hkk, if_false] at hk ⊢
          exact ih h2 hk

/-- What a stress step does to one mechanism of one parameter. -/
theorem stressPrm_mech {q : Quantities} {dur : TimeVal} {conds : Dict (Dict (Arr3 V))}
    {prm mech : String} {m : DegPrmMdl W V} {k : MechMdl W V} (hn : m.mechs.Nodup)
    (hk : m.mechs.get? mech = some k) {s s' : SimState V} {w w' : W} {pre : Arr3 V}
    {cs lat : Dict (Arr3 V)} {n : Nat} (hin : MechInputs q conds s prm mech pre cs lat n)
    (h : stressPrm q dur conds s (prm, m) w = (.ok s', w')) :
    ∃ t0 x v w1 w2 w3 w4, k.calcEquiv pre cs lat q.numLots q.numChps n w1 = (.ok t0, w2) ∧
      convertTime dur k.timeUnit = .ok (.num x) ∧
      k.calcDegVals (t0.map fun t => PyArith.add t (PyArith.ofRat x)) pre cs lat q.numLots q.numChps n
        w3 = (.ok v, w4) ∧ mechVal s' prm mech = some v := by
  obtain ⟨ha, hcount, hconds, lats, hlats, hlat⟩ := hin
  obtain ⟨n', cur, cs', im, lats', eq0, times, ip, p, mv, w1, w2, hn', hcur, hcs', -, hl', he, hadd, -,
    hd, -, rfl⟩ := stressPrm_ok h
  rw [hcount] at hn'; cases hn'
  rw [hconds] at hcs'; cases hcs'
  rw [hlats] at hl'; cases hl'
  unfold mechVal at ha ⊢
  rw [hcur] at ha
  simp only [Dict.get?_set_self, Option.bind_some] at ha ⊢
  rw [degStep_eq] at hd
  rw [equivStep_eq] at he
  obtain ⟨g1, g2, -⟩ := M.forIn'_set hd
  obtain ⟨e1, -, -⟩ := M.forIn'_set he
  have hmem : (mech, k) ∈ m.mechs := Dict.mem_of_get? hk
  have huniq : ∀ k', (mech, k') ∈ m.mechs → k' = k := by
    intro k' hx
    have := Dict.get?_of_mem hn hx
    rw [hk] at this
    exact (Option.some.inj this).symm
  obtain ⟨v, hv⟩ := g2 _ hmem
  rcases g1 _ _ hv with ⟨hb0, -⟩ | ⟨⟨mech', k'⟩, hx, hxe, w3, w4, hx2⟩
  · cases hb0
  simp only at hxe
  subst hxe
  cases huniq k' hx
  obtain ⟨t, pre', lat', ht, hpre, hlat', hc⟩ := degOne_ok hx2
  rw [ha] at hpre; cases hpre
  rw [hlat] at hlat'; cases hlat'
  obtain ⟨t0, m', x, ht0, hm', hx', rfl⟩ := addDurations_get? hadd ht
  rw [hk] at hm'; cases hm'
  rcases e1 _ _ ht0 with ⟨hb0, -⟩ | ⟨⟨mech', k'⟩, hy, hye, w5, w6, hy2⟩
  · cases hb0
  simp only at hye
  subst hye
  cases huniq k' hy
  obtain ⟨pre'', lat'', hpre2, hlat2, hq⟩ := equivOne_ok hy2
  rw [ha] at hpre2; cases hpre2
  rw [hlat] at hlat2; cases hlat2
  exact ⟨t0, x, v, w5, w6, w3, w4, hq, hx', hc, hv⟩

end Gerabaldi
