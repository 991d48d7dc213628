import Verif.Spec.Inspect
import Verif.Props.InitVariation
import Verif.Props.Noise
import Verif.Props.Readings
import Verif.Props.Layout
import Mathlib.Probability.Moments.Covariance

/-!
# C96: inspections of new devices
-/

namespace Gerabaldi.Props
open Gerabaldi Spec MeasureTheory ProbabilityTheory

instance (N : Numpy) : LawfulRng (Tapes N) (Ext ℝ) where
  length := by
    intro id m ps n w w' xs h
    cases h
    simp
  commute := by
    intro i j m m' ps ps' n n' w w1 w2 xs ys hij h1 h2
    cases h1
    cases h2
    refine ⟨⟨w.tape, fun k => if k = j then w.next j + n' else w.next k⟩, ?_, ?_⟩
    · show (Except.ok _, _) = (Except.ok _, _)
      simp only [hij.symm, if_false]
    · show (Except.ok _, _) = (Except.ok _, _)
      simp only [hij, hij.symm, if_false]
      refine Prod.ext rfl ?_
      show (⟨_, _⟩ : Tapes N) = ⟨_, _⟩
      congr 1
      funext k
      by_cases e : k = i
      · rw [if_pos e, e, if_neg hij, if_pos rfl]
      · rw [if_neg e, if_neg e]

section joint
variable {N : Numpy} {ι κ : Type}

/-- The same request under another name. -/
def Request.relabel (f : ι → κ) (r : Request ι) : Request κ := ⟨f r.label, r.var, r.size⟩

theorem reads_relabel (f : ι → κ) {tape : Nat → Nat → ℝ} {next : Nat → Nat} {rs : List (Request ι)} {x : κ → Nat → ℝ} :
    Reads N tape next (rs.map (Request.relabel f)) x ↔ Reads N tape next rs (fun a => x (f a)) := by
  induction rs generalizing next with
  | nil => exact Iff.rfl
  | cons r rs ih => exact and_congr Iff.rfl ih

theorem after_relabel (f : ι → κ) {next : Nat → Nat} {rs : List (Request ι)} :
    afterAll (rs.map (Request.relabel f)) next = afterAll rs next := by
  induction rs generalizing next with
  | nil => rfl
  | cons r rs ih => exact ih

theorem noiseReqs_names {env : PhysTestEnv (Ext ℝ)} {k : Nat} {as bs : List (MeasRow (Ext ℝ))}
    (h : as.map (·.prm) = bs.map (·.prm)) : noiseReqs env k as = noiseReqs env k bs := by
  induction as generalizing k bs with
  | nil =>
    cases bs with
    | nil => rfl
    | cons _ _ => cases h
  | cons a as ih =>
    cases bs with
    | nil => cases h
    | cons b bs =>
      obtain ⟨h1, h2⟩ := List.cons.inj h
      show _ :: _ = _ :: _
      rw [ih h2, show a.prm = b.prm from h1]

variable {Ω : Type} [MeasurableSpace Ω] {P : Measure Ω} {P₀ : Measure ℝ} {raw : Nat → Nat → Ω → ℝ} {G : Set Nat}
  {dm : DeviceMdl (Tapes N) (Ext ℝ)} {env : PhysTestEnv (Ext ℝ)} {D : String → Nat} {v : Variation}
  {g : String → (String → ℝ) → ℝ} {test : TestSpec (Ext ℝ)}

/-- Latent variables use no generators of the instruments. -/
theorem latent_elsewhere (h : OwnGenerators N G dm env) {s : Slot} {lv : LatentVar (Ext ℝ)} (hs : latentAt dm s = some lv) :
    Elsewhere G lv.lot ∧ Elsewhere G lv.chp ∧ Elsewhere G lv.dev := by
  obtain ⟨p, r, k⟩ := s
  unfold latentAt latentsOf at hs
  cases hp : dm.prms.get? p with
  | none => rw [hp] at hs; cases r <;> cases hs
  | some m =>
    have hm := Dict.mem_of_get? hp
    rw [hp] at hs
    cases m with
    | circ m =>
      cases r with
      | own => exact (h.circ _ hm m rfl).latents _ (Dict.mem_of_get? hs)
      | _ => cases hs
    | deg m =>
      obtain ⟨h1, h2, h3, h4⟩ := h.deg _ hm m rfl
      cases r with
      | own => exact h1.latents _ (Dict.mem_of_get? hs)
      | cond => exact h2.latents _ (Dict.mem_of_get? hs)
      | init => exact h3.latents _ (Dict.mem_of_get? hs)
      | mech n =>
        simp only at hs
        cases hk : m.mechs.get? n with
        | none => rw [hk] at hs; cases hs
        | some x =>
          rw [hk] at hs
          exact (h4 _ (Dict.mem_of_get? hk)).latents _ (Dict.mem_of_get? hs)

/-- **C96**: the contributions that new devices are made of, and the errors of all readings of a simulation, are
independent together. -/
theorem C96_joint (hN : N.Correct P₀) (hr : Standard P P₀ raw)
    (h : NewSetup N dm (augment dm (calcSamplesNeeded test.steps)) D v g) (ho : OwnGenerators N G dm env) {ord : SetOrder}
    {next : Nat → Nat} {names : List String}
    (hok : ∀ ω, ∃ r₀ w₀, simulate ord test dm (exactEnv env) none (⟨fun i j => raw i j ω, next⟩ : Tapes N) = (.ok r₀, w₀) ∧
      r₀.measurements.map (·.prm) = names ∧ ∀ r ∈ r₀.measurements, r.measured ≠ .nan) :
    ∃ (X : Slot → Spot test.numLots test.numChps → Ω → ℝ) (E : Fin names.length → Ω → ℝ),
      iIndepFun (Sum.elim (fun k : {k : Slot × Spot test.numLots test.numChps //
        (latentAt dm k.1).isSome ∧ k.2.Within (D k.1.prm)} => X k.1.1 k.1.2) E) P ∧
      (∀ s t, Measurable (X s t)) ∧ (∀ j, Measurable (E j)) ∧
      (∀ s, (latentAt dm s).isSome → ∀ t, P.map (X s t) = P₀.map (t.layer (v.lot s) (v.chp s) (v.dev s))) ∧
      (∀ j, ErrorOf N P P₀ (instrumentOf env names[j]) (E j)) ∧
      ∀ ω, ∃ st w r₀ w₀ rows w', dm.genInitState (augment dm (calcSamplesNeeded test.steps)) test.numChps test.numLots
          (⟨fun i j => raw i j ω, next⟩ : Tapes N) = (.ok st, w) ∧ NewStateIs dm D v g (fun s t => X s t ω) st ∧
        simulate ord test dm (exactEnv env) none (⟨fun i j => raw i j ω, next⟩ : Tapes N) = (.ok r₀, w₀) ∧
        simulate ord test dm env none (⟨fun i j => raw i j ω, next⟩ : Tapes N) =
          (.ok { r₀ with measurements := rows }, w') ∧ rows.length = names.length ∧
        ∀ j : Fin names.length, ∃ row y, r₀.measurements[j.val]? = some row ∧
          ShownFor N (instrumentOf env names[j]) (PyArith.add row.measured (.fin (E j ω))) y ∧
          rows[j.val]? = some { row with measured := y } := by
  classical
  have : IsProbabilityMeasure P := hr.indep.isProbabilityMeasure
  obtain ⟨ω₀⟩ : Nonempty Ω := P.nonempty_of_neZero
  obtain ⟨r₁, w₁, a1, a2, a3⟩ := hok ω₀
  have hlen : r₁.measurements.length = names.length := by rw [← a2, List.length_map]
  have hnm : ∀ j : Fin names.length, names[j] = (r₁.measurements[j.val]'(by omega)).prm := by
    intro j
    simp [← a2]
  let rs : List (Request (LatLabel ⊕ Nat)) := (devReqs test.numLots test.numChps D dm).map (Request.relabel .inl) ++
    (noiseReqs env 0 r₁.measurements).map (Request.relabel .inr)
  have hl : (rs.map (·.label)).Nodup := by
    show (List.map _ (_ ++ _)).Nodup
    rw [List.map_append, List.map_map, List.map_map, List.nodup_append]
    refine ⟨?_, ?_, ?_⟩
    · have := (devReqs_nodup (L := test.numLots) (C := test.numChps) h).map (f := (Sum.inl : LatLabel → LatLabel ⊕ Nat))
        Sum.inl_injective
      rwa [List.map_map] at this
    · have : ((noiseReqs env 0 r₁.measurements).map (·.label)).Nodup := by rw [noiseReqs_label]; exact List.nodup_range'
      have := this.map (f := (Sum.inr : Nat → LatLabel ⊕ Nat)) Sum.inr_injective
      rwa [List.map_map] at this
    · intro a ha b hb
      obtain ⟨_, -, rfl⟩ := List.mem_map.1 ha
      obtain ⟨_, -, rfl⟩ := List.mem_map.1 hb
      exact Sum.inl_ne_inr
  have hv : ∀ r ∈ rs, ∃ f, N.value r.var.dist = some f := by
    intro r hr
    rcases List.mem_append.1 hr with hr | hr
    · obtain ⟨q, hq, rfl⟩ := List.mem_map.1 hr
      obtain ⟨s, lv, hs, hq⟩ := (mem_devReqs h).1 hq
      have ly := h.layers s lv hs
      simp only [latReqs, List.mem_cons, List.not_mem_nil, or_false] at hq
      rcases hq with rfl | rfl | rfl
      · exact ⟨_, ly.lot⟩
      · exact ⟨_, ly.chp⟩
      · exact ⟨_, ly.dev⟩
    · obtain ⟨q, hq, rfl⟩ := List.mem_map.1 hr
      exact noiseReqs_value ho q hq
  obtain ⟨Z, z1, z2, z3, z4⟩ := requests_independent hN hr hl hv next
  have hmem : ∀ j : Fin names.length, (⟨.inr j.val, errorVar env names[j], 1⟩ : Request (LatLabel ⊕ Nat)) ∈ rs := by
    intro j
    have := noiseReqs_mem (env := env) (k := 0) (rows := r₁.measurements) (j := j.val) (by omega)
    rw [Nat.zero_add, ← hnm j] at this
    exact List.mem_append_right _ (List.mem_map.2 ⟨_, this, rfl⟩)
  refine ⟨fun s t => Z (.inl (latPlace D s t).1) (latPlace D s t).2, fun j => Z (.inr j.val) 0, ?_, fun s t => z2 _ _,
    fun j => z2 _ _, ?_, fun j => ?_, fun ω => ?_⟩
  · let f : {k : Slot × Spot test.numLots test.numChps // (latentAt dm k.1).isSome ∧ k.2.Within (D k.1.prm)} ⊕
        Fin names.length → {p : (LatLabel ⊕ Nat) × Nat // ∃ r ∈ rs, r.label = p.1 ∧ p.2 < r.size}
      | .inl k => ⟨(.inl (latPlace D k.1.1 k.1.2).1, (latPlace D k.1.1 k.1.2).2), by
          obtain ⟨lv, hlv⟩ := Option.isSome_iff_exists.1 k.2.1
          obtain ⟨r, r1, r2, r3, -⟩ := latPlace_mem (L := test.numLots) (C := test.numChps) h hlv k.1.2
          exact ⟨r.relabel .inl, List.mem_append_left _ (List.mem_map_of_mem r1), congrArg Sum.inl r2, r3 k.2.2⟩⟩
      | .inr j => ⟨(.inr j.val, 0), ⟨_, hmem j, rfl, Nat.zero_lt_one⟩⟩
    have hf : Function.Injective f := by
      rintro (k | j) (k' | j') e
      · refine congrArg Sum.inl (Subtype.ext (latPlace_inj k.2.2 k'.2.2 ?_))
        have e1 := congrArg (fun z => z.1.1) e
        have e2 := congrArg (fun z => z.1.2) e
        exact Prod.ext (Sum.inl_injective e1) e2
      · have e1 := congrArg (fun z => z.1.1) e
        cases e1
      · have e1 := congrArg (fun z => z.1.1) e
        cases e1
      · have e1 := congrArg (fun z => z.1.1) e
        exact congrArg Sum.inr (Fin.ext (Sum.inr_injective e1))
    have := z1.precomp hf
    convert this using 1
    funext i
    cases i <;> rfl
  · intro s hs t
    obtain ⟨lv, hlv⟩ := Option.isSome_iff_exists.1 hs
    obtain ⟨r, r1, r2, -, r4⟩ := latPlace_mem (L := test.numLots) (C := test.numChps) h hlv t
    have := z3 (r.relabel .inl) (List.mem_append_left _ (List.mem_map_of_mem r1)) _ r4 (latPlace D s t).2
    rw [show (r.relabel Sum.inl : Request (LatLabel ⊕ Nat)).label = Sum.inl (latPlace D s t).1 from congrArg Sum.inl r2] at this
    exact this
  · unfold ErrorOf
    have hv : errorVar env names[j] = (instrumentOf env names[j]).error.getD (detUnit (.fin 0)) := rfl
    cases he : (instrumentOf env names[j]).error with
    | none =>
      rw [he] at hv
      intro ω
      have hm := noiseReqs_mem (env := env) (k := 0) (rows := r₁.measurements) (j := j.val) (by omega)
      rw [Nat.zero_add, ← hnm j] at hm
      obtain ⟨u, hu⟩ := reads_value ((reads_relabel Sum.inr).1 (reads_append.1 (z4 ω)).2) hm (f := fun _ => 0)
        (by rw [hv]; rfl) Nat.zero_lt_one
      exact hu
    | some r =>
      rw [he] at hv
      intro f hf
      exact z3 _ (hmem j) f (by rw [hv]; exact hf) 0
  · obtain ⟨r₀, w₀, b1, b2, b3⟩ := hok ω
    obtain ⟨c1, c2⟩ := reads_append.1 (z4 ω)
    have c1 := (reads_relabel Sum.inl).1 c1
    have c2 := (reads_relabel Sum.inr).1 c2
    rw [after_relabel] at c2
    obtain ⟨st, e1, e2⟩ := usesState (L := test.numLots) (C := test.numChps) h _ next c1
    have e : (fun s t => Z (.inl (latPlace D s t).1) (latPlace D s t).2 ω) =
        contribution (L := test.numLots) (C := test.numChps) D (fun a i => Z (.inl a) i ω) := by
      funext s t
      rw [contribution_eq]
    have hG : ∀ i ∈ G, afterAll (devReqs test.numLots test.numChps D dm) next i = next i := by
      intro i hi
      refine after_other (G := Gᶜ) (fun q hq hd hG => ?_) next (fun hn => hn hi)
      obtain ⟨s, lv, hs, hq⟩ := (mem_devReqs h).1 hq
      obtain ⟨l1, l2, l3⟩ := latent_elsewhere ho hs
      have key : ∀ r : RVar (Ext ℝ), Elsewhere G r → draws r = true → r.id ∉ G := by
        rintro r (h | ⟨x, h⟩) h'
        · exact h
        · unfold draws at h'
          rw [h] at h'
          cases h'
      simp only [latReqs, List.mem_cons, List.not_mem_nil, or_false] at hq
      rcases hq with rfl | rfl | rfl
      · exact key _ l1 hd hG
      · exact key _ l2 hd hG
      · exact key _ l3 hd hG
    rw [noiseReqs_names (a2.trans b2.symm)] at c2
    obtain ⟨rows, w', g1, g2⟩ := simulate_both (t := fun i j => raw i j ω) (fun _ _ => rfl) ho b1 b3 (reads_later ho hG c2)
    obtain ⟨k1, k2⟩ := readsAs_at g2
    have hlen' : r₀.measurements.length = names.length := by rw [← b2, List.length_map]
    refine ⟨st, _, r₀, w₀, rows, w', e1, e ▸ e2, b1, g1, k1.trans hlen', fun j => ?_⟩
    obtain ⟨y, y1, y2⟩ := k2 j.val (by omega)
    have hj : names[j] = (r₀.measurements[j.val]'(by omega)).prm := by simp [← b2]
    rw [Nat.zero_add] at y1
    refine ⟨_, y, List.getElem?_eq_getElem (by omega), ?_, y2⟩
    rw [hj]
    exact y1

end joint

section rows
variable {N : Numpy} {dm : DeviceMdl (Tapes N) (Ext ℝ)} {env : PhysTestEnv (Ext ℝ)} {D : String → Nat} {v : Variation}
  {g : String → (String → ℝ) → ℝ} {test : TestSpec (Ext ℝ)}

theorem exact_instrument (env : PhysTestEnv (Ext ℝ)) (p : String) :
    instrumentOf (exactEnv env) p = { precision := none, range := none, error := none } := by
  have h2 : (exactEnv env).instms.get? p =
      (env.instms.get? p).map fun _ => { precision := none, range := none, error := none } :=
    Dict.get?_map (fun _ _ => ({ precision := none, range := none, error := none } : Instrument (Ext ℝ))) env.instms p
  unfold instrumentOf
  rw [h2]
  cases env.instms.get? p <;> rfl

/-- Measurements leave the state alone. -/
theorem measured_state {ord : SetOrder} {q : Quantities} {steps : List (Step (Ext ℝ))}
    (hm : ∀ st ∈ steps, ∃ m, st = .meas m) {i : Nat} {s s' : SimState (Ext ℝ)} {rows : List (MeasRow (Ext ℝ))}
    {lines : List (SumRow (Ext ℝ))} {w w' : Tapes N}
    (h : runDelta ord dm env q i steps s w = (.ok (s', rows, lines), w')) : s' = s := by
  induction steps generalizing i s rows lines w with
  | nil => cases h; rfl
  | cons st steps ih =>
    obtain ⟨s1, rows1, lines1, rows2, lines2, w1, h1, h2, -, -⟩ := runDelta_cons_ok.1 h
    obtain ⟨m, rfl⟩ := hm st List.mem_cons_self
    obtain ⟨conds, w3, -, -, rfl, -⟩ := measDelta_ok h1
    exact ih (fun st hst => hm st (List.mem_cons_of_mem _ hst)) h2

/-- What exact instruments show. -/
theorem inspect_rows (hi : Inspection dm test) (h : NewSetup N dm (augment dm (calcSamplesNeeded test.steps)) D v g)
    {pre post : List (Step (Ext ℝ))} {step : MeasSpec (Ext ℝ)} (ht : test.steps = pre ++ .meas step :: post)
    {p : String} {n : Nat} (hp : (p, n) ∈ step.measurements) {ord : SetOrder} {r : SimReport (Ext ℝ)} {w w' w1 : Tapes N}
    (h0 : simulate ord test dm (exactEnv env) none w = (.ok r, w')) {st : SimState (Ext ℝ)}
    (hst : dm.genInitState (augment dm (calcSamplesNeeded test.steps)) test.numChps test.numLots w = (.ok st, w1))
    {x : Slot → Spot test.numLots test.numChps → ℝ} (hx : NewStateIs dm D v g x st) :
    n ≤ D p ∧ ∃ cur t, rowsAt r.measurements pre.length p = expectedRows test.numLots test.numChps n cur p t pre.length ∧
      ∀ (l : Fin test.numLots) (c : Fin test.numChps), ∀ d < n,
        cur l c d = .fin (g p fun k => v.value x ⟨p, .init, k⟩ l c d) := by
  have hmn : ∀ p d, dm.prms.get? p = some (.deg d) → d.mechs.Nodup := fun p d hd => (h.names p d hd).mechs
  obtain ⟨m, e, hnm, -, hpd⟩ := hi.steps (.meas step) (by rw [ht]; simp)
  cases e
  obtain ⟨d, hd, hdef⟩ := hpd p n hp
  obtain ⟨s0, r0, s, r1, cur, k, ys, w0, w2, u2, u3, a1, a2, a3, -, -, a6, a7⟩ :=
    C34_reading_partial h.prms hmn hi.shapes h0 ht hnm hp hd ⟨hdef.sum, hdef.cond, hdef.mechs⟩ hdef.shift
      ⟨hmn p d hd, hdef.init, (h.names p d hd).cond, hdef.own⟩
  rw [exact_instrument] at a6
  rw [exact_reading a6] at a7
  obtain ⟨rows, lines, a2, -⟩ := runSteps_ok.1 a2
  have es : s = s0 := by
    refine measured_state (fun st hst => ?_) a2
    obtain ⟨m, e, -⟩ := hi.steps st (by rw [ht]; exact List.mem_append_left _ hst)
    exact ⟨m, e⟩
  have hcur : s0.currPrm = st.currPrm := by
    obtain ⟨x, w1, h1, h2⟩ := M.bind_eq_ok.1 a1
    obtain ⟨s1, w2, h3, h4⟩ := M.bind_eq_ok.1 h1
    cases h4
    cases h2
    obtain ⟨s2, w3, h5, h6⟩ := M.bind_eq_ok.1 h3
    cases h6
    have := hst.symm.trans h5
    cases this
    rfl
  have hle : n ≤ D p := by
    have hreq : requests test.steps p n := ⟨step, by rw [ht]; simp, hp⟩
    cases hb : (calcSamplesNeeded test.steps).get? p with
    | none => exact absurd hreq (((C08_max test.steps p).2.1 hb) n)
    | some j =>
      obtain ⟨k', b1, b2⟩ := (augment_enough dm (calcSamplesNeeded test.steps)).keeps hb
      rw [h.counts p (Dict.mem_keys_of_get? hd)] at b1
      cases b1
      exact Nat.le_trans (((C08_max test.steps p).1 j |>.1 hb).2 n hreq) b2
  refine ⟨hle, cur.at', s.elapsed, a7, fun l c d' hd' => ?_⟩
  obtain ⟨a, -, b2, -, b4⟩ := hx.2 p d hd
  rw [es, hcur, b2] at a3
  cases a3
  exact b4 l c d' (Nat.lt_of_lt_of_le hd' hle)

theorem places_distinct (L C D : Nat) : (places L C D).Nodup := by
  unfold places
  rw [List.nodup_flatMap]
  constructor
  · intro l _
    rw [List.nodup_flatMap]
    constructor
    · intro c _
      refine List.nodup_range.map fun a b e => ?_
      cases e
      rfl
    · refine List.nodup_range.imp fun {a b} hab => ?_
      rw [Function.onFun, List.disjoint_left]
      intro e he he'
      obtain ⟨d, -, rfl⟩ := List.mem_map.1 he
      obtain ⟨d', -, e⟩ := List.mem_map.1 he'
      cases e
      exact hab rfl
  · refine List.nodup_range.imp fun {a b} hab => ?_
    rw [Function.onFun, List.disjoint_left]
    intro e he he'
    obtain ⟨c, -, he⟩ := List.mem_flatMap.1 he
    obtain ⟨d, -, rfl⟩ := List.mem_map.1 he
    obtain ⟨c', -, he'⟩ := List.mem_flatMap.1 he'
    obtain ⟨d', -, e⟩ := List.mem_map.1 he'
    cases e
    exact hab rfl

theorem filter_unique {α β : Type} {l : List α} {q : α → Bool} {f : α → β} (h : ((l.filter q).map f).Nodup) {i j : Nat}
    {x y : α} (hi : l[i]? = some x) (hj : l[j]? = some y) (hx : q x = true) (hy : q y = true) (e : f x = f y) : i = j := by
  induction l generalizing i j with
  | nil => cases hi
  | cons b l ih =>
    have sub : ((l.filter q).map f).Nodup := by
      rw [List.filter_cons] at h
      split at h
      · exact (List.nodup_cons.1 h).2
      · exact h
    have out : ∀ {z : α} {k : Nat}, l[k]? = some z → q z = true → q b = true → f b = f z → False := by
      intro z k hk hz hb e
      rw [List.filter_cons, if_pos hb] at h
      refine (List.nodup_cons.1 h).1 ?_
      rw [e]
      exact List.mem_map_of_mem (List.mem_filter.2 ⟨List.mem_of_getElem? hk, hz⟩)
    cases i with
    | zero =>
      cases hi
      cases j with
      | zero => rfl
      | succ j => exact (out hj hy hx e).elim
    | succ i =>
      cases j with
      | zero =>
        cases hj
        exact (out hi hx hy e.symm).elim
      | succ j => rw [ih sub hi hj]

/-- An entry of the layout belongs to a measurement of the test. -/
theorem layout_mem {V : Type} {L C : Nat} {known : String → Bool} {e : Entry} {i : Nat} {t : ℚ} {steps : List (Step V)}
    (h : e ∈ layout L C known i t steps) : ∃ pre m post n, steps = pre ++ .meas m :: post ∧ e.1 = i + pre.length ∧
      (e.2.1, n) ∈ m.measurements := by
  induction steps generalizing i t with
  | nil => cases h
  | cons st steps ih =>
    rcases List.mem_append.1 h with h | h
    · cases st with
      | meas m =>
        obtain ⟨⟨p, n⟩, h1, h2⟩ := List.mem_flatMap.1 h
        obtain ⟨_, -, rfl⟩ := List.mem_map.1 h2
        exact ⟨[], m, steps, n, rfl, rfl, h1⟩
      | _ => cases h
    · obtain ⟨pre, m, post, n, h1, h2, h3⟩ := ih h
      refine ⟨st :: pre, m, post, n, by rw [h1]; rfl, ?_, h3⟩
      rw [h2, List.length_cons]
      omega

/-- The names in the table. -/
def layoutNames {W : Type} (dm : DeviceMdl W (Ext ℝ)) (test : TestSpec (Ext ℝ)) : List String :=
  (layout test.numLots test.numChps (fun p => (dm.prms.get? p).isSome) 0 0 test.steps).map (·.2.1)

theorem inspect_layout (hi : Inspection dm test) (h : NewSetup N dm (augment dm (calcSamplesNeeded test.steps)) D v g)
    {ord : SetOrder} {r : SimReport (Ext ℝ)} {w w' : Tapes N}
    (h0 : simulate ord test dm env none w = (.ok r, w')) : r.measurements.map entry =
      layout test.numLots test.numChps (fun p => (dm.prms.get? p).isSome) 0 0 test.steps := by
  refine C80_layout h.prms (fun p d hd => (h.names p d hd).mechs) hi.shapes h0 ?_ ?_
  · intro m hm
    obtain ⟨m', e, h1, h2, -⟩ := hi.steps _ hm
    cases e
    exact ⟨h1, h2⟩
  · intro m hm p n hp cm hcm
    obtain ⟨m', e, -, -, h3⟩ := hi.steps _ hm
    cases e
    obtain ⟨d, hd, -⟩ := h3 p n hp
    rw [hcm] at hd
    cases hd

theorem mem_expected {L C n : Nat} {f : Nat → Nat → Nat → Ext ℝ} {p : String} {t : TimeVal} {i : Nat} {row : MeasRow (Ext ℝ)}
    (h : row ∈ expectedRows L C n f p t i) : ∃ l < L, ∃ c < C, ∃ d < n, row = ⟨p, i, some d, some c, some l, t, f l c d⟩ := by
  unfold expectedRows at h
  obtain ⟨l, hl, h⟩ := List.mem_flatMap.1 h
  obtain ⟨c, hc, h⟩ := List.mem_flatMap.1 h
  obtain ⟨d, hd, rfl⟩ := List.mem_map.1 h
  exact ⟨l, List.mem_range.1 hl, c, List.mem_range.1 hc, d, List.mem_range.1 hd, rfl⟩

/-- Each asked reading has exactly one row, which shows the initial value. -/
theorem asked_row (hi : Inspection dm test) (h : NewSetup N dm (augment dm (calcSamplesNeeded test.steps)) D v g)
    {K : Reading test.numLots test.numChps} (hK : K.Asked test) {ord : SetOrder} {r : SimReport (Ext ℝ)} {w w' w1 : Tapes N}
    (h0 : simulate ord test dm (exactEnv env) none w = (.ok r, w')) {st : SimState (Ext ℝ)}
    (hst : dm.genInitState (augment dm (calcSamplesNeeded test.steps)) test.numChps test.numLots w = (.ok st, w1))
    {x : Slot → Spot test.numLots test.numChps → ℝ} (hx : NewStateIs dm D v g x st) :
    K.dev < D K.prm ∧ (∃ (j : Nat) (row : MeasRow (Ext ℝ)), r.measurements[j]? = some row ∧ K.Of row) ∧
    (∀ (j j' : Nat) (row row' : MeasRow (Ext ℝ)), r.measurements[j]? = some row → r.measurements[j']? = some row' →
      K.Of row → K.Of row' → j = j') ∧
    ∀ row ∈ r.measurements, K.Of row →
      row.measured = .fin (g K.prm fun k => v.value x ⟨K.prm, .init, k⟩ K.lot K.chp K.dev) := by
  obtain ⟨pre, m, post, n, ht, k1, k2, k3⟩ := hK
  obtain ⟨hn, cur, t, h1, h2⟩ := inspect_rows hi h ht k2 h0 hst hx
  have hq : ∀ row : MeasRow (Ext ℝ), K.Of row → (row.step == pre.length && row.prm == K.prm) = true := by
    rintro row ⟨o1, o2, -⟩
    rw [o1, o2, k1]
    simp
  refine ⟨by omega, ?_, ?_, ?_⟩
  · have hm : (some K.lot.val, some K.chp.val, some K.dev) ∈ (rowsAt r.measurements pre.length K.prm).map place := by
      rw [h1, expectedRows_places]
      unfold places
      refine List.mem_flatMap.2 ⟨K.lot, List.mem_range.2 K.lot.2, List.mem_flatMap.2 ⟨K.chp, List.mem_range.2 K.chp.2, ?_⟩⟩
      exact List.mem_map.2 ⟨K.dev, List.mem_range.2 k3, rfl⟩
    obtain ⟨row, hr, e⟩ := List.mem_map.1 hm
    obtain ⟨hr, hs⟩ := List.mem_filter.1 hr
    obtain ⟨j, hj⟩ := List.mem_iff_getElem?.1 hr
    rw [Bool.and_eq_true, beq_iff_eq, beq_iff_eq] at hs
    exact ⟨j, row, hj, hs.1.trans k1.symm, hs.2, e⟩
  · intro j j' row row' hj hj' o o'
    refine filter_unique (q := fun row => row.step == pre.length && row.prm == K.prm) (f := place) ?_ hj hj' (hq row o) (hq row' o') (o.2.2.trans o'.2.2.symm)
    show ((rowsAt r.measurements pre.length K.prm).map place).Nodup
    rw [h1, expectedRows_places]
    exact places_distinct _ _ _
  · intro row hr o
    have hm : row ∈ rowsAt r.measurements pre.length K.prm := List.mem_filter.2 ⟨hr, hq row o⟩
    rw [h1] at hm
    obtain ⟨l, hl, c, hc, d, hd, rfl⟩ := mem_expected hm
    have e := o.2.2
    cases e
    exact h2 K.lot K.chp K.dev k3

/-- The readings of an inspection are numbers. -/
theorem inspect_finite (hi : Inspection dm test) (h : NewSetup N dm (augment dm (calcSamplesNeeded test.steps)) D v g)
    {ord : SetOrder} {r : SimReport (Ext ℝ)} {w w' w1 : Tapes N}
    (h0 : simulate ord test dm (exactEnv env) none w = (.ok r, w')) {st : SimState (Ext ℝ)}
    (hst : dm.genInitState (augment dm (calcSamplesNeeded test.steps)) test.numChps test.numLots w = (.ok st, w1))
    {x : Slot → Spot test.numLots test.numChps → ℝ} (hx : NewStateIs dm D v g x st) :
    ∀ row ∈ r.measurements, row.measured ≠ .nan := by
  intro row hr
  have he : entry row ∈ r.measurements.map entry := List.mem_map_of_mem hr
  rw [inspect_layout hi h h0] at he
  obtain ⟨pre, m, post, n, ht, e1, e2⟩ := layout_mem he
  obtain ⟨-, cur, t, h1, h2⟩ := inspect_rows hi h ht e2 h0 hst hx
  have hm : row ∈ rowsAt r.measurements pre.length row.prm := by
    refine List.mem_filter.2 ⟨hr, ?_⟩
    rw [Nat.zero_add] at e1
    rw [show row.step = pre.length from e1]
    simp
  rw [show row.prm = (entry row).2.1 from rfl, h1] at hm
  obtain ⟨l, hl, c, hc, d, hd, e⟩ := mem_expected hm
  rw [e]
  show cur l c d ≠ _
  rw [h2 ⟨l, hl⟩ ⟨c, hc⟩ d hd]
  nofun

end rows

section readings
variable {N : Numpy} {Ω : Type} [MeasurableSpace Ω] {P : Measure Ω} {P₀ : Measure ℝ} {raw : Nat → Nat → Ω → ℝ} {G : Set Nat}
  {dm : DeviceMdl (Tapes N) (Ext ℝ)} {env : PhysTestEnv (Ext ℝ)} {D : String → Nat} {v : Variation}
  {g : String → (String → ℝ) → ℝ} {test : TestSpec (Ext ℝ)}

/-- In an inspection of new devices each asked reading is shown once: the initial value of the device made of the
contributions of its lot, its chip and itself, plus an error of its own. All these are independent. -/
theorem C96_readings (hN : N.Correct P₀) (hr : Standard P P₀ raw)
    (h : NewSetup N dm (augment dm (calcSamplesNeeded test.steps)) D v g) (ho : OwnGenerators N G dm env)
    (hi : Inspection dm test) {ord : SetOrder} {next : Nat → Nat}
    (hok : ∀ ω, ∃ r₀ w₀, simulate ord test dm (exactEnv env) none (⟨fun i j => raw i j ω, next⟩ : Tapes N) = (.ok r₀, w₀)) :
    ∃ (X : Slot → Spot test.numLots test.numChps → Ω → ℝ) (E : {K : Reading test.numLots test.numChps // K.Asked test} → Ω → ℝ),
      iIndepFun (Sum.elim (fun k : {k : Slot × Spot test.numLots test.numChps //
        (latentAt dm k.1).isSome ∧ k.2.Within (D k.1.prm)} => X k.1.1 k.1.2) E) P ∧
      (∀ s t, Measurable (X s t)) ∧ (∀ K, Measurable (E K)) ∧
      (∀ s, (latentAt dm s).isSome → ∀ t, P.map (X s t) = P₀.map (t.layer (v.lot s) (v.chp s) (v.dev s))) ∧
      (∀ K, ErrorOf N P P₀ (instrumentOf env K.1.prm) (E K)) ∧ (∀ K : {K // Reading.Asked test K}, K.1.dev < D K.1.prm) ∧
      ∀ ω, ∃ r w', simulate ord test dm env none (⟨fun i j => raw i j ω, next⟩ : Tapes N) = (.ok r, w') ∧
        ∀ K : {K // Reading.Asked test K}, (∃ row ∈ r.measurements, K.1.Of row) ∧
          ∀ row ∈ r.measurements, K.1.Of row → ShownFor N (instrumentOf env K.1.prm)
            (.fin ((g K.1.prm fun k => v.value (fun s t => X s t ω) ⟨K.1.prm, .init, k⟩ K.1.lot K.1.chp K.1.dev) + E K ω))
            row.measured := by
  classical
  have : IsProbabilityMeasure P := hr.indep.isProbabilityMeasure
  obtain ⟨ω₀⟩ : Nonempty Ω := P.nonempty_of_neZero
  obtain ⟨X₀, -, -, -, hX₀⟩ := C94_variation hN hr h test.numLots test.numChps next
  have hok' : ∀ ω, ∃ r₀ w₀, simulate ord test dm (exactEnv env) none (⟨fun i j => raw i j ω, next⟩ : Tapes N) = (.ok r₀, w₀) ∧
      r₀.measurements.map (·.prm) = layoutNames dm test ∧ ∀ r ∈ r₀.measurements, r.measured ≠ .nan := by
    intro ω
    obtain ⟨r₀, w₀, h0⟩ := hok ω
    obtain ⟨st, w1, e1, e2⟩ := hX₀ ω
    refine ⟨r₀, w₀, h0, ?_, inspect_finite hi h h0 e1 e2⟩
    unfold layoutNames
    rw [← inspect_layout hi h h0, List.map_map]
    rfl
  obtain ⟨X, E, x1, x2, x3, x4, x5, x6⟩ := C96_joint hN hr h ho hok'
  -- the number of the row of a reading
  have hidx : ∀ K : {K : Reading test.numLots test.numChps // K.Asked test}, ∃ j : Fin (layoutNames dm test).length,
      ∀ ω r₀ w₀, simulate ord test dm (exactEnv env) none (⟨fun i j => raw i j ω, next⟩ : Tapes N) = (.ok r₀, w₀) →
        ∃ row, r₀.measurements[j.val]? = some row ∧ K.1.Of row := by
    intro K
    obtain ⟨r₁, w₁, h1, n1, -⟩ := hok' ω₀
    obtain ⟨st, w2, e1, e2⟩ := hX₀ ω₀
    obtain ⟨-, ⟨j, row, hj, o⟩, -⟩ := asked_row hi h K.2 h1 e1 e2
    have hlt : j < (layoutNames dm test).length := by
      rw [← n1, List.length_map]
      exact (List.getElem?_eq_some_iff.1 hj).1
    refine ⟨⟨j, hlt⟩, fun ω r₀ w₀ h0 => ?_⟩
    have hl := (inspect_layout hi h h0).trans (inspect_layout hi h h1).symm
    have hg := congrArg (·[j]?) hl
    simp only [List.getElem?_map, hj, Option.map_some] at hg
    obtain ⟨row', hr', he⟩ := Option.map_eq_some_iff.1 hg
    refine ⟨row', hr', ?_, ?_, ?_⟩
    · exact (congrArg (·.1) he).trans o.1
    · exact (congrArg (·.2.1) he).trans o.2.1
    · exact (congrArg (·.2.2.1) he).trans o.2.2
  choose jj hjj using hidx
  have hinj : Function.Injective jj := by
    intro K K' e
    obtain ⟨r₁, w₁, h1⟩ := hok ω₀
    obtain ⟨row, a1, a2, a3, a4⟩ := hjj K ω₀ r₁ w₁ h1
    obtain ⟨row', b1, b2, b3, b4⟩ := hjj K' ω₀ r₁ w₁ h1
    rw [← e, a1] at b1
    cases b1
    obtain ⟨⟨s, p, l, c, d⟩, hK⟩ := K
    obtain ⟨⟨s', p', l', c', d'⟩, hK'⟩ := K'
    have e1 : s = s' := a2.symm.trans b2
    have e2 : p = p' := a3.symm.trans b3
    have e3 := a4.symm.trans b4
    simp only [Prod.mk.injEq, Option.some.injEq] at e3
    obtain ⟨e3, e4, e5⟩ := e3
    have e3 := Fin.ext e3
    have e4 := Fin.ext e4
    subst e1 e2 e3 e4 e5
    rfl
  have hname : ∀ K, (layoutNames dm test)[jj K] = K.1.prm := by
    intro K
    obtain ⟨r₁, w₁, h1, n1, -⟩ := hok' ω₀
    obtain ⟨row, a1, a2, a3, a4⟩ := hjj K ω₀ r₁ w₁ h1
    have : (layoutNames dm test)[(jj K).val]? = some row.prm := by
      generalize (jj K).val = i at a1
      rw [← n1, List.getElem?_map, a1]
      rfl
    rw [List.getElem?_eq_getElem (jj K).2] at this
    exact (Option.some.inj this).trans a3
  refine ⟨X, fun K => E (jj K), ?_, x2, fun K => x3 _, x4, fun K => ?_, fun K => ?_, fun ω => ?_⟩
  · have hf : Function.Injective (Sum.map id jj : {k : Slot × Spot test.numLots test.numChps //
        (latentAt dm k.1).isSome ∧ k.2.Within (D k.1.prm)} ⊕ {K : Reading test.numLots test.numChps // K.Asked test} → _) :=
      Sum.map_injective.2 ⟨Function.injective_id, hinj⟩
    convert x1.precomp hf using 1
    funext i
    cases i <;> rfl
  · have := x5 (jj K)
    rwa [hname K] at this
  · obtain ⟨r₁, w₁, h1⟩ := hok ω₀
    obtain ⟨st, w2, e1, e2⟩ := hX₀ ω₀
    exact (asked_row hi h K.2 h1 e1 e2).1
  · obtain ⟨st, w, r₀, w₀, rows, w', e1, e2, e3, e4, e5, e6⟩ := x6 ω
    refine ⟨_, w', e4, fun K => ?_⟩
    obtain ⟨row, y, y1, y2, y3⟩ := e6 (jj K)
    obtain ⟨row', a1, a2⟩ := hjj K ω r₀ w₀ e3
    rw [y1] at a1
    cases a1
    obtain ⟨-, -, b2, b3⟩ := asked_row hi h K.2 e3 e1 e2
    refine ⟨⟨_, List.mem_of_getElem? y3, a2⟩, fun rw' hrw ow => ?_⟩
    obtain ⟨i, hi'⟩ := List.mem_iff_getElem?.1 hrw
    have hil : i < (layoutNames dm test).length := by
      rw [← e5]
      exact (List.getElem?_eq_some_iff.1 hi').1
    obtain ⟨row2, z, z1, z2, z3⟩ := e6 ⟨i, hil⟩
    rw [hi'] at z3
    have z3 := Option.some.inj z3
    have hof : K.1.Of row2 := by
      rw [z3] at ow
      exact ow
    have hij := b2 _ _ _ _ z1 y1 hof a2
    have hfin : (⟨i, hil⟩ : Fin (layoutNames dm test).length) = jj K := Fin.ext hij
    rw [hfin] at z2 z1
    rw [hname K] at z2
    rw [z1] at y1
    cases y1
    rw [z3]
    show ShownFor N _ _ z
    rw [b3 _ (List.mem_of_getElem? z1) hof] at z2
    exact z2

end readings

section sums
variable {Ω ι : Type} [MeasurableSpace Ω] {P : Measure Ω} {Z : ι → Ω → ℝ}

theorem sum_gaussian [IsProbabilityMeasure P] (hi : iIndepFun Z P) (hm : ∀ i, Measurable (Z i)) {m : ι → ℝ} {q : ι → NNReal}
    (S : Finset ι) (hl : ∀ i ∈ S, P.map (Z i) = gaussianReal (m i) (q i)) :
    P.map (∑ i ∈ S, Z i) = gaussianReal (∑ i ∈ S, m i) (∑ i ∈ S, q i) := by
  classical
  induction S using Finset.induction_on with
  | empty =>
    rw [Finset.sum_empty, Finset.sum_empty, Finset.sum_empty, gaussianReal_zero_var]
    show P.map (fun _ => (0 : ℝ)) = _
    rw [Measure.map_const, measure_univ, one_smul]
  | insert i S h ih =>
    rw [Finset.sum_insert h, Finset.sum_insert h, Finset.sum_insert h]
    exact gaussianReal_add_gaussianReal_of_indepFun (hi.indepFun_finsetSum_of_notMem hm h).symm
      (hl i (Finset.mem_insert_self i S)) (ih fun j hj => hl j (Finset.mem_insert_of_mem hj))

open Classical in
theorem sum_covariance [IsProbabilityMeasure P] (hi : iIndepFun Z P) (S T : Finset ι) (hS : ∀ i ∈ S, MemLp (Z i) 2 P)
    (hT : ∀ i ∈ T, MemLp (Z i) 2 P) (a b : ℝ) :
    cov[fun ω => a + ∑ i ∈ S, Z i ω, fun ω => b + ∑ i ∈ T, Z i ω; P] = ∑ i ∈ S, if i ∈ T then Var[Z i; P] else 0 := by
  have mS : MemLp (fun ω => ∑ i ∈ S, Z i ω) 2 P := by
    have := memLp_finsetSum' S hS
    convert this using 1
    funext ω
    simp
  have mT : MemLp (fun ω => ∑ i ∈ T, Z i ω) 2 P := by
    have := memLp_finsetSum' T hT
    convert this using 1
    funext ω
    simp
  rw [covariance_const_add_left (mS.integrable one_le_two), covariance_const_add_right (mT.integrable one_le_two),
    covariance_fun_sum_fun_sum' hS hT]
  refine Finset.sum_congr rfl fun i hiS => ?_
  split_ifs with h
  · rw [Finset.sum_eq_single_of_mem i h fun j hj hne => (hi.indepFun hne.symm).covariance_eq_zero (hS i hiS) (hT j hj)]
    exact covariance_self (hS i hiS).aestronglyMeasurable.aemeasurable
  · exact Finset.sum_eq_zero fun j hj => (hi.indepFun (i := i) (j := j) fun e => h (by rw [e]; exact hj)).covariance_eq_zero (hS i hiS) (hT j hj)

theorem sum_apart (hi : iIndepFun Z P) (hm : ∀ i, Measurable (Z i)) {S T : Finset ι} (h : Disjoint S T) (a b : ℝ) :
    IndepFun (fun ω => a + ∑ i ∈ S, Z i ω) (fun ω => b + ∑ i ∈ T, Z i ω) P := by
  have key : ∀ (S : Finset ι) (a : ℝ), (fun ω => a + ∑ i ∈ S, Z i ω) =
      (fun y : S → ℝ => a + ∑ i, y i) ∘ fun ω (i : S) => Z i ω := by
    intro S a
    funext ω
    show _ = a + ∑ i : S, Z i ω
    rw [Finset.sum_coe_sort S fun i => Z i ω]
  rw [key S a, key T b]
  exact (hi.indepFun_finset S T h hm).comp (by fun_prop) (by fun_prop)

end sums

section normal
variable {N : Numpy} {Ω : Type} [MeasurableSpace Ω] {P : Measure Ω} {P₀ : Measure ℝ} {raw : Nat → Nat → Ω → ℝ} {G : Set Nat}
  {dm : DeviceMdl (Tapes N) (Ext ℝ)} {env : PhysTestEnv (Ext ℝ)} {D : String → Nat} {v : Variation}
  {g : String → (String → ℝ) → ℝ} {test : TestSpec (Ext ℝ)} {ord : SetOrder} {next : Nat → Nat}

/-- What readings are made of: contributions of lots, chips and devices, and errors. -/
abbrev Piece {W : Type} (dm : DeviceMdl W (Ext ℝ)) (D : String → Nat) (test : TestSpec (Ext ℝ)) : Type :=
  {k : Slot × Spot test.numLots test.numChps // (latentAt dm k.1).isSome ∧ k.2.Within (D k.1.prm)} ⊕
    {K : Reading test.numLots test.numChps // K.Asked test}

open Classical in
/-- The parts of a reading. -/
noncomputable def partsOf (K : {K : Reading test.numLots test.numChps // K.Asked test}) (s : Slot)
    (hs : (latentAt dm s).isSome) (hd : K.1.dev < D s.prm) : Finset (Piece dm D test) :=
  {.inl ⟨(s, .dev K.1.lot K.1.chp K.1.dev), hs, hd⟩, .inl ⟨(s, .chp K.1.lot K.1.chp), hs, trivial⟩,
    .inl ⟨(s, .lot K.1.lot), hs, trivial⟩, .inr K}

open Classical in
theorem sum_parts {α : Type} [AddCommMonoid α] (K : {K : Reading test.numLots test.numChps // K.Asked test}) (s : Slot)
    (hs : (latentAt dm s).isSome) (hd : K.1.dev < D s.prm) (f : Piece dm D test → α) : ∑ i ∈ partsOf K s hs hd, f i =
      f (.inl ⟨(s, .dev K.1.lot K.1.chp K.1.dev), hs, hd⟩) + (f (.inl ⟨(s, .chp K.1.lot K.1.chp), hs, trivial⟩) +
      (f (.inl ⟨(s, .lot K.1.lot), hs, trivial⟩) + f (.inr K))) := by
  unfold partsOf
  rw [Finset.sum_insert (by simp), Finset.sum_insert (by simp), Finset.sum_insert (by simp), Finset.sum_singleton]

/-- The distribution of each part. -/
def partMean (x : Spread) : Piece dm D test → ℝ
  | .inl ⟨(_, .dev _ _ _), _⟩ => x.meanDev
  | .inl ⟨(_, .chp _ _), _⟩ => x.meanChp
  | .inl ⟨(_, .lot _), _⟩ => x.meanLot
  | .inr _ => x.meanErr

def partVar (x : Spread) : Piece dm D test → NNReal
  | .inl ⟨(_, .dev _ _ _), _⟩ => x.dev ^ 2
  | .inl ⟨(_, .chp _ _), _⟩ => x.chp ^ 2
  | .inl ⟨(_, .lot _), _⟩ => x.lot ^ 2
  | .inr _ => x.err ^ 2

/-- The readings of an inspection are sums of independent parts. -/
theorem reading_sums (hN : N.Correct P₀) (hr : Standard P P₀ raw)
    (h : NewSetup N dm (augment dm (calcSamplesNeeded test.steps)) D v g) (ho : OwnGenerators N G dm env)
    (hi : Inspection dm test)
    (hok : ∀ ω, ∃ r₀ w₀, simulate ord test dm (exactEnv env) none (⟨fun i j => raw i j ω, next⟩ : Tapes N) = (.ok r₀, w₀)) :
    ∃ Z : Piece dm D test → Ω → ℝ, iIndepFun Z P ∧ (∀ i, Measurable (Z i)) ∧
      (∀ K : {K : Reading test.numLots test.numChps // K.Asked test}, K.1.dev < D K.1.prm) ∧
      ∀ p x, NormalPrm dm env g p x → ∃ s, ∃ hs : (latentAt dm s).isSome, s.prm = p ∧
        ∀ (K : {K : Reading test.numLots test.numChps // K.Asked test}) (hd : K.1.dev < D s.prm), K.1.prm = p →
          (∀ i ∈ partsOf K s hs hd, P.map (Z i) = gaussianReal (partMean x i) (partVar x i)) ∧
          ∀ Y, RandomReading raw next ord test dm env K.1 Y →
            Y = fun ω => x.base.getD 0 + ∑ i ∈ partsOf K s hs hd, Z i ω := by
  have : IsProbabilityMeasure P := hr.indep.isProbabilityMeasure
  obtain ⟨X, E, x1, x2, x3, x4, x5, x6, x7⟩ := C96_readings hN hr h ho hi hok
  refine ⟨_, x1, ?_, x6, ?_⟩
  · rintro (k | K)
    · exact x2 _ _
    · exact x3 _
  rintro p x ⟨m, k, lv, hp, hg, hk, ht, hb, nl, nc, nd, ne⟩
  have hs : latentAt dm ⟨p, .init, k⟩ = some lv := by
    have e4 : latentsOf dm p .init = some m.initMdl.latentVars := by simp [latentsOf, hp]
    simp only [latentAt, e4, hk]
  have ly := h.layers _ lv hs
  have hso : (latentAt dm ⟨p, .init, k⟩).isSome := by rw [hs]; rfl
  refine ⟨⟨p, .init, k⟩, hso, rfl, fun K hd hK => ⟨?_, fun Y hY => ?_⟩⟩
  · have hP₀ : IsProbabilityMeasure P₀ := by
      rw [← hr.law 0 0]
      exact Measure.isProbabilityMeasure_map (hr.meas 0 0).aemeasurable
    have layer : ∀ {r : RVar (Ext ℝ)} {m : ℝ} {s : NNReal} {f : ℝ → ℝ}, NormalLayer r m s → N.value r.dist = some f →
        P₀.map f = gaussianReal m (s ^ 2) := by
      intro r m s f h hf
      rcases h with h | ⟨h, rfl⟩ <;> rw [h] at hf <;> cases hf
      · exact hN.gaussian m s
      · rw [zero_pow two_ne_zero, gaussianReal_zero_var, Measure.map_const, measure_univ, one_smul]
    intro i hi
    simp only [partsOf, Finset.mem_insert, Finset.mem_singleton] at hi
    rcases hi with rfl | rfl | rfl | rfl
    · exact (x4 _ hso _).trans (layer nd ly.dev)
    · exact (x4 _ hso _).trans (layer nc ly.chp)
    · exact (x4 _ hso _).trans (layer nl ly.lot)
    · have := x5 K
      obtain ⟨⟨r, r1, r2⟩, -, -⟩ := ne
      unfold ErrorOf at this
      rw [hK, r1] at this
      have hf : N.value r.dist = some (N.normal x.meanErr x.err) := by rw [r2]; rfl
      exact (this _ hf).trans (hN.gaussian _ _)
  · funext ω
    obtain ⟨r, w', row, y1, y2, y3, y4⟩ := hY ω
    obtain ⟨r', w'', z1, z2⟩ := x7 ω
    rw [y1] at z1
    cases z1
    have sh := (z2 K).2 row y2 y3
    rw [hK] at sh
    have := shown_plain ne.precision ne.range sh
    rw [y4, hg] at this
    have := Ext.fin.inj this
    rw [this, sum_parts]
    have hty : v.type ⟨p, .init, k⟩ = .offset := Option.some.inj (ly.type.symm.trans ht)
    have hbase : v.base ⟨p, .init, k⟩ = x.base := by
      have := ly.base.symm.trans hb
      cases h1 : v.base ⟨p, .init, k⟩ <;> cases h2 : x.base <;> rw [h1, h2] at this <;> cases this
      rfl
    simp only [Variation.value, hty, hbase, Sum.elim_inl, Sum.elim_inr]
    ring

section
variable (hN : N.Correct P₀) (hr : Standard P P₀ raw)
  (h : NewSetup N dm (augment dm (calcSamplesNeeded test.steps)) D v g) (ho : OwnGenerators N G dm env)
  (hi : Inspection dm test)
  (hok : ∀ ω, ∃ r₀ w₀, simulate ord test dm (exactEnv env) none (⟨fun i j => raw i j ω, next⟩ : Tapes N) = (.ok r₀, w₀))
include hN hr h ho hi hok

/-- The readings of new devices are normally distributed; their variance is the sum of the variances of lots, chips,
devices and errors. -/
theorem C96_normal {K : Reading test.numLots test.numChps} (hK : K.Asked test) {x : Spread}
    (hx : NormalPrm dm env g K.prm x) {Y : Ω → ℝ} (hY : RandomReading raw next ord test dm env K Y) :
    P.map Y = gaussianReal (x.base.getD 0 + (x.meanDev + (x.meanChp + (x.meanLot + x.meanErr))))
      (x.dev ^ 2 + (x.chp ^ 2 + (x.lot ^ 2 + x.err ^ 2))) := by
  have : IsProbabilityMeasure P := hr.indep.isProbabilityMeasure
  obtain ⟨Z, z1, z2, z3, z4⟩ := reading_sums hN hr h ho hi hok
  obtain ⟨s, hs, hsp, key⟩ := z4 _ x hx
  have hd : K.dev < D s.prm := by rw [hsp]; exact z3 ⟨K, hK⟩
  obtain ⟨k1, k2⟩ := key ⟨K, hK⟩ hd rfl
  have e : Y = (fun y => x.base.getD 0 + y) ∘ ∑ i ∈ partsOf ⟨K, hK⟩ s hs hd, Z i := by
    rw [k2 Y hY]
    funext ω
    simp
  have hZ : Measurable (∑ i ∈ partsOf ⟨K, hK⟩ s hs hd, Z i) := by
    rw [sum_parts]
    exact (z2 _).add ((z2 _).add ((z2 _).add (z2 _)))
  rw [e, ← Measure.map_map (by fun_prop) hZ, sum_gaussian z1 z2 _ k1,
    gaussianReal_map_const_add, sum_parts, sum_parts]
  congr 1
  exact add_comm _ _

/-- The covariance of two readings of a parameter: readings in the same lot share its variation, and likewise those on
the same chip and of the same device. Errors are not shared, not even between readings of the same device. -/
theorem C96_covariance {K K' : Reading test.numLots test.numChps} (hK : K.Asked test) (hK' : K'.Asked test)
    (hp : K'.prm = K.prm) {x : Spread} (hx : NormalPrm dm env g K.prm x) {Y Y' : Ω → ℝ}
    (hY : RandomReading raw next ord test dm env K Y) (hY' : RandomReading raw next ord test dm env K' Y') :
    cov[Y, Y'; P] = (if K.lot = K'.lot ∧ K.chp = K'.chp ∧ K.dev = K'.dev then (x.dev : ℝ) ^ 2 else 0) +
      ((if K.lot = K'.lot ∧ K.chp = K'.chp then (x.chp : ℝ) ^ 2 else 0) +
      ((if K.lot = K'.lot then (x.lot : ℝ) ^ 2 else 0) + if K = K' then (x.err : ℝ) ^ 2 else 0)) := by
  classical
  have : IsProbabilityMeasure P := hr.indep.isProbabilityMeasure
  obtain ⟨Z, z1, z2, z3, z4⟩ := reading_sums hN hr h ho hi hok
  obtain ⟨s, hs, hsp, key⟩ := z4 _ x hx
  have hd : K.dev < D s.prm := by rw [hsp]; exact z3 ⟨K, hK⟩
  have hd' : K'.dev < D s.prm := by rw [hsp, ← hp]; exact z3 ⟨K', hK'⟩
  obtain ⟨k1, k2⟩ := key ⟨K, hK⟩ hd rfl
  obtain ⟨k3, k4⟩ := key ⟨K', hK'⟩ hd' hp
  have mem : ∀ {i : Piece dm D test}, P.map (Z i) = gaussianReal (partMean x i) (partVar x i) → MemLp (Z i) 2 P := by
    intro i hl
    have := memLp_id_gaussianReal (μ := partMean x i) (v := partVar x i) 2
    rw [← hl] at this
    exact (memLp_map_measure_iff (by fun_prop) (z2 i).aemeasurable).1 this
  have var : ∀ {i : Piece dm D test}, P.map (Z i) = gaussianReal (partMean x i) (partVar x i) →
      Var[Z i; P] = partVar x i := by
    intro i hl
    rw [← variance_id_map (z2 i).aemeasurable, hl, variance_id_gaussianReal]
  rw [k2 Y hY, k4 Y' hY', sum_covariance z1 _ _ (fun i hi => mem (k1 i hi)) (fun i hi => mem (k3 i hi)),
    Finset.sum_congr rfl fun i hi => by rw [var (k1 i hi)], sum_parts]
  have q1 : (Sum.inl ⟨(s, .dev K.lot K.chp K.dev), hs, hd⟩ : Piece dm D test) ∈ partsOf ⟨K', hK'⟩ s hs hd' ↔
      K.lot = K'.lot ∧ K.chp = K'.chp ∧ K.dev = K'.dev := by simp [partsOf]
  have q2 : (Sum.inl ⟨(s, .chp K.lot K.chp), hs, trivial⟩ : Piece dm D test) ∈ partsOf ⟨K', hK'⟩ s hs hd' ↔
      K.lot = K'.lot ∧ K.chp = K'.chp := by simp [partsOf]
  have q3 : (Sum.inl ⟨(s, .lot K.lot), hs, trivial⟩ : Piece dm D test) ∈ partsOf ⟨K', hK'⟩ s hs hd' ↔
      K.lot = K'.lot := by simp [partsOf]
  have q4 : (Sum.inr ⟨K, hK⟩ : Piece dm D test) ∈ partsOf ⟨K', hK'⟩ s hs hd' ↔ K = K' := by simp [partsOf]
  simp only [q1, q2, q3, q4]
  rfl

/-- There always are such readings. -/
theorem C96_values {K : Reading test.numLots test.numChps} (hK : K.Asked test)
    (hp : (instrumentOf env K.prm).precision = none) (hr : (instrumentOf env K.prm).range = none) :
    ∃ Y, RandomReading raw next ord test dm env K Y := by
  obtain ⟨X, E, -, -, -, -, -, -, x7⟩ := C96_readings hN ‹_› h ho hi hok
  refine ⟨fun ω => (g K.prm fun k => v.value (fun s t => X s t ω) ⟨K.prm, .init, k⟩ K.lot K.chp K.dev) + E ⟨K, hK⟩ ω,
    fun ω => ?_⟩
  obtain ⟨r, w', z1, z2⟩ := x7 ω
  obtain ⟨⟨row, z3, z4⟩, z5⟩ := z2 ⟨K, hK⟩
  exact ⟨r, w', row, z1, z3, z4, shown_plain hp hr (z5 row z3 z4)⟩

/-- Readings of different parameters or from different lots are independent. -/
theorem C96_apart {K K' : Reading test.numLots test.numChps} (hK : K.Asked test) (hK' : K'.Asked test)
    (hne : K.prm ≠ K'.prm ∨ K.lot ≠ K'.lot) {x x' : Spread} (hx : NormalPrm dm env g K.prm x)
    (hx' : NormalPrm dm env g K'.prm x') {Y Y' : Ω → ℝ}
    (hY : RandomReading raw next ord test dm env K Y) (hY' : RandomReading raw next ord test dm env K' Y') :
    IndepFun Y Y' P := by
  classical
  have : IsProbabilityMeasure P := hr.indep.isProbabilityMeasure
  obtain ⟨Z, z1, z2, z3, z4⟩ := reading_sums hN hr h ho hi hok
  obtain ⟨s, hs, hsp, key⟩ := z4 _ x hx
  obtain ⟨s', hs', hsp', key'⟩ := z4 _ x' hx'
  have hd : K.dev < D s.prm := by rw [hsp]; exact z3 ⟨K, hK⟩
  have hd' : K'.dev < D s'.prm := by rw [hsp']; exact z3 ⟨K', hK'⟩
  obtain ⟨-, k2⟩ := key ⟨K, hK⟩ hd rfl
  obtain ⟨-, k4⟩ := key' ⟨K', hK'⟩ hd' rfl
  rw [k2 Y hY, k4 Y' hY']
  refine sum_apart z1 z2 (Finset.disjoint_left.2 fun i a b => ?_) _ _
  have hn : ¬ (s = s' ∧ K.lot = K'.lot) := by
    rintro ⟨rfl, e⟩
    rcases hne with n | n
    · exact n (hsp.symm.trans hsp')
    · exact n e
  have hn' : K ≠ K' := by
    rintro rfl
    rcases hne with n | n <;> exact n rfl
  simp only [partsOf, Finset.mem_insert, Finset.mem_singleton] at a b
  rcases a with rfl | rfl | rfl | rfl <;> simp at b <;> tauto

end

end normal

/-! ## An example -/

/-- Thresholds and currents of four and five devices on two chips of two lots are read twice. -/
noncomputable def twinTest : TestSpec (Ext ℝ) where
  steps := [.meas ⟨[("vth", 4), ("ids", 5)], [("temp", .fin 300)], "first"⟩,
    .meas ⟨[("vth", 4)], [("temp", .fin 300)], "second"⟩]
  numLots := 2
  numChps := 2

/-- A voltmeter and an ammeter with errors. -/
noncomputable def twinEnv : PhysTestEnv (Ext ℝ) where
  vars := []
  instms := [("vth", { error := some ⟨5, .normal (.fin 0) (.fin (3 : NNReal)), none⟩ }),
    ("ids", { error := some ⟨5, .normal (.fin 0) (.fin (1 : NNReal)), none⟩ })]

theorem twin_inspection : Inspection twinDev twinTest := by
  constructor
  · intro p m hp
    obtain ⟨mechs, rfl, hm⟩ := twin_prm hp
    refine ⟨argEqn_shapes _, ?_, by simp [twinPrm, initValMk, nameLatents], constEqn_shapes _, ?_, basicSum_shapes⟩
    · rcases hm with ⟨-, rfl⟩ | ⟨-, rfl⟩ <;> decide
    · intro k m hk
      rcases hm with ⟨-, rfl⟩ | ⟨-, rfl⟩
      · cases List.mem_singleton.1 hk
        exact argEqn_shapes _
      · cases hk
  · have hd : ∀ p n, (p, n) ∈ [("vth", 4), ("ids", 5)] → ∃ d, twinDev.prms.get? p = some (.deg d) ∧ DefaultPrm d := by
      intro p n hp
      have z : (Ext.fin 0 : Ext ℝ) = PyArith.ofRat 0 := by
        show Ext.fin 0 = Ext.fin ((0 : ℚ) : ℝ)
        rw [Rat.cast_zero]
      rcases List.mem_cons.1 hp with e | hp
      · cases e
        refine ⟨_, rfl, rfl, ?_, z, ?_, by decide, by decide⟩
        · show constEqn (Ext.fin 0) = _
          rw [z]
        · intro kv hkv
          cases List.mem_singleton.1 hkv
          exact z
      · cases List.mem_singleton.1 hp
        refine ⟨_, rfl, rfl, ?_, z, ?_, by decide, by decide⟩
        · show constEqn (Ext.fin 0) = _
          rw [z]
        · intro kv hkv
          cases hkv
    intro st hst
    rcases List.mem_cons.1 hst with rfl | hst
    · exact ⟨_, rfl, by decide, by decide, hd⟩
    · cases List.mem_singleton.1 hst
      refine ⟨_, rfl, by decide, by decide, fun p n hp => hd p n ?_⟩
      cases List.mem_singleton.1 hp
      exact List.mem_cons_self

theorem twin_elsewhere {k : String} {kv : String × LatentVar (Ext ℝ)} (h : kv ∈ nameLatents [(k, lotLatent)]) :
    Elsewhere {5} kv.2.lot ∧ Elsewhere {5} kv.2.chp ∧ Elsewhere {5} kv.2.dev := by
  simp only [nameLatents, List.map_cons, List.map_nil, List.mem_singleton] at h
  subst h
  simp only
  split_ifs <;> exact ⟨.inl (by simp [lotLatent, LatentVar.setName]), .inr ⟨.fin 0, rfl⟩,
    .inl (by simp [lotLatent, LatentVar.setName])⟩

theorem twin_own : OwnGenerators linearNumpy {5} twinDev twinEnv := by
  refine ⟨by simp [twinDev, Dict.Nodup, Dict.keys], ?_, ?_, ?_, ?_⟩
  · intro kv hkv r hr
    rcases List.mem_cons.1 hkv with rfl | hkv
    · cases hr
      exact ⟨rfl, _, rfl⟩
    · rw [List.mem_singleton.1 hkv] at hr
      cases hr
      exact ⟨rfl, _, rfl⟩
  · intro kv hkv
    cases hkv
  · intro kv hkv m hm
    have init : ∀ mechs, ModelElsewhere {5} (twinPrm mechs).initMdl := by
      intro mechs
      exact ⟨fun args => ⟨_, rfl⟩, fun kv hkv => twin_elsewhere hkv⟩
    have own : ∀ mechs, ModelElsewhere {5} (twinPrm mechs).mdl := fun mechs =>
      ⟨fun args => ⟨_, rfl⟩, fun kv h => absurd (show kv ∈ [] from h) List.not_mem_nil⟩
    have cond : ∀ mechs, ModelElsewhere {5} (twinPrm mechs).condMdl := fun mechs =>
      ⟨fun args => ⟨_, rfl⟩, fun kv h => absurd (show kv ∈ [] from h) List.not_mem_nil⟩
    rcases List.mem_cons.1 hkv with rfl | hkv
    · cases hm
      refine ⟨own _, cond _, init _, fun mech hmech => ?_⟩
      cases List.mem_singleton.1 hmech
      exact ⟨fun args => ⟨_, rfl⟩, fun kv hkv => twin_elsewhere hkv⟩
    · rw [List.mem_singleton.1 hkv] at hm
      cases hm
      exact ⟨own _, cond _, init _, fun kv h => absurd (show kv ∈ [] from h) List.not_mem_nil⟩
  · intro kv hkv m hm
    rcases List.mem_cons.1 hkv with rfl | hkv
    · cases hm
    · rw [List.mem_singleton.1 hkv] at hm
      cases hm

theorem twin_exact (t : Nat → Nat → ℝ) : ∃ r₀ w₀, simulate Ex.orderA twinTest twinDev (exactEnv twinEnv) none
    (⟨t, fun _ => 0⟩ : Tapes linearNumpy) = (.ok r₀, w₀) := ⟨_, _, rfl⟩

theorem twin_counted : NewSetup linearNumpy twinDev (augment twinDev (calcSamplesNeeded twinTest.steps))
    (fun p => if p = "vth" then 4 else 5) twinVariation fun _ y => y "init_val" := twin_setup

theorem twin_vth : NormalPrm twinDev twinEnv (fun _ y => y "init_val") "vth" ⟨some 7, 0, 0, 0, 0, 2, 0, 1, 3⟩ :=
  ⟨_, "init_val", _, rfl, rfl, twin_init, rfl, rfl, .inl rfl, .inr ⟨rfl, rfl⟩, .inl rfl, ⟨_, rfl, rfl⟩, rfl, rfl⟩

/-- A reading of this test. -/
noncomputable def twinAt (step : Nat) (prm : String) (l c : Fin 2) (d : Nat) :
    Reading twinTest.numLots twinTest.numChps := ⟨step, prm, l, c, d⟩

/-- The two readings of a threshold have variance 14 and covariance 5; readings of two devices of a lot have
covariance 4; readings of devices from two lots are independent. -/
example : ∃ Y Y' Z Z', RandomReading (fun i j (ω : Nat × Nat → ℝ) => ω (i, j)) (fun _ => 0) Ex.orderA twinTest twinDev twinEnv
      (twinAt 0 "vth" 1 0 3) Y ∧
    RandomReading (fun i j (ω : Nat × Nat → ℝ) => ω (i, j)) (fun _ => 0) Ex.orderA twinTest twinDev twinEnv
      (twinAt 1 "vth" 1 0 3) Y' ∧
    RandomReading (fun i j (ω : Nat × Nat → ℝ) => ω (i, j)) (fun _ => 0) Ex.orderA twinTest twinDev twinEnv
      (twinAt 1 "vth" 1 1 2) Z ∧
    RandomReading (fun i j (ω : Nat × Nat → ℝ) => ω (i, j)) (fun _ => 0) Ex.orderA twinTest twinDev twinEnv
      (twinAt 0 "vth" 0 0 3) Z' ∧
    (Measure.infinitePi fun _ : Nat × Nat => gaussianReal 0 1).map Y = gaussianReal 7 14 ∧
    cov[Y, Y'; Measure.infinitePi fun _ : Nat × Nat => gaussianReal 0 1] = 5 ∧
    cov[Y, Z; Measure.infinitePi fun _ : Nat × Nat => gaussianReal 0 1] = 4 ∧
    IndepFun Y Z' (Measure.infinitePi fun _ : Nat × Nat => gaussianReal 0 1) := by
  have first : ∀ l c d, d < 4 → (twinAt 0 "vth" l c d).Asked twinTest := fun l c d hd =>
    ⟨[], _, _, 4, rfl, rfl, List.mem_cons_self, hd⟩
  have second : ∀ l c d, d < 4 → (twinAt 1 "vth" l c d).Asked twinTest := fun l c d hd =>
    ⟨[_], _, [], 4, rfl, rfl, List.mem_cons_self, hd⟩
  have val : ∀ K : Reading twinTest.numLots twinTest.numChps, K.prm = "vth" → K.Asked twinTest → ∃ Y,
      RandomReading (fun i j (ω : Nat × Nat → ℝ) => ω (i, j)) (fun _ => 0) Ex.orderA twinTest twinDev twinEnv K Y := by
    intro K hp hK
    refine C96_values linear_correct exists_standard twin_counted twin_own twin_inspection (fun ω => twin_exact _) hK ?_ ?_
    · rw [hp]; rfl
    · rw [hp]; rfl
  have k1 := first 1 0 3 (by decide)
  have k2 := second 1 0 3 (by decide)
  have k3 := second 1 1 2 (by decide)
  have k4 := first 0 0 3 (by decide)
  obtain ⟨Y, hY⟩ := val _ rfl k1
  obtain ⟨Y', hY'⟩ := val _ rfl k2
  obtain ⟨Z, hZ⟩ := val _ rfl k3
  obtain ⟨Z', hZ'⟩ := val _ rfl k4
  refine ⟨Y, Y', Z, Z', hY, hY', hZ, hZ', ?_, ?_, ?_, ?_⟩
  · rw [C96_normal linear_correct exists_standard twin_counted twin_own twin_inspection (fun ω => twin_exact _) k1 twin_vth hY]
    congr 1 <;> norm_num
  · rw [C96_covariance linear_correct exists_standard twin_counted twin_own twin_inspection (fun ω => twin_exact _) k1 k2 rfl
      twin_vth hY hY', if_pos ⟨rfl, rfl, rfl⟩, if_pos ⟨rfl, rfl⟩,
      if_pos (show (twinAt 0 "vth" 1 0 3).lot = (twinAt 1 "vth" 1 0 3).lot from rfl),
      if_neg fun e => absurd (congrArg Reading.step e) (show ¬ 0 = 1 by decide)]
    norm_num
  · rw [C96_covariance linear_correct exists_standard twin_counted twin_own twin_inspection (fun ω => twin_exact _) k1 k3 rfl
      twin_vth hY hZ, if_neg fun e => absurd e.2.2 (show ¬ 3 = 2 by decide),
      if_neg fun e => absurd e.2 (show ¬ (0 : Fin 2) = 1 by decide),
      if_pos (show (twinAt 0 "vth" 1 0 3).lot = (twinAt 1 "vth" 1 1 2).lot from rfl),
      if_neg fun e => absurd (congrArg Reading.step e) (show ¬ 0 = 1 by decide)]
    norm_num
  · exact C96_apart linear_correct exists_standard twin_counted twin_own twin_inspection (fun ω => twin_exact _) k1 k4
      (.inr (show ¬ (1 : Fin 2) = 0 by decide)) twin_vth twin_vth hY hZ'

end Gerabaldi.Props
