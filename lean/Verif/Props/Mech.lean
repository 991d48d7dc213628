import Verif.Model.Sim
import Verif.Lemmas.Mech
import Verif.Lemmas.Sim
import Verif.Spec.ExampleDevice

/-!
# Mechanisms in a stress step: C25, C54
-/

namespace Gerabaldi.Props

open Gerabaldi Gerabaldi.Spec

variable {W V : Type} [PyNum V]

/-! ## C54: a mechanism without an equation -/

omit [PyNum V] in
/-- The default equation takes no arguments but is called with `time`. -/
theorem default_invoke (kind : MechKind) (obj : Nat) (name : Option String) (unitary : V)
    (unit : Option String) (latents : Dict (LatentVar V)) (times : Arr3 V)
    (conds lat : Dict (Arr3 V)) (w : W) :
    let m : MechMdl W V := MechMdl.mk' kind obj none name unitary unit latents
    m.mdl.compute.invoke (m.args times conds lat) w = (.error .typeError, w) :=
  no_params_invoke rfl rfl (mech_args_time _ _ _ _) w

/-- C54 is violated: the equivalent time search of a default `DegMechMdl` raises `TypeError`, whatever the
degradation, conditions, latents and dimensions. -/
theorem C54_deg_equation_violated (obj : Nat) (name : Option String) (unitary : V)
    (unit : Option String) (latents : Dict (LatentVar V)) (cur : Arr3 V) (conds lat : Dict (Arr3 V))
    (L C D : Nat) (w : W) :
    (MechMdl.mk' .deg obj none name unitary unit latents : MechMdl W V).calcEquiv cur conds lat L C D w =
      (.error .typeError, w) := by
  unfold MechMdl.calcEquiv MechMdl.calcEquivSearch minimize
  apply M.bind_error
  apply M.bind_error
  unfold MechMdl.residue
  have hl : (List.replicate cur.data.length
      ((equivTimeCfg V).xf (equivTimeCfg V).x0)).length = cur.nl * cur.nc * cur.nd := by
    rw [List.length_replicate, cur.wf]
  rw [Arr3.reshape_ok hl]
  rw [M.bind_ok (M.ofExcept_run _ _)]
  apply M.bind_error
  unfold MechMdl.residueArr M.catchValueError
  rw [M.bind_error (default_invoke .deg obj name unitary unit latents _ conds lat w)]

/-- C54 is violated: computing the degradation of a default mechanism of any class raises `TypeError` for
all arrays of the same shape. -/
theorem C54_any_equation_violated (kind : MechKind) (obj : Nat) (name : Option String) (unitary : V)
    (unit : Option String) (latents : Dict (LatentVar V)) (times pre : Arr3 V)
    (conds lat : Dict (Arr3 V)) (L C D : Nat) (ht : times.HasDims L C D) (hp : pre.HasDims L C D)
    (w : W) :
    (MechMdl.mk' kind obj none name unitary unit latents : MechMdl W V).calcDegVals
      times pre conds lat L C D w = (.error .typeError, w) := by
  have hb : (MechMdl.mk' kind obj none name unitary unit latents : MechMdl W V).calcDegBase
      times pre conds lat L C D w = (.error .typeError, w) := by
    unfold MechMdl.calcDegBase
    rw [Arr3.bcast2_same _ _ _ ht hp]
    rw [M.bind_ok (M.ofExcept_run _ _)]
    exact M.bind_error (computeOrLoop_typeError (default_invoke kind obj name unitary unit latents _ _ _ w))
  cases kind
  · exact hb
  · exact M.bind_error hb
  · exact hb

/-- A default mechanism: built without an equation. -/
def IsDefault (m : MechMdl W V) : Prop :=
  ∃ kind obj name unitary unit latents, m = MechMdl.mk' kind obj none name unitary unit latents

/-- C54 is violated: no stress step succeeds on a device with a default mechanism, in any environment,
state and random state. -/
theorem C54_stress_step_violated [Rng W V] (ord : SetOrder) (dev : DeviceMdl W V) (env : PhysTestEnv V)
    (step : StrsSpec V) (i : Nat) (sr : SimState V × SimReport V) (w w' : W)
    (r : SimState V × SimReport V) {prm name : String} {m : DegPrmMdl W V} {k : MechMdl W V}
    (hp : (prm, PrmMdl.deg m) ∈ dev.prms) (hk : (name, k) ∈ m.mechs) (hd : IsDefault k) :
    simStress ord dev env step i sr w ≠ (.ok r, w') := by
  intro h
  obtain ⟨s', r'⟩ := r
  obtain ⟨s0, r0⟩ := sr
  obtain ⟨conds, s1, e, st, w1, -, h, -⟩ := simStress_ok h
  have hmem : (prm, m) ∈ dev.degPrms := by
    unfold DeviceMdl.degPrms
    exact List.mem_filterMap.2 ⟨_, hp, rfl⟩
  obtain ⟨b1, v1, b2, v2, hs⟩ := M.forIn'_ok_mem h hmem
  obtain ⟨n, cur, cs, im, lat, eq0, times, ip, p, mv, u1, u2, -, -, -, -, -, -, -, -, hs, -⟩ :=
    stressPrm_ok hs
  obtain ⟨c1, x1, c2, x2, hm⟩ := M.forIn'_ok_mem hs hk
  rw [degStep_eq] at hm
  obtain ⟨v, hm, -⟩ := M.bind_pure_ok.1 hm
  obtain ⟨t, pre, la, -, -, -, hm⟩ := degOne_ok hm
  obtain ⟨kind, obj, nm, unitary, unit, latents, hk'⟩ := hd
  have base : ∀ (v : Arr3 V) (u u' : W),
      k.calcDegBase t pre cs la r0.info.numLots r0.info.numChps n u ≠ (.ok v, u') := by
    intro v u u' hb
    unfold MechMdl.calcDegBase at hb
    obtain ⟨mask, -, hb⟩ := M.ofExcept_bind_ok.1 hb
    obtain ⟨dg, u3, hb, -⟩ := M.bind_eq_ok.1 hb
    rw [hk', computeOrLoop_typeError (default_invoke kind obj nm unitary unit latents _ _ _ u)] at hb
    cases hb
  by_cases hkind : k.kind = .fail
  · rw [calcDegVals_fail hkind] at hm
    obtain ⟨_, _, hm, -⟩ := M.bind_eq_ok.1 hm
    exact base _ _ _ hm
  · rw [calcDegVals_other hkind] at hm
    exact base _ _ _ hm

/-! ## C25: samples past the limit keep their value -/

theorem base_values [InfLaw V] (m : MechMdl W V) {times pre : Arr3 V} {conds lat : Dict (Arr3 V)}
    {L C D : Nat} (ht : times.HasDims L C D) (hp : pre.HasDims L C D)
    (hfin : ∀ l < L, ∀ c < C, ∀ d < D, PyArith.lt (PyArith.ofRat 9000000000) (times.at' l c d) = true →
      PyArith.eq (pre.at' l c d) PyNum.inf = false)
    {deg : PyVal V} {w w' : W}
    (hdeg : computeOrLoop m.mdl.compute (m.args times conds lat) L C D w = (.ok deg, w'))
    (hfit : deg.toArr.Fits L C D) :
    m.calcDegBase times pre conds lat L C D w = (.ok (Arr3.ofFn L C D fun l c d =>
      if PyArith.lt (PyArith.ofRat 9000000000) (times.at' l c d) = true then pre.at' l c d
      else deg.toArr.bat l c d), w') := by
  unfold MechMdl.calcDegBase
  rw [Arr3.bcast2_same _ _ _ ht hp, M.bind_ok (M.ofExcept_run _ _), M.bind_ok hdeg,
    bcast2_fits _ _ _ (Arr3.ofFn_hasDims L C D _) hfit, M.ofExcept_run]
  refine congrArg (fun a => (Except.ok a, w')) ?_
  apply Arr3.ofFn_congr
  intro l hl c hc d hd
  rw [Arr3.at_ofFn _ hl hc hd]
  unfold pastLimit PyArith.gt
  by_cases hlt : PyArith.lt (PyArith.ofRat 9000000000) (times.at' l c d) = true
  · rw [if_pos hlt, if_pos hlt, hfin l hl c hc d hd hlt]; rfl
  · rw [if_neg hlt, if_neg hlt, InfLaw.eq_inf]; rfl

/-- C25 (for values other than infinity): when the equation returned `deg`, every sample whose time
exceeds 9e9 keeps its previous value, and every other sample gets the equation's value. Missing: a
previous value of infinity (`C25_infinite_violated`). -/
theorem C25_values_partial [InfLaw V] (m : MechMdl W V) (hk : m.kind ≠ .fail) {times pre : Arr3 V}
    {conds lat : Dict (Arr3 V)} {L C D : Nat} (ht : times.HasDims L C D) (hp : pre.HasDims L C D)
    (hfin : ∀ l < L, ∀ c < C, ∀ d < D, PyArith.lt (PyArith.ofRat 9000000000) (times.at' l c d) = true →
      PyArith.eq (pre.at' l c d) PyNum.inf = false)
    {deg : PyVal V} {w w' : W}
    (hdeg : computeOrLoop m.mdl.compute (m.args times conds lat) L C D w = (.ok deg, w'))
    (hfit : deg.toArr.Fits L C D) :
    ∃ v, m.calcDegVals times pre conds lat L C D w = (.ok v, w') ∧ v.HasDims L C D ∧
      ∀ l < L, ∀ c < C, ∀ d < D, v.at' l c d =
        if PyArith.lt (PyArith.ofRat 9000000000) (times.at' l c d) = true then pre.at' l c d
        else deg.toArr.bat l c d := by
  refine ⟨_, by rw [calcDegVals_other hk, base_values m ht hp hfin hdeg hfit], Arr3.ofFn_hasDims _ _ _ _, ?_⟩
  intro l hl c hc d hd
  rw [Arr3.at_ofFn _ hl hc hd]

/-- C25 for failure mechanisms: as for the others, except that a failed sample keeps its value anyway. -/
theorem C25_fail_partial [InfLaw V] (m : MechMdl W V) (hk : m.kind = .fail) {times pre : Arr3 V}
    {conds lat : Dict (Arr3 V)} {L C D : Nat} (ht : times.HasDims L C D) (hp : pre.HasDims L C D)
    (hfin : ∀ l < L, ∀ c < C, ∀ d < D, PyArith.lt (PyArith.ofRat 9000000000) (times.at' l c d) = true →
      PyArith.eq (pre.at' l c d) PyNum.inf = false)
    {deg : PyVal V} {w w' : W}
    (hdeg : computeOrLoop m.mdl.compute (m.args times conds lat) L C D w = (.ok deg, w'))
    (hfit : deg.toArr.Fits L C D) :
    ∃ v, m.calcDegVals times pre conds lat L C D w = (.ok v, w') ∧ v.HasDims L C D ∧
      ∀ l < L, ∀ c < C, ∀ d < D, v.at' l c d =
        if PyArith.eq (pre.at' l c d) m.unitary = false ∨
            PyArith.lt (PyArith.ofRat 9000000000) (times.at' l c d) = true then pre.at' l c d
        else deg.toArr.bat l c d := by
  have hb := base_values m ht hp hfin hdeg hfit
  refine ⟨_, by
    rw [calcDegVals_fail hk, M.bind_ok hb, Arr3.bcast2_same _ _ _ hp (Arr3.ofFn_hasDims L C D _)]
    rfl, Arr3.ofFn_hasDims _ _ _ _, ?_⟩
  intro l hl c hc d hd
  rw [Arr3.at_ofFn _ hl hc hd, Arr3.at_ofFn _ hl hc hd]
  cases PyArith.eq (pre.at' l c d) m.unitary <;> simp

omit [PyNum V] in
/-- The arguments the equation receives: the time of the sample (unless a latent variable or condition is
called 'time'), the latent variables and the conditions it names. -/
theorem C25_arguments (m : MechMdl W V) (times : Arr3 V) (conds lat : Dict (Arr3 V)) (k : String) :
    (m.args times conds lat).get? k =
      if k ∈ m.mdl.compute.argNames ∧ lat.has k = true then (lat.get? k).map .arr
      else if k ∈ m.mdl.compute.argNames ∧ conds.has k = true then (conds.get? k).map .arr
      else if k = "time" then some (.arr times) else none := by
  unfold MechMdl.args
  rw [fillArgs_get?]
  unfold lookup2 Dict.has
  by_cases hk : k ∈ m.mdl.compute.argNames
  · cases h1 : lat.get? k with
    | some a => simp [hk]
    | none =>
      cases h2 : conds.get? k with
      | some a => simp [hk]
      | none =>
        by_cases ht : k = "time"
        · subst ht; simp [Dict.get?_cons]
        · simp [Dict.get?_cons, ht, Ne.symm ht]
  · by_cases ht : k = "time"
    · subst ht; simp [hk, Dict.get?_cons]
    · simp [hk, Dict.get?_cons, ht, Ne.symm ht]

/-- C25 for an equation that acts elementwise as `g`: the value of a sample within the limit is `g` of
that sample's time, latent values and conditions. -/
theorem C25_elementwise_partial [InfLaw V] (m : MechMdl W V) (hk : m.kind ≠ .fail)
    {g : Dict (PyVal V) → V} (hg : Elementwise m.mdl.compute g) {times pre : Arr3 V}
    {conds lat : Dict (Arr3 V)} {L C D : Nat} (ht : times.HasDims L C D) (hp : pre.HasDims L C D)
    (hc : ∀ k a, conds.get? k = some a → a.HasDims L C D)
    (hl : ∀ k a, lat.get? k = some a → a.HasDims L C D)
    (hacc : m.mdl.compute.accepts (m.args times conds lat) = true)
    (hfin : ∀ l < L, ∀ c < C, ∀ d < D, PyArith.lt (PyArith.ofRat 9000000000) (times.at' l c d) = true →
      PyArith.eq (pre.at' l c d) PyNum.inf = false) (w : W) :
    ∃ v, m.calcDegVals times pre conds lat L C D w = (.ok v, w) ∧ v.HasDims L C D ∧
      ∀ l < L, ∀ c < C, ∀ d < D, v.at' l c d =
        if PyArith.lt (PyArith.ofRat 9000000000) (times.at' l c d) = true then pre.at' l c d
        else g (sampleArgs (m.args times conds lat) l c d) := by
  obtain ⟨r, h1, h2, h3⟩ := args_elementwise hg ht hc hl hacc w
  have hcl : computeOrLoop m.mdl.compute (m.args times conds lat) L C D w = (.ok (.arr r), w) := by
    unfold computeOrLoop M.catchValueError
    rw [h1]
  obtain ⟨v, e1, e2, e3⟩ := C25_values_partial m hk ht hp hfin hcl
    ⟨.inl h2.1, .inl h2.2.1, .inl h2.2.2⟩
  refine ⟨v, e1, e2, ?_⟩
  intro l hl' c hc' d hd'
  rw [e3 l hl' c hc' d hd', ← h3 l hl' c hc' d hd']
  obtain ⟨q1, q2, q3⟩ := h2
  rw [show (PyVal.arr r).toArr = r from rfl,
    Arr3.bat_of_lt r (by rw [q1]; exact hl') (by rw [q2]; exact hc') (by rw [q3]; exact hd')]

/-- C25 is violated when the previous value is infinity: it is the marker of "not past the limit", so the
sample gets the equation's value although its time exceeds 9e9. -/
theorem C25_infinite_violated :
    ∃ (m : MechMdl Counts Ex.Q) (times pre v : Arr3 Ex.Q) (conds : Dict (Arr3 Ex.Q)),
      m.kind = .deg ∧ PyArith.lt (PyArith.ofRat 9000000000) (times.at' 0 0 0) = true ∧
      (m.calcDegVals times pre conds [] 1 1 1 Counts.start).1 = .ok v ∧
      v.at' 0 0 0 ≠ pre.at' 0 0 0 :=
  ⟨Ex.drift, Arr3.full 1 1 1 (.fin 10000000000), Arr3.full 1 1 1 .pinf,
    Arr3.full 1 1 1 (.fin 20000000000), [("temp", Arr3.full 1 1 1 (.fin 2))], by decide +kernel⟩

/-- Two devices of `drift` at `temp = 2`: the first past the limit keeps 7, the second becomes 3 * 2. -/
example : (Ex.drift.calcDegVals ⟨1, 1, 2, [.fin 9000000001, .fin 3], rfl⟩ ⟨1, 1, 2, [.fin 7, .fin 1], rfl⟩
    [("temp", Arr3.full 1 1 2 (.fin 2))] [] 1 1 2 Counts.start).1 =
    .ok ⟨1, 1, 2, [.fin 7, .fin 6], rfl⟩ := by
  decide +kernel

/-- Two devices of `burn`: the failed one stays at 4, the other fails at `temp = 200`. -/
example : (Ex.burn.calcDegVals ⟨1, 1, 2, [.fin 3, .fin 3], rfl⟩ ⟨1, 1, 2, [.fin 4, .fin 0], rfl⟩
    [("temp", Arr3.full 1 1 2 (.fin 200))] [] 1 1 2 Counts.start).1 =
    .ok ⟨1, 1, 2, [.fin 4, .fin 5], rfl⟩ := by
  decide +kernel

/-- A stress step with a default mechanism raises. -/
example : (DegPrmMdl.calcEquivTimes (Ex.degPrm [("none", MechMdl.mk' .deg 0 none none (.fin 0) none [])]
    (.fin 3)) 1 1 1 [("none", Arr3.full 1 1 1 (.fin 0))] [] [("none", Arr3.full 1 1 1 (.fin 0))]
    [("none", .sub [])] Counts.start).1 = .error .typeError := by
  decide +kernel

end Gerabaldi.Props
