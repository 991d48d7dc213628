import Verif.Props.Run
import Verif.Lemmas.EnvOrder

/-!
# Property C19 for whole simulations: the iteration order of sets does not matter
-/

namespace Gerabaldi.Props

open Gerabaldi Gerabaldi.Spec

variable {W V : Type} [PyNum V]

omit [PyNum V] in
theorem args_same (m : MechMdl W V) (t : Arr3 V) {c c' : Dict (Arr3 V)} (h : SameDict c c')
    (lat : Dict (Arr3 V)) : m.args t c lat = m.args t c' lat := by
  unfold MechMdl.args
  have : lookup2 lat c = lookup2 lat c' := by
    funext a; unfold lookup2; rw [h a]
  rw [this]

theorem degStep_same (times : Dict (Arr3 V)) {c c' : Dict (Arr3 V)} (h : SameDict c c')
    (lat : Dict (LatNode V)) (cur : Dict (Arr3 V)) (L C D : Nat) :
    (DegPrmMdl.degStep times c lat cur L C D : _ → String × MechMdl W V → M W _) =
      DegPrmMdl.degStep times c' lat cur L C D := by
  funext acc kv
  unfold DegPrmMdl.degStep MechMdl.calcDegVals MechMdl.calcDegBase
  simp only [args_same _ _ h]

theorem equivStep_same {c c' : Dict (Arr3 V)} (h : SameDict c c')
    (lat : Dict (LatNode V)) (im cur : Dict (Arr3 V)) (L C D : Nat) :
    (DegPrmMdl.equivStep c lat im cur L C D : _ → String × MechMdl W V → M W _) =
      DegPrmMdl.equivStep c' lat im cur L C D := by
  have : ∀ (m : MechMdl W V) a l, m.residue a c l L C D = m.residue a c' l L C D := by
    intro m a l
    funext pts
    unfold MechMdl.residue MechMdl.residueArr
    simp only [args_same _ _ h]
  funext acc kv
  unfold DegPrmMdl.equivStep MechMdl.calcEquiv MechMdl.calcEquivSearch
  simp only [this]

omit [PyNum V] in
theorem getE_same {α : Type} {r r' : Dict (Dict (Arr3 V))} (h : CondsEq r r') (k : String)
    {f : Dict (Arr3 V) → M W α} (hf : ∀ c c', SameDict c c' → f c = f c') :
    (M.ofExcept (r.getE k) >>= f) = (M.ofExcept (r'.getE k) >>= f) := by
  have hk := h.get? k
  unfold Dict.getE
  revert hk
  cases r.get? k <;> cases r'.get? k <;> intro hk
  · rfl
  · exact hk.elim
  · exact hk.elim
  · exact hf _ _ hk

/-- The same for the conditions of all parameters. -/
theorem stressPrm_same {q : Quantities} {d : TimeVal} {r r' : Dict (Dict (Arr3 V))} (h : CondsEq r r')
    (s : SimState V) (kv : String × DegPrmMdl W V) :
    stressPrm q d r s kv = stressPrm q d r' s kv := by
  unfold stressPrm
  congr 1; funext n
  congr 1; funext cur
  refine getE_same h _ fun c c' hc => ?_
  unfold DegPrmMdl.calcEquivTimes DegPrmMdl.calcDegVals
  simp only [equivStep_same hc, degStep_same _ hc]

theorem measureTrue_same {q : Quantities} {dev : DeviceMdl W V} {m : MeasSpec V} {i : Nat}
    {r r' : Dict (Dict (Arr3 V))} (h : CondsEq r r') (s : SimState V) (prm : String) (n : Nat) :
    measureTrue q dev m i s r prm n = measureTrue q dev m i s r' prm n := by
  have e1 : ∀ {c c' : Dict (Arr3 V)}, SameDict c c' → ∀ (m : LatentMdl W V) lat L C D,
      calcCondVals m c lat L C D = calcCondVals m c' lat L C D := by
    intro c c' hk m lat L C D
    unfold calcCondVals
    have : lookup2 lat c = lookup2 lat c' := by
      funext a; unfold lookup2; rw [hk a]
    rw [this]
  have e2 : ∀ {c c' : Dict (Arr3 V)}, SameDict c c' → ∀ (m : LatentMdl W V) pv lat,
      circArgs m c pv lat = circArgs m c' pv lat := by
    intro c c' hk m pv lat
    unfold circArgs
    simp only [hk _]
  unfold measureTrue
  split
  · split
    · refine getE_same h _ fun c c' hc => ?_
      unfold DegPrmMdl.calcCondShifted
      simp only [e1 hc]
    · rfl
  · split
    · refine getE_same h _ fun c c' hc => ?_
      unfold calcCircVals
      simp only [e2 hc]
    · rfl
    · split
      · refine getE_same h _ fun c c' hc => ?_
        unfold Dict.getE
        rw [hc prm]
      · rfl

variable [Rng W V]

/-- No two conditions of a step vary per device with the same generator. -/
def IndependentConds (env : PhysTestEnv V) (st : Step V) : Prop :=
  ∀ c ∈ (stepConditions st).keys, ∀ c' ∈ (stepConditions st).keys, c ≠ c' →
    Independent (env.vrtnMdl c).dev (env.vrtnMdl c').dev

theorem stepDelta_order [LawfulRng W V] {env : PhysTestEnv V} {dev : DeviceMdl W V} {q : Quantities}
    {i : Nat} {st : Step V} (hi : IndependentConds env st) (o1 o2 : SetOrder) {s : SimState V}
    {d : Delta V} {w w' : W} (h : stepDelta o1 dev env q i st s w = (.ok d, w')) :
    stepDelta o2 dev env q i st s w = (.ok d, w') := by
  cases st with
  | strs st =>
    unfold stepDelta strsDelta at h ⊢
    obtain ⟨conds, w1, h1, h⟩ := M.bind_eq_ok.1 h
    obtain ⟨conds', h1', he⟩ := genEnvCondVals_order hi o1 o2 h1
    refine (M.bind_ok h1').trans ?_
    rw [show stressPrm q st.duration conds' = stressPrm q st.duration conds from by
      funext s kv; exact (stressPrm_same he s kv).symm]
    exact h
  | meas m =>
    unfold stepDelta measDelta at h ⊢
    obtain ⟨conds, w1, h1, h⟩ := M.bind_eq_ok.1 h
    obtain ⟨conds', h1', he⟩ := genEnvCondVals_order hi o1 o2 h1
    refine (M.bind_ok h1').trans ?_
    rw [show measurePrm q dev env m i s conds' = measurePrm q dev env m i s conds from by
      funext acc kv; unfold measurePrm; rw [measureTrue_same he]]
    exact h
  | other t => exact h

/-- **C19** for the simulation loop: the steps have the same outcome for every iteration order of sets. -/
theorem C19_steps [LawfulRng W V] {env : PhysTestEnv V} {dev : DeviceMdl W V} {i : Nat}
    {steps : List (Step V)} (hi : ∀ st ∈ steps, IndependentConds env st) (o1 o2 : SetOrder)
    {sr sr' : SimState V × SimReport V} {w w' : W}
    (h : runSteps o1 dev env i steps sr w = (.ok sr', w')) :
    runSteps o2 dev env i steps sr w = (.ok sr', w') := by
  obtain ⟨s, r⟩ := sr
  obtain ⟨s', r'⟩ := sr'
  obtain ⟨rows, lines, hd, rfl⟩ := runSteps_ok.1 h
  refine runSteps_ok.2 ⟨rows, lines, ?_, rfl⟩
  clear h
  generalize r.info = q at hd ⊢
  induction steps generalizing i s rows lines w with
  | nil => exact hd
  | cons st rest ih =>
    obtain ⟨s1, rows1, lines1, rows2, lines2, w1, h1, h2, rfl, rfl⟩ := runDelta_cons_ok.1 hd
    exact runDelta_cons_ok.2 ⟨_, _, _, _, _, _, stepDelta_order (hi st List.mem_cons_self) o1 o2 h1,
      ih (fun st hst => hi st (List.mem_cons_of_mem _ hst)) _ _ _ h2, rfl, rfl⟩

/-- **C19** for whole simulations: report and random state are the same for every iteration order of sets
(every hash seed), if no two conditions of a step share the generator of their device layers. -/
theorem C19_simulate [LawfulRng W V] {env : PhysTestEnv V} {dev : DeviceMdl W V} {test : TestSpec V}
    {init : Option (SimState V)} (hi : ∀ st ∈ test.steps, IndependentConds env st) (o1 o2 : SetOrder)
    {r : SimReport V} {w w' : W} (h : simulate o1 test dev env init w = (.ok r, w')) :
    simulate o2 test dev env init w = (.ok r, w') := by
  unfold simulate simulateFull at h ⊢
  obtain ⟨sr, hf, rfl⟩ := M.bind_pure_ok.1 h
  obtain ⟨sr0, w0, h0, hf⟩ := M.bind_eq_ok.1 hf
  exact M.bind_pure_ok.2 ⟨sr, M.bind_eq_ok.2 ⟨sr0, w0, h0, C19_steps hi o1 o2 hf⟩, rfl⟩

/-- A test whose step uses both varying conditions. -/
def orderTest : TestSpec Ex.Q :=
  { steps := [.meas ⟨[("vth", 2)], exBase, "read"⟩], numChps := 1, numLots := 1, name := "",
    description := "" }

example : ∀ st ∈ orderTest.steps, IndependentConds (exEnv2 3 4) st := by
  intro st hst c hc c' hc' hne
  simp only [orderTest, List.mem_singleton] at hst
  subst hst
  simp only [stepConditions, exBase, Dict.keys, List.map_cons, List.map_nil, List.mem_cons,
    List.not_mem_nil, or_false] at hc hc'
  rcases hc with rfl | rfl <;> rcases hc' with rfl | rfl
  · exact absurd rfl hne
  · exact .inr (.inr (by decide +kernel))
  · exact .inr (.inr (by decide +kernel))
  · exact absurd rfl hne

example : ∃ r, (simulate Ex.orderA orderTest exTwo (exEnv2 3 4) none Counts.start).1 = .ok r ∧
    (r.measurements.length == 2) = true := exists_ok (by decide +kernel)

end Gerabaldi.Props
