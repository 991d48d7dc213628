import Verif.Spec.Exchange
import Verif.Props.Others

/-!
# The order of the devices does not matter (C101)
-/

namespace Gerabaldi.Props

open Gerabaldi Gerabaldi.Spec

variable {W W' V : Type} [PyNum V]

/-- Simultaneous searches take as many rounds in any order. -/
theorem commonRounds_reorder {cfg : MinCfg V} {f : Nat × Nat × Nat → Nat × Nat × Nat} {L C n L' C' n' : Nat}
    (hf : Reorders f L C n L' C' n') {x x' : Nat → Nat → Nat → V → V}
    (h : ∀ l < L', ∀ c < C', ∀ d < n', x' l c d = x (f (l, c, d)).1 (f (l, c, d)).2.1 (f (l, c, d)).2.2) :
    commonRounds cfg L' C' n' x' = commonRounds cfg L C n x := by
  have : ∀ k, allSamples L' C' n' (fun l ch d => (searchState cfg (x' l ch d) k).done cfg) =
      allSamples L C n (fun l ch d => (searchState cfg (x l ch d) k).done cfg) := by
    intro k
    rw [Bool.eq_iff_iff, allSamples_iff, allSamples_iff]
    constructor
    · intro hall l hl ch hc d hd
      obtain ⟨l', hl', c', hc', d', hd', e⟩ := hf.onto l hl ch hc d hd
      have := hall l' hl' c' hc' d' hd'
      rw [h l' hl' c' hc' d' hd', e] at this
      exact this
    · intro hall l hl ch hc d hd
      rw [h l hl ch hc d hd]
      obtain ⟨a, b, c⟩ := hf.into l hl ch hc d hd
      exact hall _ a _ b _ c
  unfold commonRounds
  simp only [this]

/-- **C101**, histories: the same devices in another order, with copies of some or in other lots and chips, degrade
exactly as before. -/
theorem C101_history {k : MechMdl W V} {k' : MechMdl W' V} (hk : k'.kind = k.kind) (hu : k'.unitary = k.unitary)
    {g : (String → V) → V} {unit : TUnit} {lat lat' : Dict (Arr3 V)} {phases phases' : List (Phase V)}
    {f : Nat × Nat × Nat → Nat × Nat × Nat} {L C n L' C' n' : Nat} (hf : Reorders f L C n L' C' n')
    (h : ∀ l < L', ∀ c < C', ∀ d < n', SameDevice lat' lat phases' phases (l, c, d) (f (l, c, d)))
    {l c d : Nat} (hl : l < L') (hc : c < C') (hd : d < n') :
    mechHistory k' g unit lat' L' C' n' phases' l c d =
      mechHistory k g unit lat L C n phases (f (l, c, d)).1 (f (l, c, d)).2.1 (f (l, c, d)).2.2 := by
  have hlen : phases'.length = phases.length := (h l hl c hc d hd).phases.length_eq
  have hgen : ∀ (v v' : Nat → Nat → Nat → V),
      (∀ l < L', ∀ c < C', ∀ d < n', v' l c d = v (f (l, c, d)).1 (f (l, c, d)).2.1 (f (l, c, d)).2.2) →
      ∀ l < L', ∀ c < C', ∀ d < n', phases'.foldl (phaseValues k' g unit lat' L' C' n') v' l c d =
        phases.foldl (phaseValues k g unit lat L C n) v (f (l, c, d)).1 (f (l, c, d)).2.1 (f (l, c, d)).2.2 := by
    clear hl hc hd l c d
    induction phases' generalizing phases with
    | nil =>
      intro v v' hv l hl c hc d hd
      have : phases = [] := List.length_eq_zero_iff.1 hlen.symm
      subst this
      exact hv l hl c hc d hd
    | cons ph' rest' ih =>
      intro v v' hv
      cases phases with
      | nil => cases hlen
      | cons ph rest =>
        have hh : ∀ l < L', ∀ c < C', ∀ d < n', (ph'.duration = ph.duration ∧
            condAt ph'.conds l c d = condAt ph.conds (f (l, c, d)).1 (f (l, c, d)).2.1 (f (l, c, d)).2.2) ∧
            List.Forall₂ (fun a b : Phase V => a.duration = b.duration ∧ condAt a.conds l c d =
              condAt b.conds (f (l, c, d)).1 (f (l, c, d)).2.1 (f (l, c, d)).2.2) rest' rest := fun l hl c hc d hd =>
          List.forall₂_cons.1 (h l hl c hc d hd).phases
        refine ih (phases := rest) (fun l hl c hc d hd => ⟨(h l hl c hc d hd).lat, (hh l hl c hc d hd).2⟩)
          (Nat.succ.inj hlen) _ _ ?_
        intro l hl c hc d hd
        have e1 : condAt lat' l c d = condAt lat (f (l, c, d)).1 (f (l, c, d)).2.1 (f (l, c, d)).2.2 :=
          (h l hl c hc d hd).lat
        obtain ⟨⟨e2, e3⟩, -⟩ := hh l hl c hc d hd
        unfold phaseValues
        rw [hk, hu, hv l hl c hc d hd, e1, e2, e3]
        congr 1
        refine commonRounds_reorder hf fun l hl c hc d hd => ?_
        have e1 : condAt lat' l c d = condAt lat (f (l, c, d)).1 (f (l, c, d)).2.1 (f (l, c, d)).2.2 :=
          (h l hl c hc d hd).lat
        obtain ⟨⟨-, e3⟩, -⟩ := hh l hl c hc d hd
        rw [hv l hl c hc d hd, e1, e3]
  exact hgen _ _ (fun _ _ _ _ _ _ => hu) l hl c hc d hd

/-- **C101**, values: the same devices in another order have the same true values after the same stress. -/
theorem C101_true {m : DegPrmMdl W V} {g : (String → V) → V} {gm : String → (String → V) → V} {um : String → TUnit}
    {lat lat' : Dict (LatNode V)} {phases phases' : List (Phase V)} {f : Nat × Nat × Nat → Nat × Nat × Nat}
    {L C n L' C' n' : Nat} (hf : Reorders f L C n L' C' n')
    (h : ∀ l < L', ∀ c < C', ∀ d < n', SameLatents lat' lat (l, c, d) (f (l, c, d)) ∧
      LikeStress phases' phases (l, c, d) (f (l, c, d)))
    {l c d : Nat} (hl : l < L') (hc : c < C') (hd : d < n') (init : V) :
    trueAfter m g gm um init lat' L' C' n' phases' l c d =
      trueAfter m g gm um init lat L C n phases (f (l, c, d)).1 (f (l, c, d)).2.1 (f (l, c, d)).2.2 := by
  obtain ⟨a1, a2⟩ := h l hl c hc d hd
  have hlen : phases'.isEmpty = phases.isEmpty := by
    have := List.Forall₂.length_eq a2
    rw [Bool.eq_iff_iff, List.isEmpty_iff_length_eq_zero, List.isEmpty_iff_length_eq_zero, this]
  have e1 : ownAt lat' l c d = ownAt lat (f (l, c, d)).1 (f (l, c, d)).2.1 (f (l, c, d)).2.2 := a1.own
  have e2 : mechsAfter m gm um lat' L' C' n' phases' l c d =
      mechsAfter m gm um lat L C n phases (f (l, c, d)).1 (f (l, c, d)).2.1 (f (l, c, d)).2.2 := by
    funext mech
    unfold mechsAfter
    congr 1
    funext k
    exact C101_history rfl rfl hf (fun l hl c hc d hd => ⟨(h l hl c hc d hd).1.parts mech, (h l hl c hc d hd).2⟩) hl hc hd
  unfold trueAfter
  rw [hlen, e1, e2]

/-- **C101**, readings: instruments see the same, if the devices are measured under the same conditions. -/
theorem C101_shown {m : DegPrmMdl W V} {g gc : (String → V) → V} {gm : String → (String → V) → V} {um : String → TUnit}
    {lat lat' : Dict (LatNode V)} {phases phases' : List (Phase V)} {f : Nat × Nat × Nat → Nat × Nat × Nat}
    {L C n L' C' n' : Nat} (hf : Reorders f L C n L' C' n')
    (h : ∀ l < L', ∀ c < C', ∀ d < n', SameLatents lat' lat (l, c, d) (f (l, c, d)) ∧
      LikeStress phases' phases (l, c, d) (f (l, c, d)))
    {l c d : Nat} (hl : l < L') (hc : c < C') (hd : d < n') {cs cs' : Dict (Arr3 V)}
    (hcs : condAt cs' l c d = condAt cs (f (l, c, d)).1 (f (l, c, d)).2.1 (f (l, c, d)).2.2) (init : V) :
    shownAfter m g gc (trueAfter m g gm um init lat' L' C' n' phases' l c d) lat' cs' l c d =
      shownAfter m g gc (trueAfter m g gm um init lat L C n phases (f (l, c, d)).1 (f (l, c, d)).2.1 (f (l, c, d)).2.2)
        lat cs (f (l, c, d)).1 (f (l, c, d)).2.1 (f (l, c, d)).2.2 := by
  obtain ⟨a1, a2⟩ := h l hl c hc d hd
  have e1 : ownAt lat' l c d = ownAt lat (f (l, c, d)).1 (f (l, c, d)).2.1 (f (l, c, d)).2.2 := a1.own
  have e2 := a1.parts "cond"
  simp only at e2
  rw [C101_true hf h hl hc hd]
  unfold shownAfter
  rw [e1, e2, hcs]

/-- Two devices on a chip with offsets 1 and 3. -/
def pair : Dict (Arr3 Ex.Q) := [("offset", ⟨1, 1, 2, [.fin 1, .fin 3], rfl⟩)]

/-- The same devices in three lots, with the second one first and a copy of it in the last lot. -/
def trio : Dict (Arr3 Ex.Q) := [("offset", ⟨3, 1, 1, [.fin 3, .fin 1, .fin 3], rfl⟩)]

/-- Which device is where. -/
def trioOf (p : Nat × Nat × Nat) : Nat × Nat × Nat := if p.1 = 1 then (0, 0, 0) else (0, 0, 1)

theorem trio_reorders : Reorders trioOf 1 1 2 3 1 1 := by
  refine ⟨?_, ?_⟩
  · decide
  · intro l hl c hc d hd
    obtain rfl : l = 0 := by omega
    obtain rfl : c = 0 := by omega
    obtain rfl | rfl : d = 0 ∨ d = 1 := by omega
    · exact ⟨1, by decide, 0, by decide, 0, by decide, rfl⟩
    · exact ⟨0, by decide, 0, by decide, 0, by decide, rfl⟩

theorem trio_parts (part k : String) (p : Nat × Nat × Nat) (hl : p.1 < 3) (hc : p.2.1 < 1) (hd : p.2.2 < 1) :
    condAt (partLatents [("drift", .sub trio)] part) p.1 p.2.1 p.2.2 k =
      condAt (partLatents [("drift", .sub pair)] part) (trioOf p).1 (trioOf p).2.1 (trioOf p).2.2 k := by
  obtain ⟨l, c, d⟩ := p
  simp only at hl hc hd
  obtain rfl : c = 0 := by omega
  obtain rfl : d = 0 := by omega
  by_cases hp : part = "drift"
  · subst hp
    by_cases hk : k = "offset"
    · subst hk
      obtain rfl | rfl | rfl : l = 0 ∨ l = 1 ∨ l = 2 := by omega
      · rfl
      · rfl
      · rfl
    · simp [partLatents, Dict.get?_cons, condAt, trio, pair, Ne.symm hk]
  · simp [partLatents, Dict.get?_cons, Ne.symm hp, condAt]

/-- However the devices degrade, the one in the second lot has after two hours what the first one on the chip has. -/
example (m : DegPrmMdl Counts Ex.Q) (g : (String → Ex.Q) → Ex.Q) (gm : String → (String → Ex.Q) → Ex.Q)
    (um : String → TUnit) : trueAfter m g gm um (.fin 5) [("drift", .sub trio)] 3 1 1 [⟨.td 3600000000, []⟩, ⟨.td 3600000000, []⟩]
      1 0 0 = trueAfter m g gm um (.fin 5) [("drift", .sub pair)] 1 1 2 [⟨.td 3600000000, []⟩, ⟨.td 3600000000, []⟩] 0 0 0 := by
  refine C101_true trio_reorders (fun l hl c hc d hd => ⟨⟨?_, fun part => funext fun k =>
    trio_parts part k (l, c, d) hl hc hd⟩, ?_⟩) (by decide) (by decide) (by decide) _
  · funext k
    simp only [ownAt, Dict.get?_cons]
    split <;> split <;> simp_all
  · exact .cons ⟨rfl, rfl⟩ (.cons ⟨rfl, rfl⟩ .nil)

end Gerabaldi.Props
