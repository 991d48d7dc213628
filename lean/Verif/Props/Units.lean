import Verif.Spec.Units
import Verif.Spec.ExampleDevice

/-! # Time units of mechanisms (C32) -/

namespace Gerabaldi.Props
open Spec

section units
variable {W V : Type}

/-- All assignments of a device in order: object and unit offered to it. -/
def occs (dev : DeviceMdl W V) : List (Nat × Option String) :=
  dev.prms.flatMap fun kv => match kv.2 with
    | .circ _ => []
    | .deg m => m.mechs.filterMap fun km => match km.2.kind with
      | .base => none
      | _ => some (km.2.obj, prmTimeUnit m.timeUnit dev.timeUnit)

theorem propagate_eq (dev : DeviceMdl W V) (h : UnitHeap) :
    dev.propagate h = (occs dev).foldl (fun h p => setTimeUnit h p.1 p.2) h := by
  unfold DeviceMdl.propagate occs
  generalize dev.timeUnit = u
  induction dev.prms generalizing h with
  | nil => rfl
  | cons kv l ih =>
    simp only [List.foldl_cons, List.flatMap_cons, List.foldl_append]
    rw [ih]
    congr 1
    unfold propagatePrm
    cases kv.2 with
    | circ c => rfl
    | deg m =>
      simp only
      generalize prmTimeUnit m.timeUnit u = pu
      induction m.mechs generalizing h with
      | nil => rfl
      | cons km l ih2 =>
        simp only [List.foldl_cons, List.filterMap_cons, propagateMech]
        cases hk : km.2.kind <;> simp only [List.foldl_cons] <;> exact ih2 _

theorem mem_occs {dev : DeviceMdl W V} {o : Nat} {u : Option String} :
    (o, u) ∈ occs dev ↔ ∃ p m, HasMech dev p m ∧ m.obj = o ∧
      prmTimeUnit p.timeUnit dev.timeUnit = u := by
  unfold occs HasMech
  constructor
  · intro h
    obtain ⟨kv, h1, h2⟩ := List.mem_flatMap.1 h
    cases hkv : kv.2 with
    | circ c => rw [hkv] at h2; simp at h2
    | deg m =>
      rw [hkv] at h2
      obtain ⟨km, h3, h4⟩ := List.mem_filterMap.1 h2
      refine ⟨m, km.2, ⟨⟨kv.1, ?_⟩, ⟨km.1, h3⟩, ?_⟩, ?_⟩
      · rw [← hkv]; exact h1
      · intro e; rw [e] at h4; cases h4
      · cases hk : km.2.kind <;> rw [hk] at h4 <;> simp at h4 <;> exact h4
  · rintro ⟨p, m, ⟨⟨prm, h1⟩, ⟨mech, h2⟩, h3⟩, rfl, rfl⟩
    refine List.mem_flatMap.2 ⟨_, h1, List.mem_filterMap.2 ⟨_, h2, ?_⟩⟩
    cases hk : m.kind
    · rfl
    · rfl
    · exact absurd hk h3

theorem setTimeUnit_other {h : UnitHeap} {o o' : Nat} {u : Option String} (hne : o ≠ o') :
    setTimeUnit h o' u o = h o := by
  unfold setTimeUnit; simp [hne]

theorem setTimeUnit_set {h : UnitHeap} {o o' : Nat} {u : Option String} {s : String}
    (hs : h o = some s) : setTimeUnit h o' u o = some s := by
  unfold setTimeUnit
  by_cases e : o = o'
  · subst e; simp [hs]
  · simp [e, hs]

theorem fold_set {l : List (Nat × Option String)} {h : UnitHeap} {o : Nat} {s : String}
    (hs : h o = some s) : l.foldl (fun h p => setTimeUnit h p.1 p.2) h o = some s := by
  induction l generalizing h with
  | nil => exact hs
  | cons p l ih => exact ih (setTimeUnit_set hs)

theorem fold_not_mem {l : List (Nat × Option String)} {h : UnitHeap} {o : Nat}
    (hn : ∀ p ∈ l, p.1 ≠ o) : l.foldl (fun h p => setTimeUnit h p.1 p.2) h o = h o := by
  induction l generalizing h with
  | nil => rfl
  | cons p l ih =>
    simp only [List.foldl_cons]
    rw [ih fun q hq => hn q (List.mem_cons_of_mem _ hq)]
    exact setTimeUnit_other (Ne.symm (hn p List.mem_cons_self))

theorem fold_none {l : List (Nat × Option String)} {h : UnitHeap} {o : Nat} {u : Option String}
    (hn : h o = none) (hm : (o, u) ∈ l) (hu : ∀ u', (o, u') ∈ l → u'.getD "h" = u.getD "h") :
    l.foldl (fun h p => setTimeUnit h p.1 p.2) h o = some (u.getD "h") := by
  induction l generalizing h with
  | nil => cases hm
  | cons p l ih =>
    obtain ⟨o', u'⟩ := p
    simp only [List.foldl_cons]
    by_cases e : o = o'
    · subst e
      apply fold_set
      unfold setTimeUnit
      simp only [hn, and_self, if_true]
      rw [hu u' List.mem_cons_self]
    · have hm' : (o, u) ∈ l := by
        rcases List.mem_cons.1 hm with h1 | h1
        · cases h1; exact absurd rfl e
        · exact h1
      exact ih (by rw [setTimeUnit_other e]; exact hn) hm'
        fun u' h' => hu u' (List.mem_cons_of_mem _ h')

theorem fold_isSome {l : List (Nat × Option String)} {h : UnitHeap} {o : Nat} {u : Option String}
    (hm : (o, u) ∈ l) : ∃ s, l.foldl (fun h p => setTimeUnit h p.1 p.2) h o = some s := by
  induction l generalizing h with
  | nil => cases hm
  | cons q l ih =>
    simp only [List.foldl_cons]
    rcases List.mem_cons.1 hm with h1 | h1
    · subst h1
      cases hh : h o with
      | some s => exact ⟨s, fold_set (setTimeUnit_set hh)⟩
      | none => exact ⟨u.getD "h", fold_set (by unfold setTimeUnit; simp [hh])⟩
    · exact ih h1

theorem unitSpec_eq (own prm dev : Option String) :
    unitSpec own prm dev = own.getD ((prmTimeUnit prm dev).getD "h") := by
  unfold unitSpec prmTimeUnit given
  cases own with
  | some u => rfl
  | none =>
    cases prm with
    | none => cases dev <;> rfl
    | some s =>
      by_cases hs : s = ""
      · simp [hs]; cases dev <;> rfl
      · simp [hs, Option.filter]

/-- C32: after a device has been built every degradation or failure mechanism has its own unit if it had
one, else its parameter's, else the device's, else hours. Partial: if one mechanism object serves two
parameters, both parameters must come to the same unit (see `C32_shared_violated`). -/
theorem C32_precedence_partial (dev : DeviceMdl W V) (h : UnitHeap) {p : DegPrmMdl W V}
    {m : MechMdl W V} (hm : HasMech dev p m)
    (hs : ∀ p' m', HasMech dev p' m' → m'.obj = m.obj →
      unitSpec none p'.timeUnit dev.timeUnit = unitSpec none p.timeUnit dev.timeUnit) :
    dev.propagate h m.obj = some (unitSpec (h m.obj) p.timeUnit dev.timeUnit) := by
  rw [propagate_eq, unitSpec_eq]
  cases ho : h m.obj with
  | some s => exact fold_set ho
  | none =>
    have := fold_none (u := prmTimeUnit p.timeUnit dev.timeUnit) ho
      (mem_occs.2 ⟨p, m, hm, rfl, rfl⟩) (by
        intro u' hu'
        obtain ⟨p', m', h1, h2, rfl⟩ := mem_occs.1 hu'
        have := hs p' m' h1 h2
        rw [unitSpec_eq, unitSpec_eq] at this
        exact this)
    exact this

/-- C32: building a device touches no mechanism object outside of it. -/
theorem C32_others (dev : DeviceMdl W V) (h : UnitHeap) {o : Nat}
    (ho : ∀ p m, HasMech dev p m → m.obj ≠ o) : dev.propagate h o = h o := by
  rw [propagate_eq]
  apply fold_not_mem
  rintro ⟨o', u⟩ hp e
  obtain ⟨p', m', h1, h2, _⟩ := mem_occs.1 hp
  exact ho p' m' h1 (h2.trans e)

/-- C32: a unit, once set, is never changed by building any number of devices. -/
theorem C32_stable (devs : List (DeviceMdl W V)) (h : UnitHeap) {o : Nat} {s : String}
    (hs : h o = some s) : devs.foldl (fun h d => d.propagate h) h o = some s := by
  induction devs generalizing h with
  | nil => exact hs
  | cons d ds ih => exact ih _ (by show d.propagate h o = _; rw [propagate_eq]; exact fold_set hs)

/-- C32: building again with the same objects changes nothing. -/
theorem C32_idempotent (dev : DeviceMdl W V) (h : UnitHeap) :
    dev.propagate (dev.propagate h) = dev.propagate h := by
  funext o
  by_cases ho : ∃ p m, HasMech dev p m ∧ m.obj = o
  · obtain ⟨p, m, hm, rfl⟩ := ho
    have hne := fold_isSome (h := h) (mem_occs.2 ⟨p, m, hm, rfl, rfl⟩)
    rw [← propagate_eq] at hne
    obtain ⟨s, hs⟩ := hne
    rw [hs, propagate_eq]
    exact fold_set hs
  · apply C32_others
    intro p m hm e
    exact ho ⟨p, m, hm, e⟩

/-- C32 for the constructed device: the unit every mechanism ends up with. `h m.obj` is the unit the object
had before. Partial as `C32_precedence_partial`. -/
theorem C32_built_partial {prms : PrmArg W V} {u : Option String} {h h' : UnitHeap}
    {dev : DeviceMdl W V} (hd : DeviceMdl.mk' prms u h = .ok (dev, h')) {p : DegPrmMdl W V}
    {m : MechMdl W V} (hm : HasMech dev p m)
    (hs : ∀ p' m', HasMech dev p' m' → m'.obj = m.obj →
      unitSpec none p'.timeUnit u = unitSpec none p.timeUnit u) :
    m.timeUnit = some (unitSpec (h m.obj) p.timeUnit u) ∧ h' m.obj = m.timeUnit := by
  unfold DeviceMdl.mk' at hd
  cases hp : prms.toDict with
  | error e => rw [hp] at hd; cases hd
  | ok d =>
    rw [hp] at hd
    simp only [Except.ok.injEq, Prod.mk.injEq] at hd
    obtain ⟨h1, h2⟩ := hd
    subst h1
    rw [h2] at hm hs
    obtain ⟨⟨prm, e1⟩, ⟨mech, e2⟩, e3⟩ := hm
    obtain ⟨kv, k1, k2⟩ := List.mem_map.1 e1
    cases hkv : kv.2 with
    | circ c => rw [hkv] at k2; cases k2
    | deg m0 =>
      rw [hkv] at k2
      simp only [Prod.mk.injEq, PrmMdl.deg.injEq] at k2
      obtain ⟨_, rfl⟩ := k2
      obtain ⟨km, j1, j2⟩ := List.mem_map.1 e2
      simp only [Prod.mk.injEq] at j2
      obtain ⟨_, rfl⟩ := j2
      have hh : HasMech (⟨d, u⟩ : DeviceMdl W V) m0 km.2 :=
        ⟨⟨kv.1, by rw [← hkv]; exact k1⟩, ⟨km.1, j1⟩, e3⟩
      have := C32_precedence_partial ⟨d, u⟩ h hh (by
        rintro p' m' ⟨⟨prm', a1⟩, ⟨mech', a2⟩, a3⟩ e
        refine hs { p' with mechs := p'.mechs.map fun km =>
          (km.1, { km.2 with timeUnit := h' km.2.obj }) } { m' with timeUnit := h' m'.obj }
          ⟨⟨prm', List.mem_map.2 ⟨_, a1, rfl⟩⟩, ⟨mech', List.mem_map.2 ⟨_, a2, rfl⟩⟩, a3⟩ e)
      rw [h2] at this
      exact ⟨this, rfl⟩

end units

/-- A mechanism object with the given identity and no equation of its own. -/
def exUnitMech (o : Nat) : MechMdl Counts Ex.Q := .mk' .deg o none none (.fin 0) none []

/-- A parameter with the given unit. -/
def exUnitPrm (ms : Dict (MechMdl Counts Ex.Q)) (u : Option String) : DegPrmMdl Counts Ex.Q :=
  { Ex.degPrm ms (.fin 0) with timeUnit := u }

/-- Four mechanisms: own unit, parameter's, device's (twice; the second parameter's unit is empty). -/
def exUnits (devUnit : Option String) : DeviceMdl Counts Ex.Q where
  prms := [("a", .deg (exUnitPrm [("m0", exUnitMech 0), ("m1", exUnitMech 1)] (some "s"))),
    ("b", .deg (exUnitPrm [("m2", exUnitMech 2)] none)),
    ("c", .deg (exUnitPrm [("m3", exUnitMech 3)] (some "")))]
  timeUnit := devUnit

example : let h := (exUnits (some "d")).propagate fun o => if o = 0 then some "ms" else none
    [h 0, h 1, h 2, h 3, h 4] = [some "ms", some "s", some "d", some "d", none] := by decide +kernel
example : let h := (exUnits none).propagate fun _ => none
    [h 0, h 1, h 2, h 3] = [some "s", some "s", some "h", some "h"] := by decide +kernel

/-- C32 fails for a mechanism object shared by two parameters with different units: the second parameter's
mechanism gets the first one's unit. -/
theorem C32_shared_violated :
    ∃ (dev : DeviceMdl Counts Ex.Q) (p : DegPrmMdl Counts Ex.Q) (m : MechMdl Counts Ex.Q)
      (h : UnitHeap), HasMech dev p m ∧ h m.obj = none ∧ p.timeUnit = some "ms" ∧
      dev.propagate h m.obj = some "d" := by
  refine ⟨⟨[("a", .deg (exUnitPrm [("m", exUnitMech 0)] (some "d"))),
    ("b", .deg (exUnitPrm [("m", exUnitMech 0)] (some "ms")))], none⟩,
    exUnitPrm [("m", exUnitMech 0)] (some "ms"), exUnitMech 0, fun _ => none, ?_, rfl, rfl, ?_⟩
  · exact ⟨⟨"b", by simp⟩, ⟨"m", by simp [exUnitPrm, Ex.degPrm]⟩, by decide⟩
  · decide +kernel

end Gerabaldi.Props
