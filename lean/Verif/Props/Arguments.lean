import Verif.Props.Init

/-!
# The arguments of gen_init_state (C85)
-/

namespace Gerabaldi.Props

open Gerabaldi Gerabaldi.Spec

variable {W V : Type} [PyNum V] [Rng W V]

omit [PyNum V] [Rng W V] in
/-- The counts stay the same exactly if they suit the circuit parameters already. -/
theorem augment_iff {dev : DeviceMdl W V} {d : Dict Nat} : augment dev d = d ↔ Supplied dev d := by
  refine ⟨fun h c p n hc hn => ?_, augment_supplied⟩
  have := (augment_enough dev d).enough hc hn
  rwa [h] at this

/-- **C85**, a dictionary of counts: after the call it is what it was exactly if it had enough devices for all its
circuit parameters. -/
theorem C85_counts_partial {dev : DeviceMdl W V} {d : Dict Nat} (hd : d ≠ []) {chps lots : Nat}
    {info : Option Quantities} {t : TimeVal} {r : InitResult V} {w w' : W}
    (h : genInitState dev (some d) chps lots info t w = (.ok r, w')) : r.counts = some d ↔ Supplied dev d := by
  have hf : (some d).filter (fun d => !d.isEmpty) = some d := by
    cases d with
    | nil => exact absurd rfl hd
    | cons => rfl
  unfold genInitState at h
  rw [hf] at h
  have hc : r.counts = some (augment dev d) := by
    cases info with
    | none =>
      obtain ⟨s, w1, h1, h2⟩ := M.bind_eq_ok.1 h
      cases h2
      rfl
    | some q =>
      obtain ⟨s, w1, h1, h2⟩ := M.bind_eq_ok.1 h
      cases h2
      rfl
  rw [hc, Option.some.injEq]
  exact augment_iff

/-- **C85**, a report: after the call its quantities are what they were exactly if it had enough devices for all
its circuit parameters. -/
theorem C85_report_partial {dev : DeviceMdl W V} {counts : Option (Dict Nat)} (hc : counts = none ∨ counts = some [])
    {chps lots : Nat} {q : Quantities} {t : TimeVal} {r : InitResult V} {w w' : W}
    (h : genInitState dev counts chps lots (some q) t w = (.ok r, w')) : r.info = some q ↔ Supplied dev q.devCounts := by
  have h' : (genInitFrom dev q.devCounts q.numChps q.numLots t >>= fun s =>
      (pure ⟨s, counts, some { q with devCounts := augment dev q.devCounts }⟩ :
        M W (InitResult V))) w = (.ok r, w') := by
    rcases hc with rfl | rfl <;> exact h
  obtain ⟨s, w1, h1, h2⟩ := M.bind_eq_ok.1 h'
  cases h2
  show some _ = some q ↔ _
  rw [Option.some.injEq, ← augment_iff]
  constructor
  · intro h
    exact congrArg Quantities.devCounts h
  · intro h
    rw [h]

/-- **C85**, the sources: without counts and without a report nothing is generated; with both, the state is the one
generated from the counts alone (the report's quantities are not used). -/
theorem C85_sources {dev : DeviceMdl W V} {d : Dict Nat} (hd : d ≠ []) (chps lots : Nat) (q : Quantities) (t : TimeVal)
    (w : W) :
    (genInitState (V := V) dev none chps lots none t w).1 = .error .userConfig ∧
    (genInitState (V := V) dev (some []) chps lots none t w).1 = .error .userConfig ∧
    (genInitState dev (some d) chps lots (some q) t w).1.map (fun r => (r.state, r.counts)) =
      (genInitState dev (some d) chps lots none t w).1.map (fun r => (r.state, r.counts)) ∧
    (genInitState dev (some d) chps lots (some q) t w).2 = (genInitState dev (some d) chps lots none t w).2 := by
  have hf : (some d).filter (fun d => !d.isEmpty) = some d := by
    cases d with
    | nil => exact absurd rfl hd
    | cons => rfl
  refine ⟨rfl, rfl, ?_⟩
  unfold genInitState
  rw [hf]
  simp only [M.bind_run]
  rcases genInitFrom dev d chps lots t w with ⟨e | s, w1⟩ <;> exact ⟨rfl, rfl⟩

/-- **C85** is violated: generating a state for a device with a circuit parameter adds the parameter it depends on
to the caller's dictionary, so that the next call with the same dictionary asks for three devices of it too. -/
theorem C85_caller_violated : ∃ (r : InitResult Ex.Q) (w' : Counts),
    genInitState Ex.dev (some [("delay", 3)]) 1 1 none (.td 0) Counts.start = (.ok r, w') ∧
      r.counts = some [("delay", 3), ("vth", 3)] := by
  obtain ⟨r, hr, hq⟩ := exists_ok (x := (genInitState Ex.dev (some [("delay", 3)]) 1 1 none (.td 0) Counts.start).1)
    (f := fun r : InitResult Ex.Q => decide (r.counts = some [("delay", 3), ("vth", 3)])) (by decide +kernel)
  exact ⟨r, _, Prod.ext hr rfl, of_decide_eq_true hq⟩

/-- Counts that are enough stay. -/
example : ∃ (r : InitResult Ex.Q) (w' : Counts),
    genInitState Ex.dev (some [("vth", 5), ("delay", 3)]) 2 1 none (.td 0) Counts.start = (.ok r, w') ∧
      r.counts = some [("vth", 5), ("delay", 3)] ∧ Supplied Ex.dev [("vth", 5), ("delay", 3)] := by
  obtain ⟨r, hr, -⟩ := exists_ok (x := (genInitState Ex.dev (some [("vth", 5), ("delay", 3)]) 2 1 none (.td 0)
    Counts.start).1) (f := fun _ : InitResult Ex.Q => true) (by decide +kernel)
  have hs : Supplied Ex.dev [("vth", 5), ("delay", 3)] := by
    intro c p n hc hn
    obtain ⟨rfl, rfl⟩ := needs_ex hn
    exact ⟨5, by decide, by cases hc; decide⟩
  exact ⟨r, _, Prod.ext hr rfl, (C85_counts_partial (by simp) (Prod.ext hr rfl)).2 hs, hs⟩

end Gerabaldi.Props
