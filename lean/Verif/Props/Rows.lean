import Verif.Spec.Rows
import Verif.Lemmas.Works
import Verif.Lemmas.Shape
import Verif.Lemmas.Helpers
import Verif.Lemmas.Mech
import Verif.Props.Run
import Verif.Props.Report

/-! # Properties of measured names: C43, C44, C51 -/

namespace Gerabaldi.Props
open Spec

variable {W V : Type} [PyNum V] [Rng W V]

/-! ## C43: undefined names -/

/-- C43 fails: measuring a name that is neither a device parameter nor a condition of the step ends with
`KeyError`, in every state, for every device and environment (whose draws do not fail). -/
theorem C43_key_error_violated [LawfulRng W V] {ord : SetOrder} {dev : DeviceMdl W V}
    {env : PhysTestEnv V} (he : EnvDraws W env) {step : MeasSpec V} {prm : String}
    (hm : prm ∈ step.measurements.keys) (hd : prm ∉ dev.prms.keys) (hc : prm ∉ step.conditions.keys)
    (i : Nat) (sr : SimState V × SimReport V) (w : W) :
    (simMeas ord dev env step i sr w).1 = .error .keyError := by
  have h := genEnvCondVals_unknown he (ord := ord) (dev := dev) (base := step.conditions)
    (prms := .counts step.measurements) (q := sr.2.info) rfl
    (fun p hp => (Dict.has_iff_mem_keys _ _).2 hp) hm hd hc (t := .measure) (nc := 1) (nl := 1) w
  unfold simMeas
  rw [M.bind_run]
  cases hg : env.genEnvCondVals ord step.conditions (.counts step.measurements) (some sr.2.info)
      (some dev) .measure 1 1 w with
  | mk res w' =>
    rw [hg] at h
    cases h
    rfl

theorem enumFrom_mem {α : Type} {x : α} {xs : List α} (h : x ∈ xs) (i : Nat) :
    ∃ j, (j, x) ∈ enumFrom i xs := by
  induction xs generalizing i with
  | nil => cases h
  | cons y rest ih =>
    rcases List.mem_cons.1 h with rfl | h
    · exact ⟨i, List.mem_cons_self⟩
    · obtain ⟨j, hj⟩ := ih h (i + 1)
      exact ⟨j, List.mem_cons_of_mem _ hj⟩

/-- Every step of a simulation that returns a report has succeeded. -/
theorem simulate_step {ord : SetOrder} {dev : DeviceMdl W V} {env : PhysTestEnv V}
    {test : TestSpec V} {init : Option (SimState V)} {r : SimReport V} {w w' : W}
    (h : simulate ord test dev env init w = (.ok r, w')) {st : Step V} (hs : st ∈ test.steps) :
    ∃ j sr w1 sr' w2, simStep ord dev env sr (j, st) w1 = (.ok sr', w2) := by
  obtain ⟨sr, w1, h1, _⟩ := M.bind_eq_ok.1 h
  obtain ⟨sr0, w2, _, h2⟩ := M.bind_eq_ok.1 h1
  obtain ⟨j, hj⟩ := enumFrom_mem hs 0
  obtain ⟨b1, u1, b2, u2, hf⟩ := M.forIn'_ok_mem h2 hj
  exact ⟨j, b1, u1, b2, u2, hf⟩

/-- C43, the part that holds: such a test never returns a report. -/
theorem C43_no_report_partial {ord : SetOrder} {dev : DeviceMdl W V} {env : PhysTestEnv V}
    {test : TestSpec V} {init : Option (SimState V)} {step : MeasSpec V}
    (hs : Step.meas step ∈ test.steps) {prm : String} (hm : prm ∈ step.measurements.keys)
    (hd : prm ∉ dev.prms.keys) (hc : prm ∉ step.conditions.keys) (w : W) :
    ∃ e, (simulate ord test dev env init w).1 = .error e := by
  cases hr : simulate ord test dev env init w with
  | mk res w' =>
    cases res with
    | error e => exact ⟨e, rfl⟩
    | ok r =>
      exfalso
      obtain ⟨j, sr, w1, sr', w2, h⟩ := simulate_step hr hs
      obtain ⟨conds, w3, h1, _⟩ := M.bind_eq_ok.1 (h : simMeas ord dev env step j sr w1 = _)
      obtain ⟨shared, counts, w4, h2, _, h3⟩ := genEnvCondVals_inv h1
      obtain ⟨d, w5, w6, _, h4⟩ := result_get h3 hm
      obtain ⟨bc, n, s', a, w7, h5, _⟩ := sensor_get (by
        simp only [Option.bind_some]
        exact (Dict.get?_eq_none_iff _ _).2 hd) h4
      exact hc (shared_keys h2 h5)

/-- C43: an environment without variations, the example device, a name nobody knows. -/
example (i : Nat) (sr : SimState Ex.Q × SimReport Ex.Q) (w : Counts) :
    (simMeas Ex.orderA Ex.dev ⟨[], []⟩ ⟨[("vth", 1), ("leak", 2)], [("temp", .fin 20)], "read"⟩ i sr
      w).1 = .error .keyError :=
  C43_key_error_violated (prm := "leak") (envDraws_empty []) (by decide) (by decide) (by decide) i sr w

/-- A test that reads "delay" and another name once. -/
def alsoRead (prm : String) (conds : Dict Ex.Q) : TestSpec Ex.Q :=
  { steps := [.meas ⟨[("delay", 1), (prm, 1)], [("temp", .fin 20), ("vdd", .fin 2)] ++ conds, "read"⟩],
    numChps := 1, numLots := 1, name := "also", description := "" }

/-- C43: a whole test. -/
example : (simulate Ex.orderA (alsoRead "leak" []) Ex.dev ⟨[], []⟩ none Counts.start).1 =
    .error .keyError := by
  decide +kernel

/-! ## C51: names are only labels -/

/-- C51 fails: a parameter called "meas" can never be measured, whatever the device, environment and
state, because its instrument is looked up under the name of the method `meas_instm`. -/
theorem C51_meas_violated {ord : SetOrder} {dev : DeviceMdl W V} {env : PhysTestEnv V}
    {test : TestSpec V} {init : Option (SimState V)} {step : MeasSpec V}
    (hs : Step.meas step ∈ test.steps) (hm : "meas" ∈ step.measurements.keys) (w : W) :
    ∃ e, (simulate ord test dev env init w).1 = .error e := by
  cases hr : simulate ord test dev env init w with
  | mk res w' =>
    cases res with
    | error e => exact ⟨e, rfl⟩
    | ok r =>
      exfalso
      obtain ⟨j, sr, w1, sr', w2, h⟩ := simulate_step hr hs
      obtain ⟨conds, w3, _, h1⟩ := M.bind_eq_ok.1 (h : simMeas ord dev env step j sr w1 = _)
      obtain ⟨rows, w4, h2, _⟩ := M.bind_eq_ok.1 h1
      obtain ⟨kv, hkv, hk⟩ := List.mem_map.1 hm
      obtain ⟨b1, u1, b2, u2, hf⟩ := M.forIn'_ok_mem h2 hkv
      obtain ⟨_, ins, _, _, _, hi, _⟩ := measurePrm_ok hf
      rw [hk] at hi
      unfold PhysTestEnv.measInstm at hi
      split at hi
      · cases hi
      · rename_i hh
        have : env.instms.get? "meas" = none := by
          cases hg : env.instms.get? "meas" with
          | none => rfl
          | some x => exact absurd (by simp [Dict.has, hg]) hh
        rw [this] at hi
        simp at hi

/-- C51 fails: with an instrument for a parameter called "meas", no parameter can be measured. -/
theorem C51_instrument_violated {ord : SetOrder} {dev : DeviceMdl W V} {env : PhysTestEnv V}
    (he : "meas" ∈ env.instms.keys) {test : TestSpec V} {init : Option (SimState V)}
    {step : MeasSpec V} (hs : Step.meas step ∈ test.steps) (hm : step.measurements ≠ []) (w : W) :
    ∃ e, (simulate ord test dev env init w).1 = .error e := by
  cases hr : simulate ord test dev env init w with
  | mk res w' =>
    cases res with
    | error e => exact ⟨e, rfl⟩
    | ok r =>
      exfalso
      obtain ⟨j, sr, w1, sr', w2, h⟩ := simulate_step hr hs
      obtain ⟨conds, w3, _, h1⟩ := M.bind_eq_ok.1 (h : simMeas ord dev env step j sr w1 = _)
      obtain ⟨rows, w4, h2, _⟩ := M.bind_eq_ok.1 h1
      obtain ⟨kv, rest, hk⟩ := List.exists_cons_of_ne_nil hm
      obtain ⟨b1, u1, b2, u2, hf⟩ := M.forIn'_ok_mem h2 (x := kv) (by rw [hk]; exact List.mem_cons_self)
      obtain ⟨_, ins, _, _, _, hi, _⟩ := measurePrm_ok hf
      unfold PhysTestEnv.measInstm at hi
      rw [if_pos ((Dict.has_iff_mem_keys _ _).2 he)] at hi
      cases hi

/-- C51, the part that holds: any other name is read with the instrument configured for it, or exactly,
and fails only if computing its true values or reading them fails. -/
theorem C51_read_partial {dev : DeviceMdl W V} {env : PhysTestEnv V}
    (he : "meas" ∉ env.instms.keys) {q : Quantities} {step : MeasSpec V} {i : Nat} {s : SimState V}
    {conds : Dict (Dict (Arr3 V))} {prm : String} (hp : prm ≠ "meas") {n : Nat} {ins : Instrument V}
    (hi : ins = (env.instms.get? prm).getD {}) {t : List (MeasRow V)} {ys : List V} {w w1 w2 : W}
    (ht : measureTrue q dev step i s conds prm n w = (.ok t, w1))
    (hy : ins.measureVals (t.map (·.measured)) w1 = (.ok ys, w2)) (acc : List (MeasRow V)) :
    measurePrm q dev env step i s conds acc (prm, n) w =
      (.ok (acc ++ List.zipWith (fun r y => { r with measured := y }) t ys), w2) := by
  have hins : env.measInstm prm = .ok ins := by
    unfold PhysTestEnv.measInstm
    rw [if_neg (fun h => he ((Dict.has_iff_mem_keys _ _).1 h))]
    subst hi
    cases env.instms.get? prm with
    | some x => rfl
    | none => exact if_neg hp
  unfold measurePrm
  refine (M.bind_ok ht).trans ?_
  refine (M.bind_ok (a := ins) (w' := w1) (by rw [M.ofExcept_run, hins])).trans ?_
  refine (M.bind_ok (a := List.zipWith (fun r y => { r with measured := y }) t ys) (w' := w2) ?_).trans
    rfl
  exact (M.bind_ok hy).trans rfl

/-- C51: a condition called "meas" cannot be measured. -/
example : (simulate Ex.orderA (alsoRead "meas" [("meas", .fin 7)]) Ex.dev ⟨[], []⟩ none Counts.start).1 =
    .error .attributeError := by
  decide +kernel

/-- C51: called "mess" it can. -/
example : ∃ r, (simulate Ex.orderA (alsoRead "mess" [("mess", .fin 7)]) Ex.dev ⟨[], []⟩ none
    Counts.start).1 = .ok r ∧ (r.measurements.length == 2) = true :=
  exists_ok (by decide +kernel)

end Gerabaldi.Props
