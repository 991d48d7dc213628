import Verif.Model.Sim
import Verif.Lemmas.Loop

/-! # Inversion of the simulation functions -/

namespace Gerabaldi

variable {W V : Type} [PyNum V]

/-- The new value of one mechanism, the body of `degStep` before it is stored. -/
def degOne (times conds : Dict (Arr3 V)) (latents : Dict (LatNode V)) (degVals : Dict (Arr3 V))
    (L C D : Nat) (kv : String × MechMdl W V) : M W (Arr3 V) := do
  let t ← M.ofExcept (times.getE kv.1)
  let pre ← M.ofExcept (degVals.getE kv.1)
  let lat ← M.ofExcept (subLatents latents kv.1)
  kv.2.calcDegVals t pre conds lat L C D

theorem degStep_eq (times conds : Dict (Arr3 V)) (latents : Dict (LatNode V))
    (degVals : Dict (Arr3 V)) (L C D : Nat) :
    (DegPrmMdl.degStep times conds latents degVals L C D :
      Dict (Arr3 V) → String × MechMdl W V → M W (Dict (Arr3 V))) =
    fun acc kv => degOne times conds latents degVals L C D kv >>= fun v => pure (acc.set kv.1 v) := by
  funext acc kv
  simp only [DegPrmMdl.degStep, degOne, M.bind_assoc']

theorem degOne_ok {times conds : Dict (Arr3 V)} {latents : Dict (LatNode V)}
    {degVals : Dict (Arr3 V)} {L C D : Nat} {kv : String × MechMdl W V} {w w' : W} {v : Arr3 V}
    (h : degOne times conds latents degVals L C D kv w = (.ok v, w')) :
    ∃ t pre lat, times.get? kv.1 = some t ∧ degVals.get? kv.1 = some pre ∧
      subLatents latents kv.1 = .ok lat ∧ kv.2.calcDegVals t pre conds lat L C D w = (.ok v, w') := by
  unfold degOne at h
  obtain ⟨t, h1, h⟩ := M.getE_bind_ok.1 h
  obtain ⟨pre, h2, h⟩ := M.getE_bind_ok.1 h
  obtain ⟨lat, h3, h⟩ := M.ofExcept_bind_ok.1 h
  exact ⟨t, pre, lat, h1, h2, h3, h⟩

/-- The loop over the mechanisms keeps their names and order. -/
theorem degLoop_keys {times conds : Dict (Arr3 V)} {latents : Dict (LatNode V)}
    {degVals mv : Dict (Arr3 V)} {L C D : Nat} {mechs : Dict (MechMdl W V)} (hn : mechs.Nodup) {w w' : W}
    (h : M.forIn' (DegPrmMdl.degStep times conds latents degVals L C D) mechs [] w = (.ok mv, w')) :
    mv.keys = mechs.keys := by
  rw [degStep_eq, M.forIn'_set_eq_mapList hn (fun _ _ => by simp [Dict.keys])] at h
  obtain ⟨ys, h3, rfl⟩ := M.bind_pure_ok.1 h
  have := M.mapList_ok h3
  rw [List.nil_append]
  unfold Dict.keys
  clear h h3 hn
  induction this with
  | nil => rfl
  | cons hx _ ih =>
    obtain ⟨w1, w2, hx⟩ := hx
    obtain ⟨v, -, rfl⟩ := M.bind_pure_ok.1 hx
    rw [List.map_cons, List.map_cons, ih]

/-- The equivalent time of one mechanism, the body of `equivStep` before it is stored. -/
def equivOne (conds : Dict (Arr3 V)) (latents : Dict (LatNode V)) (initVals degVals : Dict (Arr3 V))
    (L C D : Nat) (kv : String × MechMdl W V) : M W (Arr3 V) := do
  let cur ← M.ofExcept (degVals.getE kv.1)
  let _ ← M.ofExcept (initVals.getE kv.1)
  let lat ← M.ofExcept (subLatents latents kv.1)
  kv.2.calcEquiv cur conds lat L C D

theorem equivStep_eq (conds : Dict (Arr3 V)) (latents : Dict (LatNode V))
    (initVals degVals : Dict (Arr3 V)) (L C D : Nat) :
    (DegPrmMdl.equivStep conds latents initVals degVals L C D :
      Dict (Arr3 V) → String × MechMdl W V → M W (Dict (Arr3 V))) =
    fun acc kv => equivOne conds latents initVals degVals L C D kv >>= fun v =>
      pure (acc.set kv.1 v) := by
  funext acc kv
  simp only [DegPrmMdl.equivStep, equivOne, M.bind_assoc']

theorem equivOne_ok {conds : Dict (Arr3 V)} {latents : Dict (LatNode V)}
    {initVals degVals : Dict (Arr3 V)} {L C D : Nat} {kv : String × MechMdl W V} {w w' : W} {v : Arr3 V}
    (h : equivOne conds latents initVals degVals L C D kv w = (.ok v, w')) :
    ∃ cur lat, degVals.get? kv.1 = some cur ∧
      subLatents latents kv.1 = .ok lat ∧ kv.2.calcEquiv cur conds lat L C D w = (.ok v, w') := by
  unfold equivOne at h
  obtain ⟨t, h1, h⟩ := M.getE_bind_ok.1 h
  obtain ⟨_, _, h⟩ := M.getE_bind_ok.1 h
  obtain ⟨lat, h3, h⟩ := M.ofExcept_bind_ok.1 h
  exact ⟨t, lat, h1, h3, h⟩

/-- What a successful stress of one parameter has done. -/
theorem stressPrm_ok {q : Quantities} {duration : TimeVal} {conds : Dict (Dict (Arr3 V))}
    {s s' : SimState V} {kv : String × DegPrmMdl W V} {w w' : W}
    (h : stressPrm q duration conds s kv w = (.ok s', w')) :
    ∃ n cur cs im lat eq0 times ip p mv w1 w2,
      q.devCounts.get? kv.1 = some n ∧ s.currMech.get? kv.1 = some cur ∧
      conds.get? kv.1 = some cs ∧ s.initMech.get? kv.1 = some im ∧ s.latents.get? kv.1 = some lat ∧
      M.forIn' (DegPrmMdl.equivStep cs lat im cur q.numLots q.numChps n) kv.2.mechs [] w =
        (.ok eq0, w1) ∧
      addDurations duration kv.2.mechs eq0 = .ok times ∧ s.initPrm.get? kv.1 = some ip ∧
      M.forIn' (DegPrmMdl.degStep times cs lat cur q.numLots q.numChps n) kv.2.mechs [] w1 =
        (.ok mv, w2) ∧
      computeOrLoop kv.2.mdl.compute (kv.2.degArgs ip mv lat) q.numLots q.numChps n w2 = (.ok p, w') ∧
      s' = { s with currPrm := s.currPrm.set kv.1 p, currMech := s.currMech.set kv.1 mv } := by
  unfold stressPrm at h
  obtain ⟨n, h1, h⟩ := M.getE_bind_ok.1 h
  obtain ⟨cur, h2, h⟩ := M.getE_bind_ok.1 h
  obtain ⟨cs, h3, h⟩ := M.getE_bind_ok.1 h
  obtain ⟨im, h4, h⟩ := M.getE_bind_ok.1 h
  obtain ⟨lat, h5, h⟩ := M.getE_bind_ok.1 h
  obtain ⟨eq0, w1, h6, h⟩ := M.bind_eq_ok.1 h
  obtain ⟨times, h7, h⟩ := M.ofExcept_bind_ok.1 h
  obtain ⟨ip, h8, h⟩ := M.getE_bind_ok.1 h
  obtain ⟨r, h9, h⟩ := M.bind_pure_ok.1 h
  unfold DegPrmMdl.calcDegVals at h9
  obtain ⟨mv, w3, h10, h9⟩ := M.bind_eq_ok.1 h9
  obtain ⟨p, h11, h9⟩ := M.bind_pure_ok.1 h9
  subst h9 h
  exact ⟨n, cur, cs, im, lat, eq0, times, ip, p, mv, w1, w3, h1, h2, h3, h4, h5, h6, h7, h8, h10, h11,
    rfl⟩

/-- What a successful stress step has done. -/
theorem simStress_ok [Rng W V] {ord : SetOrder} {dev : DeviceMdl W V} {env : PhysTestEnv V}
    {step : StrsSpec V} {i : Nat} {s s' : SimState V} {r r' : SimReport V} {w w' : W}
    (h : simStress ord dev env step i (s, r) w = (.ok (s', r'), w')) :
    ∃ conds s1 e st w1,
      env.genEnvCondVals ord step.conditions (.names (dev.degPrms.map (·.1))) (some r.info) (some dev)
        .stress 1 1 w = (.ok conds, w1) ∧
      M.forIn' (stressPrm r.info step.duration conds) dev.degPrms s w1 = (.ok s1, w') ∧
      s1.elapsed.add step.duration = .ok e ∧ e.sub step.duration = .ok st ∧
      s' = { s1 with elapsed := e } ∧
      r' = r.addSummary (summaryRow step.name "stress" i step.duration st e step.conditions) := by
  unfold simStress at h
  obtain ⟨conds, w1, h1, h⟩ := M.bind_eq_ok.1 h
  obtain ⟨s1, w2, h2, h⟩ := M.bind_eq_ok.1 h
  obtain ⟨e, h3, h⟩ := M.ofExcept_bind_ok.1 h
  obtain ⟨st, h4, h⟩ := M.ofExcept_bind_ok.1 h
  obtain ⟨hsr, rfl⟩ := M.pure_eq_ok.1 h
  cases hsr
  exact ⟨conds, s1, e, st, w1, h1, h2, h3, h4, rfl, rfl⟩

/-- What a successful measurement step has done. -/
theorem simMeas_ok [Rng W V] {ord : SetOrder} {dev : DeviceMdl W V} {env : PhysTestEnv V}
    {step : MeasSpec V} {i : Nat} {s s' : SimState V} {r r' : SimReport V} {w w' : W}
    (h : simMeas ord dev env step i (s, r) w = (.ok (s', r'), w')) :
    ∃ conds rows w1,
      env.genEnvCondVals ord step.conditions (.counts step.measurements) (some r.info) (some dev)
        .measure 1 1 w = (.ok conds, w1) ∧
      M.forIn' (measurePrm r.info dev env step i s conds) step.measurements [] w1 = (.ok rows, w') ∧
      s' = s ∧
      r' = (r.addMeasurements rows).addSummary
        (summaryRow step.name "measure" i (.td 0) s.elapsed s.elapsed step.conditions) := by
  unfold simMeas at h
  obtain ⟨conds, w1, h1, h⟩ := M.bind_eq_ok.1 h
  obtain ⟨rows, w2, h2, h⟩ := M.bind_eq_ok.1 h
  obtain ⟨hsr, rfl⟩ := M.pure_eq_ok.1 h
  cases hsr
  exact ⟨conds, rows, w1, h1, h2, rfl, rfl⟩

/-- What a successful measurement of one name has done. -/
theorem measurePrm_ok [Rng W V] {q : Quantities} {dev : DeviceMdl W V} {env : PhysTestEnv V}
    {step : MeasSpec V} {i : Nat} {s : SimState V} {conds : Dict (Dict (Arr3 V))}
    {acc rows : List (MeasRow V)} {kv : String × Nat} {w w' : W}
    (h : measurePrm q dev env step i s conds acc kv w = (.ok rows, w')) :
    ∃ true_ ins ys w1, measureTrue q dev step i s conds kv.1 kv.2 w = (.ok true_, w1) ∧
      env.measInstm kv.1 = .ok ins ∧
      ins.measureVals (true_.map (·.measured)) w1 = (.ok ys, w') ∧
      rows = acc ++ List.zipWith (fun r y => { r with measured := y }) true_ ys := by
  unfold measurePrm at h
  obtain ⟨t, w1, h1, h⟩ := M.bind_eq_ok.1 h
  obtain ⟨ins, h2, h⟩ := M.ofExcept_bind_ok.1 h
  obtain ⟨rows', h3, h⟩ := M.bind_pure_ok.1 h
  unfold readRows at h3
  obtain ⟨ys, h4, h3⟩ := M.bind_pure_ok.1 h3
  subst h3 h
  exact ⟨t, ins, ys, w1, h1, h2, h4, rfl⟩

end Gerabaldi
