import Verif.Spec.InitVariation
import Verif.Spec.Noise
import Verif.Spec.Layout
import Verif.Model.Sim

/-!
# Inspections of new devices
-/

namespace Gerabaldi.Spec
open Gerabaldi MeasureTheory

/-- A parameter with the default equation, no conditional shift, and mechanisms with the neutral value 0. -/
structure DefaultPrm {W : Type} (m : DegPrmMdl W (Ext ℝ)) : Prop where
  sum : m.mdl.compute = basicSum
  cond : m.condMdl.compute = constEqn (PyArith.ofRat 0)
  shift : m.condUnitary = PyArith.ofRat 0
  mechs : ∀ kv ∈ m.mechs, kv.2.unitary = PyArith.ofRat 0
  init : "init" ∉ m.mechs.keys
  own : "mechs" ∉ m.mdl.latentVars.keys

/-- A test without stress that only measures default parameters. -/
structure Inspection {W : Type} (dm : DeviceMdl W (Ext ℝ)) (test : TestSpec (Ext ℝ)) : Prop where
  shapes : ∀ p m, dm.prms.get? p = some (.deg m) → DegShapes m
  steps : ∀ st ∈ test.steps, ∃ m, st = .meas m ∧ m.measurements.Nodup ∧ m.conditions.Nodup ∧
    ∀ p n, (p, n) ∈ m.measurements → ∃ d, dm.prms.get? p = some (.deg d) ∧ DefaultPrm d

/-- A reading: a parameter of a device in the step with the given number. -/
structure Reading (L C : Nat) where
  step : Nat
  prm : String
  lot : Fin L
  chp : Fin C
  dev : Nat
  deriving DecidableEq

/-- The test asks for it. -/
def Reading.Asked (test : TestSpec (Ext ℝ)) (K : Reading test.numLots test.numChps) : Prop :=
  ∃ pre m post n, test.steps = pre ++ .meas m :: post ∧ K.step = pre.length ∧ (K.prm, n) ∈ m.measurements ∧ K.dev < n

/-- The row is about it. -/
def Reading.Of {L C : Nat} (K : Reading L C) (row : MeasRow (Ext ℝ)) : Prop :=
  row.step = K.step ∧ row.prm = K.prm ∧ place row = (some K.lot.val, some K.chp.val, some K.dev)

/-- The normal distributions that make up the readings of a parameter: of lots, chips, devices and errors. -/
structure Spread where
  base : Option ℝ
  meanLot : ℝ
  meanChp : ℝ
  meanDev : ℝ
  meanErr : ℝ
  lot : NNReal
  chp : NNReal
  dev : NNReal
  err : NNReal

/-- A parameter with an initial value that varies normally around a base value, measured with a normal error. -/
def NormalPrm {W : Type} (dm : DeviceMdl W (Ext ℝ)) (env : PhysTestEnv (Ext ℝ)) (g : String → (String → ℝ) → ℝ)
    (p : String) (x : Spread) : Prop :=
  ∃ m k lv, dm.prms.get? p = some (.deg m) ∧ g p = (fun y => y k) ∧ m.initMdl.latentVars.get? k = some lv ∧
    lv.vrtnType = some .offset ∧ lv.deterVal = x.base.map .fin ∧ NormalLayer lv.lot x.meanLot x.lot ∧
    NormalLayer lv.chp x.meanChp x.chp ∧ NormalLayer lv.dev x.meanDev x.dev ∧
    NormalError (instrumentOf env p) x.meanErr x.err

/-- `Y` is what the report of a simulation shows for the reading. -/
def RandomReading {N : Numpy} {Ω : Type} (raw : Nat → Nat → Ω → ℝ) (next : Nat → Nat) (ord : SetOrder)
    (test : TestSpec (Ext ℝ)) (dm : DeviceMdl (Tapes N) (Ext ℝ)) (env : PhysTestEnv (Ext ℝ))
    (K : Reading test.numLots test.numChps) (Y : Ω → ℝ) : Prop :=
  ∀ ω, ∃ r w' row, simulate ord test dm env none (⟨fun i j => raw i j ω, next⟩ : Tapes N) = (.ok r, w') ∧
    row ∈ r.measurements ∧ K.Of row ∧ row.measured = .fin (Y ω)

end Gerabaldi.Spec
