import Verif.Model.Env

/-!
# Model of the prebuilt environments (`gerabaldi/cookbook/test_envs.py`)

Names given to the objects are dropped: `PhysTestEnv` renames them to the dictionary keys. The numbers
identify the random variable objects.
-/

namespace Gerabaldi

section
variable {V : Type} [PyArith V]

/-- `ideal_env`, `gerabaldi/cookbook/test_envs.py:12-22`. -/
def idealEnv : Except Err (PhysTestEnv V) := PhysTestEnv.mk' .none .none

/-- `Normal(mu, sigma)` as object number `i`. -/
def normalVar (i : Nat) (mu sigma : ℚ) : RVar V :=
  ⟨i, .normal (PyArith.ofRat mu) (PyArith.ofRat sigma), none⟩

/-- `volt_meas`, `gerabaldi/cookbook/test_envs.py:51`. -/
def voltMeas : Instrument V :=
  { precision := some 3, error := some (normalVar 7 0 (2 / 10000)),
    range := some (PyArith.ofRat 0, PyArith.ofRat 12) }

/-- `temp_meas`, `gerabaldi/cookbook/test_envs.py:53`. -/
def tempMeas : Instrument V :=
  { precision := some 2, error := some (normalVar 8 (-27315 / 100) (2 / 10)),
    range := some (PyArith.ofRat (-40), PyArith.ofRat 180) }

/-- `volt_and_temp_env`, `gerabaldi/cookbook/test_envs.py:25-59`. -/
def voltTempEnv : Except Err (PhysTestEnv V) := do
  let volt ← EnvVrtnMdl.mk' (some (normalVar 1 0 (3 / 10000))) (some (normalVar 2 0 (5 / 10000)))
    (some (normalVar 3 0 0)) "offset" (some "Voltage Variation Model")
  let temp ← EnvVrtnMdl.mk' (some (normalVar 4 0 (5 / 100))) (some (normalVar 5 0 (2 / 10)))
    (some (normalVar 6 0 (5 / 10))) "offset" (some "Temperature Variation Model")
  PhysTestEnv.mk' (.dict [("temp", 1, temp), ("vdd", 2, volt)])
    (.dict [("temp", 3, tempMeas), ("vdd", 4, voltMeas)])

end

end Gerabaldi
