import Verif.Model.Num

/-!
# Breakdown of an oxide (C66)
-/

namespace Gerabaldi.Spec

variable {V : Type} [PyArith V]

/-- The name of the possible defect at a place of the oxide, which has three rows and four columns. -/
def defectName (row col : Nat) : String := "defect" ++ toString (4 * row + col)

/-- The defects of all three rows have formed in one of the four columns. -/
def Breakdown (formed : Nat → Nat → Prop) : Prop := ∃ col < 4, ∀ row < 3, formed row col

open Classical in
/-- The state of an oxide: 0 after breakdown and if it was 0 initially, 1 otherwise. A defect has formed when
its value is above the threshold. -/
noncomputable def oxideState (env : String → V) : V :=
  if Breakdown (fun row col => PyArith.lt (env "threshold") (env (defectName row col)) = true) ∨
    PyArith.eq (env "init") (PyArith.ofRat 0) = true then PyArith.ofRat 0 else PyArith.ofRat 1

end Gerabaldi.Spec
