import Verif.Model.ReportNested
import Verif.Spec.Report

/-!
# Formatted measurements of lists (C87)
-/

namespace Gerabaldi.Spec

variable {V : Type}

/-- A list of devices. -/
def devList (xs : List V) : Nested V := .list (xs.map .leaf)

/-- A list of chips, each a list of devices. -/
def chipList (xss : List (List V)) : Nested V := .list (xss.map devList)

/-- A list of lots, each a list of chips. -/
def lotList (xsss : List (List (List V))) : Nested V := .list (xsss.map chipList)

/-- One row for every entry, numbered by the places in the lists. -/
def rowsOfDevs (prm : String) (time : TimeVal) (step : Nat) (l c : Nat) (xs : List V) : List (MeasRow V) :=
  xs.zipIdx.map fun p => ⟨prm, step, some p.2, some c, some l, time, p.1⟩

def rowsOfChips (prm : String) (time : TimeVal) (step : Nat) (l : Nat) (xss : List (List V)) : List (MeasRow V) :=
  xss.zipIdx.flatMap fun p => rowsOfDevs prm time step l p.2 p.1

def rowsOfLots (prm : String) (time : TimeVal) (step : Nat) (xsss : List (List (List V))) : List (MeasRow V) :=
  xsss.zipIdx.flatMap fun p => rowsOfChips prm time step p.2 p.1

/-- All chips have the same number of devices. -/
def SameDevs (xss : List (List V)) (D : Nat) : Prop := ∀ xs ∈ xss, xs.length = D

/-- All lots have the same number of chips and all chips the same number of devices. -/
def SameChips (xsss : List (List (List V))) (C D : Nat) : Prop := ∀ xss ∈ xsss, xss.length = C ∧ SameDevs xss D

end Gerabaldi.Spec
