import Verif.Model.ReportObject
import Verif.Spec.TestSpec

/-!
# Reports however they are made (C88)
-/

namespace Gerabaldi.Spec

variable {V : Type}

/-- The name to use: the given one unless there is none or it is empty. -/
def NameIs (given : Option String) (default result : String) : Prop :=
  (∀ s, given = some s → s ≠ "" → result = s) ∧ (given = none ∨ given = some "" → result = default)

/-- The sizes the class documents for a report of this test: for each measured name the largest number of samples, and
the numbers of chips and lots. -/
structure HasSizes (o : ReportObj V) (t : TestSpec V) : Prop where
  counts : ∃ d, o.devCounts = .val d ∧ ∀ prm,
    (∀ n, d.get? prm = some n ↔ requests t.steps prm n ∧ ∀ m, requests t.steps prm m → m ≤ n) ∧
    (d.get? prm = none ↔ ∀ n, ¬ requests t.steps prm n)
  chps : o.numChps = .val t.numChps
  lots : o.numLots = .val t.numLots

/-- What is added to a report, in order. -/
inductive Added (V : Type)
  | meas (rows : List (MeasRow V))
  | summary (rows : List (SumRow V))

def addTo (o : ReportObj V) : Added V → ReportObj V
  | .meas rows => o.addMeasurements rows
  | .summary rows => o.addSummary rows

def measRows (es : List (Added V)) : List (MeasRow V) :=
  es.flatMap fun e => match e with
    | .meas rows => rows
    | .summary _ => []

def summaryRows (es : List (Added V)) : List (SumRow V) :=
  es.flatMap fun e => match e with
    | .meas _ => []
    | .summary rows => rows

end Gerabaldi.Spec
