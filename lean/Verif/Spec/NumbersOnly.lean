import Verif.Spec.Helpers

/-!
# An equation that cannot take arrays (C35)
-/

namespace Gerabaldi.Spec

open Gerabaldi

/-- One of the arguments is an array. -/
def hasArray {V : Type} (args : Dict (PyVal V)) : Bool :=
  List.any args fun kv => match kv.2 with
    | .arr _ => true
    | _ => false

/-- The same equation written for numbers: on an array it raises a `ValueError` ("the truth value of an array is
ambiguous", which is what numpy does when an array meets an `if`). -/
def numbersOnly {W V : Type} (f : PyFun W V) : PyFun W V where
  params := f.params
  kwName := f.kwName
  call := fun args => if hasArray args then M.throw .valueError else f.call args

end Gerabaldi.Spec
