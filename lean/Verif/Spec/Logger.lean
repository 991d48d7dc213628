import Verif.Model.Logger

/-!
# Specification vocabulary for log handlers
-/

namespace Gerabaldi.Spec
open Gerabaldi

/-- The handlers of one exact type. -/
def ofKind (k : HandlerKind) (l : Logger) : List Handler := l.handlers.filter fun h => h.kind = k

/-- A call of `configure_logger`. -/
structure LogCall where
  level : Option Nat
  file : Option Handler
  stream : Option Handler

/-- Plain handlers in the right places. -/
structure LogCall.Plain (c : LogCall) : Prop where
  file : ∀ h, c.file = some h → h.kind = .file
  stream : ∀ h, c.stream = some h → h.kind = .stream

/-- A history of calls. -/
def configureAll (l : Logger) (calls : List LogCall) : Logger :=
  calls.foldl (fun l c => configureLogger c.level c.file c.stream l) l

/-- The last handler given in a history. -/
def lastGiven (get : LogCall → Option Handler) (calls : List LogCall) : Option Handler :=
  (calls.filterMap get).getLast?

/-- What a new handler makes of the old ones of its type. -/
def replacedBy (old : List Handler) : Option Handler → List Handler
  | none => old
  | some h => [h]

/-- At most one plain stream handler and one plain file handler, no handler twice. -/
structure Simple (l : Logger) : Prop where
  nodup : l.handlers.Nodup
  stream : (ofKind .stream l).length ≤ 1
  file : (ofKind .file l).length ≤ 1

end Gerabaldi.Spec
