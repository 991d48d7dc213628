import Verif.Model.Py

/-!
# Model of `configure_logger` (`gerabaldi/helpers.py`)
-/

namespace Gerabaldi

/-- The exact type of a log handler. `sub` is any other class, for instance a subclass of
`logging.StreamHandler` as `coloredlogs.install` makes (`gerabaldi/helpers.py:30-36`). -/
inductive HandlerKind
  | stream
  | file
  | sub
  deriving DecidableEq, Repr

/-- A handler object. -/
structure Handler where
  id : Nat
  kind : HandlerKind
  deriving DecidableEq, Repr

/-- The logger: its level and the handlers, in order. -/
structure Logger where
  level : Nat
  handlers : List Handler
  deriving DecidableEq, Repr

/-- `Logger.removeHandler` of the standard library. -/
def Logger.removeHandler (l : Logger) (h : Handler) : Logger :=
  { l with handlers := l.handlers.erase h }

/-- `Logger.addHandler` of the standard library. -/
def Logger.addHandler (l : Logger) (h : Handler) : Logger :=
  if h ∈ l.handlers then l else { l with handlers := l.handlers ++ [h] }

/-- The loop over the handlers, `gerabaldi/helpers.py:77-83`, for one exact type: the last match. -/
def existingHandler (k : HandlerKind) (hs : List Handler) : Option Handler :=
  hs.foldl (fun acc h => if h.kind = k then some h else acc) none

/-- Lines 86-89 and 91-94 of `gerabaldi/helpers.py`: `existing` was found before any change. -/
def Logger.replaceHandler (l : Logger) (existing new : Option Handler) : Logger :=
  match new with
  | none => l
  | some h => (match existing with
    | none => l
    | some e => l.removeHandler e).addHandler h

/-- `configure_logger`, `gerabaldi/helpers.py:39-94`. `if logging_level:` is false for None and 0. -/
def configureLogger (level : Option Nat) (file stream : Option Handler) (l : Logger) : Logger :=
  let l1 := match level with
    | none => l
    | some n => if n = 0 then l else { l with level := n }
  let s := existingHandler .stream l1.handlers
  let f := existingHandler .file l1.handlers
  (l1.replaceHandler s stream).replaceHandler f file

end Gerabaldi
