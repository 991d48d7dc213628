import Verif.Model.Seeds

/-!
# Specification vocabulary for seeded random variables
-/

namespace Gerabaldi.Spec
open Gerabaldi

variable {S V : Type}

/-- A variable on its own, with nothing else in the world: its generator state and distribution. -/
def ownStep [PyArith V] [BitGen S V] (x : S × Dist V) : VarOp V → Except Err (List V) × (S × Dist V)
  | .sample n => match x.2 with
    | .deterministic v => (.ok (List.replicate n v), x)
    | d => match d.paramsForNumpy with
      | .error e => (.error e, x)
      | .ok ps => ((BitGen.draw x.1 d.typeName ps n).1, ((BitGen.draw x.1 d.typeName ps n).2, d))
  | .setCentre v => match x.2 with
    | .normal _ sigma => (.ok [], (x.1, .normal v sigma))
    | _ => (.error .notImplemented, x)

/-- What a variable on its own yields. -/
def ownRun [PyArith V] [BitGen S V] (x : S × Dist V) : List (VarOp V) → List (Except Err (List V))
  | [] => []
  | op :: rest => (ownStep x op).1 :: ownRun (ownStep x op).2 rest

/-- The operations of a history on variable `i`. -/
def opsOn (i : Nat) (ops : List (RvOp V)) : List (VarOp V) :=
  ops.filterMap fun op => match op with
    | .use j o => if j = i then some o else none
    | .create _ _ _ => none

/-- What variable `i` yielded in a history. -/
def outputsOf (i : Nat) (outs : List (Nat × Except Err (List V))) : List (Except Err (List V)) :=
  outs.filterMap fun x => if x.1 = i then some x.2 else none

/-- No variable created yet. -/
def RvState.start (entropy : Nat → S) : RvState S V := ⟨[], ⟨entropy, 0, entropy, 0⟩⟩

end Gerabaldi.Spec
