import Verif.Spec.Sim
import Verif.Spec.Rows
import Verif.Model.Device

/-!
# The layout of the measurement table as the test specification alone describes it (C80)
-/

namespace Gerabaldi.Spec

variable {V : Type}

/-- What a row says besides the value: step number, name, place (lot, chip, device) and time. -/
abbrev Entry := Nat × String × (Option Nat × Option Nat × Option Nat) × ℚ

/-- The entry of a row. -/
def entry (x : MeasRow V) : Entry := (x.step, x.prm, place x, timeVal x.time)

/-- The entries for `n` samples of one name in step `i` at time `t`: one per lot, chip and device for a name the
device model knows, `n` entries without a place for a condition. -/
def requested (L C : Nat) (known : String → Bool) (i : Nat) (t : ℚ) (kv : String × Nat) : List Entry :=
  (if known kv.1 then places L C kv.2 else List.replicate kv.2 (none, none, none)).map fun x => (i, kv.1, x, t)

/-- The entries of one step. -/
def stepLayout (L C : Nat) (known : String → Bool) (i : Nat) (t : ℚ) : Step V → List Entry
  | .meas m => m.measurements.flatMap (requested L C known i t)
  | _ => []

/-- The entries of consecutive steps, numbered from `i` on, the first one at time `t`. -/
def layout (L C : Nat) (known : String → Bool) : Nat → ℚ → List (Step V) → List Entry
  | _, _, [] => []
  | i, t, st :: rest => stepLayout L C known i t st ++ layout L C known (i + 1) (t + stressLen st) rest

/-- The number of readings a step asks for. -/
def stepSize (L C : Nat) (known : String → Bool) : Step V → Nat
  | .meas m => (m.measurements.map fun kv => if known kv.1 then L * C * kv.2 else kv.2).sum
  | _ => 0

/-- A circuit parameter of which `n` samples are measured on as many devices as there are, at least one per lot. -/
structure WholeCircuit {W : Type} [Inhabited V] (dev : DeviceMdl W V) (counts : Dict Nat) (L : Nat)
    (prm : String) (m : LatentMdl W V) (n : Nat) : Prop where
  shape : ShapeSafe m.compute
  own : counts.get? prm = some n
  read : ∀ p d, p ∈ m.compute.argNames → dev.prms.get? p = some (.deg d) → counts.get? p = some n
  lots : L ≤ n

end Gerabaldi.Spec
