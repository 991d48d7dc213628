import Verif.Model.Env
import Verif.Model.Build
import Verif.Model.Ext
import Verif.Spec.CountRng

/-!
# A small device for the examples

Values are extended rationals; `10**x` is interpolated linearly between integer exponents (only its
values at the integers matter here).
-/

namespace Gerabaldi.Spec.Ex

/-- A computable stand-in for `10**x`. -/
instance : Pow10 ℚ := ⟨fun x => (10 : ℚ) ^ ⌊x⌋ * (1 + 9 * (x - ⌊x⌋))⟩

/-- Example values. -/
abbrev Q := Ext ℚ

/-- An equation of two arguments. -/
def eqn2 (a b : String) (f : Q → Q → Q) : PyFun Counts Q where
  params := [(a, false), (b, false)]
  call := fun args => M.ofExcept (do
    let x ← args.getE a
    let y ← args.getE b
    PyVal.bin f x y)

/-- Mechanism `time * temp`, in hours. -/
def drift : MechMdl Counts Q :=
  .mk' .deg 0 (some (eqn2 "time" "temp" PyArith.mul)) none (.fin 0) (some "h") []

/-- Hard failure above `temp > 100`. -/
def burn : MechMdl Counts Q :=
  .mk' .fail 1 (some (eqn2 "time" "temp" fun _ x => if PyArith.gt x (.fin 100) then .fin 5 else .fin 0))
    none (.fin 0) (some "h") []

/-- A degraded parameter with initial value `init` and the given mechanisms. -/
def degPrm (mechs : Dict (MechMdl Counts Q)) (init : Q) : DegPrmMdl Counts Q where
  initMdl := initValMk none none [("init_val", constLatent init)]
  condMdl := (condShiftMk none none (.fin 0) []).1
  condUnitary := .fin 0
  mechs := mechs
  mdl := { compute := basicSum }

/-- "vth" degrades with `burn`, "delay" is the circuit parameter `vth * vdd`. -/
def dev : DeviceMdl Counts Q where
  prms := [("vth", .deg (degPrm [("burn", burn)] (.fin 3))),
    ("delay", .circ { compute := eqn2 "vth" "vdd" PyArith.mul })]

/-- Keep the order of first appearance. -/
def orderA : SetOrder where
  order := fun xs => xs.dedup
  nodup := fun xs => List.nodup_dedup xs
  mem := fun _ _ => List.mem_dedup

/-- The opposite order. -/
def orderB : SetOrder where
  order := fun xs => xs.dedup.reverse
  nodup := fun xs => List.nodup_reverse.2 (List.nodup_dedup xs)
  mem := fun _ _ => by simp

end Gerabaldi.Spec.Ex
