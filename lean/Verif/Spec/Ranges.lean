import Verif.Model.Sim
import Verif.Spec.Helpers

/-!
# Specification vocabulary for the ranges of the simulated values

A range is a set of numbers. `Ranges` gives one to every argument of the equations of every parameter, to
the true values of the parameters and conditions, and to the readings.
-/

namespace Gerabaldi.Spec

/-- All entries satisfy the predicate. -/
def EveryEntry {α : Type} (P : String → α → Prop) (d : Dict α) : Prop := ∀ k v, (k, v) ∈ d → P k v

section values
variable {W V : Type}

/-- All elements of the array are in the range. -/
def ArrIn (A : V → Prop) (a : Arr3 V) : Prop := ∀ x ∈ a.data, A x

/-- All elements of the value are in the range. -/
def ValIn (A : V → Prop) : PyVal V → Prop
  | .arr a => ArrIn A a
  | .scal v => A v
  | .npscal v => A v

/-- The equation maps arguments in the ranges `A` to results in the range `B`. -/
def Maps (f : PyFun W V) (A : String → V → Prop) (B : V → Prop) : Prop :=
  ∀ args w r w', EveryEntry (fun k v => ValIn (A k) v) args → f.call args w = (.ok r, w') → ValIn B r

/-- Latent values in the ranges of their names; the latent values of a mechanism are nested. -/
def LatIn (A : String → V → Prop) (k : String) : LatNode V → Prop
  | .arr a => ArrIn (A k) a
  | .sub d => EveryEntry (fun k a => ArrIn (A k) a) d

end values

/-- The ranges: `arg p k` for the argument `k` of the equations of parameter `p`, `val p` for the true
values of parameter or condition `p`, `read p` for its readings, `num` for the numbers the search for the
equivalent times calculates with. -/
structure Ranges (V : Type) where
  arg : String → String → V → Prop
  val : String → V → Prop
  read : String → V → Prop
  num : V → Prop

section
variable {W V : Type} [PyNum V] [Rng W V]
open PyArith

/-- Arithmetic does not leave the set of numbers, except for a division by zero. -/
structure NumClosed (F : V → Prop) : Prop where
  lit : ∀ q, F (ofRat q)
  add : ∀ {x y}, F x → F y → F (add x y)
  sub : ∀ {x y}, F x → F y → F (sub x y)
  mul : ∀ {x y}, F x → F y → F (mul x y)
  neg : ∀ {x}, F x → F (neg x)
  abs : ∀ {x}, F x → F (abs x)
  div : ∀ {x y}, F x → F y → eq y (ofRat 0) = false → F (div x y)
  absZero : ∀ {x : V}, eq x (ofRat 0) = false → eq (PyArith.abs x) (ofRat 0) = false
  litZero : ∀ {q : ℚ}, q ≠ 0 → eq (ofRat q : V) (ofRat 0) = false

/-- All values drawn for the latent variables of the model are in the ranges of their names. -/
def DrawsIn (A : String → V → Prop) (m : LatentMdl W V) : Prop :=
  ∀ k lv, (k, lv) ∈ m.latentVars → ∀ n C L (w : W) a w', lv.genLatentVals n C L w = (.ok a, w') →
    ArrIn (A k) a

/-- The equation of the mechanism keeps its degradation, named `k`, in its range, at all times in the range
of the times; the search stays within the numbers. -/
structure MechIn (R : Ranges V) (p k : String) (m : MechMdl W V) : Prop where
  draws : DrawsIn (R.arg p) m.mdl
  eqn : Maps m.mdl.compute (R.arg p) (R.arg p k)
  start : R.arg p k m.unitary
  nums : m.kind = .deg → ∀ x, R.arg p k x → R.num x
  times : m.kind = .deg → ∀ x, R.num x → R.arg p "time" (PyNum.pow10 x)

/-- The equations of the degraded parameter `p` keep its values in their ranges. -/
structure DegIn (R : Ranges V) (p : String) (d : DegPrmMdl W V) : Prop where
  unique : d.mechs.Nodup
  mechs : ∀ k m, (k, m) ∈ d.mechs → MechIn R p k m
  initDraws : DrawsIn (R.arg p) d.initMdl
  initEqn : Maps d.initMdl.compute (R.arg p) (R.val p)
  init : ∀ x, R.val p x → R.arg p "init" x
  condDraws : DrawsIn (R.arg p) d.condMdl
  condEqn : Maps d.condMdl.compute (R.arg p) (R.arg p "cond")
  cond : R.arg p "cond" d.condUnitary
  draws : DrawsIn (R.arg p) d.mdl
  eqn : Maps d.mdl.compute (R.arg p) (R.val p)

/-- The equation of the circuit parameter `p` keeps its values in their range. -/
structure CircIn (R : Ranges V) (p : String) (c : LatentMdl W V) : Prop where
  draws : DrawsIn (R.arg p) c
  prms : ∀ k x, R.val k x → R.arg p k x
  eqn : Maps c.compute (R.arg p) (R.val p)

/-- The equations of the device keep its values in their ranges. -/
structure DeviceIn (R : Ranges V) (dev : DeviceMdl W V) : Prop where
  deg : ∀ p d, (p, .deg d) ∈ dev.prms → DegIn R p d
  circ : ∀ p c, (p, .circ c) ∈ dev.prms → CircIn R p c

/-- All condition values are in the ranges of their names. -/
def CondsIn (R : Ranges V) (conds : Dict (Dict (Arr3 V))) : Prop :=
  EveryEntry (fun p cs => EveryEntry (fun k a => ArrIn (R.arg p k) a) cs) conds

/-- The conditions of the stress step, and the times reached from any equivalent time, are in their
ranges. -/
structure StressIn (R : Ranges V) (ord : SetOrder) (dev : DeviceMdl W V) (env : PhysTestEnv V)
    (st : StrsSpec V) : Prop where
  conds : ∀ q (w : W) conds w', env.genEnvCondVals ord st.conditions (.names (dev.degPrms.map (·.1)))
    (some q) (some dev) .stress 1 1 w = (.ok conds, w') → CondsIn R conds
  times : ∀ p d, (p, .deg d) ∈ dev.prms → ∀ k m, (k, m) ∈ d.mechs → ∀ q,
    convertTime st.duration m.timeUnit = .ok (.num q) →
    (m.kind = .deg → ∀ x, R.num x → R.arg p "time" (PyArith.add (PyNum.pow10 x) (ofRat q))) ∧
    (m.kind = .fail → R.arg p "time" (PyArith.add (ofRat 0) (ofRat q)))

/-- The conditions of the measurement step are in their ranges, and so are the readings of the
instruments. -/
structure MeasIn (R : Ranges V) (ord : SetOrder) (dev : DeviceMdl W V) (env : PhysTestEnv V)
    (step : MeasSpec V) : Prop where
  conds : ∀ q (w : W) conds w', env.genEnvCondVals ord step.conditions (.counts step.measurements)
    (some q) (some dev) .measure 1 1 w = (.ok conds, w') → CondsIn R conds
  sensors : ∀ p ∈ step.measurements.keys, p ∉ dev.prms.keys → ∀ x, R.arg p p x → R.val p x
  instms : ∀ p ∈ step.measurements.keys, ∀ ins, env.measInstm p = .ok ins → ∀ xs (w : W) ys w',
    (∀ x ∈ xs, R.val p x) → ins.measureVals xs w = (.ok ys, w') → ∀ y ∈ ys, R.read p y

/-- The steps keep the values in their ranges. -/
structure StepsIn (R : Ranges V) (ord : SetOrder) (dev : DeviceMdl W V) (env : PhysTestEnv V)
    (steps : List (Step V)) : Prop where
  stress : ∀ st, .strs st ∈ steps → StressIn R ord dev env st
  measure : ∀ m, .meas m ∈ steps → MeasIn R ord dev env m

end

section
variable {V : Type}

/-- The values of the state are in their ranges. -/
structure StateIn (R : Ranges V) (s : SimState V) : Prop where
  prm : EveryEntry (fun p v => ValIn (R.val p) v) s.currPrm
  initPrm : EveryEntry (fun p v => ValIn (R.val p) v) s.initPrm
  mech : EveryEntry (fun p d => EveryEntry (fun k a => ArrIn (R.arg p k) a) d) s.currMech
  latents : EveryEntry (fun p d => EveryEntry (LatIn (R.arg p)) d) s.latents

end

end Gerabaldi.Spec
