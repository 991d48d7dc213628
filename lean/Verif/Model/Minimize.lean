import Verif.Model.Num

/-!
# Model of `gerabaldi/math/minimize.py`

The vectorised arrays are modelled as a list with one record of scalars per element; the only place
where elements interact is the stopping test (`np.all`) and the objective call, which receives all
points at once.
-/

namespace Gerabaldi

/-- Numeric parameters of one `minimize` call, `gerabaldi/math/minimize.py:16-32`. `lo`, `hi` are the
bounds in search coordinates (`np.log10(bounds)` when `log_gold`), `xf` maps a search coordinate to
the value given to the objective (`10**x` when `log_gold`, else the identity). -/
structure MinCfg (V : Type) where
  gf2 : V
  relTol : V
  absTol : V
  lo : V
  hi : V
  xf : V → V
  maxiter : Nat

/-- Loop variables of one element, `gerabaldi/math/minimize.py:35-63`. `m`, `tol`, `tol2` are
functions of these and are recomputed (they are recomputed at the end of each iteration in the code). -/
structure BState (V : Type) where
  a : V
  b : V
  v : V
  w : V
  x : V
  fv : V
  fw : V
  fx : V
  d : V
  e : V
  deriving Repr, DecidableEq

section
variable {V : Type} [PyArith V]
open PyArith

/-- `m = (b + a) / 2.0`, lines 59 and 125. -/
def BState.mid (s : BState V) : V := div (add s.b s.a) (ofRat 2)

/-- `tol = (rel_tol * np.abs(x)) + abs_tol`, lines 61 and 126. -/
def BState.tol (c : MinCfg V) (s : BState V) : V := add (mul c.relTol (abs s.x)) c.absTol

/-- `tol2 = tol * 2.0`, lines 63 and 127. -/
def BState.tol2 (c : MinCfg V) (s : BState V) : V := mul (s.tol c) (ofRat 2)

/-- `np.less(np.abs(x - m), tol2 - (b - m))` for one element, line 66. -/
def BState.done (c : MinCfg V) (s : BState V) : Bool :=
  lt (abs (sub s.x s.mid)) (sub (s.tol2 c) (sub s.b s.mid))

/-- Lines 46, 50, 56 of `gerabaldi/math/minimize.py`: the starting point of one element. -/
def MinCfg.x0 (c : MinCfg V) : V := add c.lo (mul c.gf2 (sub c.hi c.lo))

/-- Initial loop variables of one element given the objective at the starting point, lines 35-56. -/
def MinCfg.init (c : MinCfg V) (f0 : V) : BState V :=
  { a := c.lo, b := c.hi, v := c.x0, w := c.x0, x := c.x0, fv := f0, fw := f0, fx := f0,
    d := ofRat 0, e := ofRat 0 }

/-- The new step of one element, `gerabaldi/math/minimize.py:68-96`; each `np.where` is an `if` on the
element. -/
def BState.step (c : MinCfg V) (s : BState V) : V :=
  let m := s.mid
  let tol := s.tol c
  let tol2 := s.tol2 c
  let usePara0 := gt (abs s.e) tol
  let xdiff1 := if usePara0 then sub s.x s.w else ofRat 0
  let xdiff2 := if usePara0 then sub s.x s.v else ofRat 0
  let qsub1 := mul xdiff1 (sub s.fx s.fv)
  let qsub2 := mul xdiff2 (sub s.fx s.fw)
  let q0 := mul (ofRat 2) (sub qsub2 qsub1)
  let usePara := usePara0 && !(eq q0 (ofRat 0))
  let p0 := if usePara then sub (mul xdiff2 qsub2) (mul xdiff1 qsub1) else ofRat 0
  let p := if gt q0 (ofRat 0) then neg p0 else p0
  let q := abs q0
  let furtherBoundary := if ge s.x m then s.a else s.b
  let gold := mul c.gf2 (sub furtherBoundary s.x)
  let step0 := if usePara then div p q else gold
  let uTent0 := add s.x step0
  let changeToGold := usePara &&
    (lt s.b uTent0 || gt s.a uTent0 || gt (abs step0) (mul (ofRat (1 / 2)) (abs s.e)))
  let step1 := if changeToGold then gold else step0
  let uTent := if changeToGold then add s.x step1 else uTent0
  let step2 := if lt (sub uTent s.a) tol2 || lt (sub s.b uTent) tol2 then
    (if lt s.x m then tol else neg tol) else step1
  if lt (abs step2) tol then (if gt step2 (ofRat 0) then tol else neg tol) else step2

/-- The variable updates of one element, `gerabaldi/math/minimize.py:98-122`, given the step and the
objective value `fu` at `u = x + step`. -/
def BState.update (s : BState V) (stp : V) (fu : V) : BState V :=
  let u := add s.x stp
  let isLess := le fu s.fx
  let a' := if isLess && ge u s.x then s.x else if !isLess && lt u s.x then u else s.a
  let b' := if isLess && lt u s.x then s.x else if !isLess && ge u s.x then u else s.b
  let vCond1 := isLess || le fu s.fw || eq s.w s.x
  let vCond2 := le fu s.fv || eq s.v s.w || eq s.v s.x
  let wCond := le fu s.fw || eq s.w s.x
  { a := a', b := b'
    v := if vCond1 then s.w else if vCond2 then u else s.v
    fv := if vCond1 then s.fw else if vCond2 then fu else s.fv
    w := if isLess then s.x else if wCond then u else s.w
    fw := if isLess then s.fx else if wCond then fu else s.fw
    x := if isLess then u else s.x
    fx := if isLess then fu else s.fx
    e := s.d
    d := stp }

/-- The points handed to the objective in the next iteration, lines 98-103. -/
def nextPoints (c : MinCfg V) (ss : List (BState V)) : List V :=
  ss.map fun s => c.xf (add s.x (s.step c))

/-- All elements after one iteration, lines 105-127. -/
def updateAll (c : MinCfg V) (ss : List (BState V)) (fus : List V) : List (BState V) :=
  List.zipWith (fun s fu => s.update (s.step c) fu) ss fus

/-- The `while` loop, `gerabaldi/math/minimize.py:66-129`; the first argument is the number of
iterations left (`maxiter - completed_iters`). An objective that returns an array of another shape is
not modelled. -/
def minLoop {W : Type} (c : MinCfg V) (func : List V → M W (List V)) :
    Nat → List (BState V) → M W (List (BState V))
  | 0, ss => pure ss
  | k + 1, ss =>
    if ss.all (BState.done c) then pure ss
    else do
      let fus ← func (nextPoints c ss)
      if fus.length = ss.length then minLoop c func k (updateAll c ss fus)
      else M.throw .unmodelled

/-- `minimize`, `gerabaldi/math/minimize.py:23-134`, for `n` elements. The extra arguments are part of
`func`; warnings are not modelled. -/
def minimize {W : Type} (c : MinCfg V) (func : List V → M W (List V)) (n : Nat) : M W (List V) := do
  let f0s ← func (List.replicate n (c.xf c.x0))
  if f0s.length = n then do
    let ss ← minLoop c func c.maxiter (f0s.map c.init)
    pure (ss.map fun s => c.xf s.x)
  else M.throw .unmodelled

end

/-- The parameters used by `DegMechMdl.calc_equiv_strs_time`, `gerabaldi/models/devices.py:551-552`
with the constants of `gerabaldi/math/minimize.py:14-32`: bounds `(1e-3, 1e10)` (`log10` is exactly -3
and 10), `maxiter=50`, `log_gold=True`, `precision=1e-5`, `mach_eps=2**-53`. `GF2` and
`mach_eps**0.5` are the exact values of the doubles Python computes. -/
def equivTimeCfg (V : Type) [PyNum V] : MinCfg V where
  gf2 := PyArith.ofRat (215027748241771 / 562949953421312)
  relTol := PyArith.ofRat (6369051672525773 / 604462909807314587353088)
  absTol := PyArith.div (PyArith.ofRat (1 / 100000)) (PyArith.ofRat 3)
  lo := PyArith.ofRat (-3)
  hi := PyArith.ofRat 10
  xf := PyNum.pow10
  maxiter := 50

end Gerabaldi
