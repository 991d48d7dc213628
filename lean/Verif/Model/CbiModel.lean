import Verif.Model.Device

/-!
# Model of `LatentMdl.export_to_cbi` (`gerabaldi/models/devices.py:323-356`)
-/

namespace Gerabaldi

/-- An argument of the model's equation in an export: an exported latent variable or observed data. -/
inductive CbiArg (V : Type)
  | latent (e : CbiExport V)
  | data (v : PyVal V)
  deriving DecidableEq

/-- What is handed to the framework: a normal distribution around the model's equation applied to `args`,
with the observed output. The equation itself is not evaluated (its arguments are symbolic). -/
structure ModelForm (V : Type) where
  name : Option String
  args : Dict (CbiArg V)
  sigma : V
  observed : PyVal V
  deriving DecidableEq

section
variable {W V : Type} [PyArith V]

/-- `for var in self.latent_vars: vals[var] = ...cbi_export(target)`, `gerabaldi/models/devices.py:340-342`:
the exports, and the latent variables afterwards (also after an exception). -/
def exportLatents (target : String) : Dict (LatentVar V) →
    Except Err (Dict (CbiArg V)) × Dict (LatentVar V)
  | [] => (.ok [], [])
  | (k, lv) :: rest =>
    match lv.cbiExport target with
    | (.error e, lv') => (.error e, (k, lv') :: rest)
    | (.ok x, lv') =>
      match exportLatents target rest with
      | (.error e, rest') => (.error e, (k, lv') :: rest')
      | (.ok xs, rest') => (.ok ((k, .latent x) :: xs), (k, lv') :: rest')

/-- `for strs in observed: if strs != self.name: vals[strs] = observed[strs]`,
`gerabaldi/models/devices.py:345-347`. -/
def addObserved (name : Option String) (observed : Dict (PyVal V)) (vals : Dict (CbiArg V)) :
    Dict (CbiArg V) :=
  observed.foldl (fun acc kv => if name = some kv.1 then acc else acc.set kv.1 (.data kv.2)) vals

/-- `self.compute(**vals)` binds: only the names matter, `gerabaldi/models/devices.py:350`. The equation is
assumed to accept symbolic arguments. -/
def PyFun.acceptsNames (f : PyFun W V) (args : Dict (CbiArg V)) : Bool :=
  f.accepts (args.map fun kv => (kv.1, PyVal.scal (PyArith.ofRat 0)))

/-- `export_to_cbi`, `gerabaldi/models/devices.py:323-356`: result and the model's latent variables
afterwards. `observed = none` is the default argument, which cannot be iterated. For other frameworks than
PyMC the last line calls `.to_event(1)` on the tensor that `pyro.sample` returns; tensors have no such
method. -/
def LatentMdl.exportToCbi (m : LatentMdl W V) (target : String) (observed : Option (Dict (PyVal V))) :
    Except Err (ModelForm V) × Dict (LatentVar V) :=
  match exportLatents target m.latentVars with
  | (.error e, vars) => (.error e, vars)
  | (.ok vals, vars) =>
    match observed with
    | none => (.error .typeError, vars)
    | some obs =>
      let args := addObserved m.name obs vals
      if m.compute.acceptsNames args then
        match m.name.bind obs.get? with
        | none => (.error .keyError, vars)
        | some o =>
          if target = "pymc" then (.ok ⟨m.name, args, PyArith.ofRat 1, o⟩, vars)
          else (.error .attributeError, vars)
      else (.error .typeError, vars)

end

end Gerabaldi
