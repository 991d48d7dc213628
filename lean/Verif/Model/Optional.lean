import Verif.Model.CbiModel

/-!
# Model of the optional packages (`gerabaldi/helpers.py:128-149`) and of exports that use them

Importing a module is modelled by its outcome: the module's attributes or the exception it raises, with the names of
the exception's class and base classes. The outcome for a name is the same whenever it is imported.
-/

namespace Gerabaldi

/-- An exception raised by an import: its class followed by the base classes. -/
structure Exc where
  mro : List String
  deriving DecidableEq, Repr

/-- The attributes a module has. -/
abbrev Attrs := String → Bool

/-- What `_on_demand_import` returns: a module or a `FailedImport` object with its hint. -/
inductive Handle
  | loaded (has : Attrs)
  | failed (hint : String)

/-- The message of a `FailedImport`, `gerabaldi/helpers.py:135-138`. -/
def importHint (module pypi : String) : String :=
  "Trying to use a feature that requires the optional " ++ module ++ " module. Please install or fix package \"" ++
    pypi ++ "\" first."

/-- `_on_demand_import`, `gerabaldi/helpers.py:128-149`, given the outcome of `importlib.import_module(module)`.
`if not pypi_name` holds for None and for the empty string. -/
def onDemandImport (outcome : Except Exc Attrs) (module : String) (pypi : Option String) : Except Exc Handle :=
  match outcome with
  | .ok has => .ok (.loaded has)
  | .error e =>
    if "ImportError" ∈ e.mro ∨ "SystemError" ∈ e.mro then
      .ok (.failed (importHint module (match pypi with
        | none => module
        | some p => if p = "" then module else p)))
    else .error e

/-- The optional imports executed by `import gerabaldi`, in order: `gerabaldi/models/random_vars.py:14-16`,
`gerabaldi/models/devices.py:19-22`, `gerabaldi/models/phys_envs.py:22-24`. -/
def optionalImports : List (String × Option String) :=
  [("pymc", none), ("pyro", some "pyro-ppl"), ("pyro.distributions", some "pyro-ppl"),
    ("pymc", none), ("pyro", some "pyro-ppl"), ("pyro.distributions", some "pyro-ppl"), ("torch", none),
    ("pymc", none), ("pyro", some "pyro-ppl"), ("torch", none)]

/-- Execution of a list of optional imports; an exception ends it (and with it the import of the package). -/
def runImports (world : String → Except Exc Attrs) : List (String × Option String) → Except Exc (List Handle)
  | [] => .ok []
  | (m, p) :: rest => match onDemandImport (world m) m p with
    | .error e => .error e
    | .ok h => match runImports world rest with
      | .error e => .error e
      | .ok hs => .ok (h :: hs)

/-- Attributes found on every object of a Python class, for which `__getattr__` is not called. -/
def objectAttrs : List String :=
  ["__class__", "__delattr__", "__dict__", "__dir__", "__doc__", "__eq__", "__format__", "__ge__", "__getattr__",
    "__getattribute__", "__getstate__", "__gt__", "__hash__", "__init__", "__init_subclass__", "__le__", "__lt__",
    "__module__", "__ne__", "__new__", "__reduce__", "__reduce_ex__", "__repr__", "__setattr__", "__sizeof__",
    "__str__", "__subclasshook__", "__weakref__"]

/-- An exception of an export: that of a missing package or another one. -/
inductive ExportErr
  | missing (hint : String)
  | other (e : Err)
  deriving DecidableEq

/-- `handle.attr`: `FailedImport.__getattr__` raises `ImportError(hint)`, `gerabaldi/helpers.py:145-146`. -/
def Handle.attr : Handle → String → Except ExportErr Unit
  | .loaded has, a => if has a then .ok () else .error (.other .attributeError)
  | .failed hint, a => if a ∈ objectAttrs then .ok () else .error (.missing hint)

/-- The packages the exports use. -/
structure Handles where
  pymc : Handle
  pyro : Handle
  dist : Handle
  torch : Handle

section
variable {V : Type} [PyArith V]

/-- `except AttributeError as e: raise NotImplementedError`, `gerabaldi/models/random_vars.py:85-89, 95-99`. -/
def notImplementedHere (x : Except ExportErr Unit) : Except ExportErr Unit :=
  match x with
  | .error (.other .attributeError) => .error (.other .notImplemented)
  | y => y

/-- An exception of the other models. -/
def liftErr {α : Type} : Except Err α → Except ExportErr α
  | .ok x => .ok x
  | .error e => .error (.other e)

/-- `get_cbi_form`, `gerabaldi/models/random_vars.py:64-101`, with the packages that are there: the attributes are
looked up before the parameters are computed. -/
def RVar.getCbiFormIn (hs : Handles) (r : RVar V) (target : String) : Except ExportErr (CbiForm V) :=
  if target = "pymc" then do
    notImplementedHere (hs.pymc.attr r.dist.className)
    liftErr (r.getCbiForm "pymc")
  else if target = "pyro" then do
    notImplementedHere (hs.pyro.attr "sample")
    notImplementedHere (hs.dist.attr r.dist.className)
    liftErr (r.getCbiForm "pyro")
  else .error (.other .notImplemented)

/-- The CBI form of a layer, if the layer is defined. -/
def layerFormIn (hs : Handles) (isDef : Bool) (r : RVar V) (target : String) : Except ExportErr (List (CbiForm V)) :=
  if isDef then
    match r.getCbiFormIn hs target with
    | .ok f => .ok [f]
    | .error e => .error e
  else .ok []

/-- The CBI forms of the layers and the final `pymc.Deterministic`, `gerabaldi/models/devices.py:230-247`. -/
def LatentVar.cbiLayersIn (hs : Handles) (lv : LatentVar V) (target : String) :
    Except ExportErr (List (CbiForm V)) := do
  let d ← lv.dev.getCbiFormIn hs target
  let cs ← layerFormIn hs lv.chpDef lv.chp target
  let ls ← layerFormIn hs lv.lotDef lv.lot target
  if target = "pymc" ∧ (lv.chpDef ∨ lv.lotDef) then do
    hs.pymc.attr "Deterministic"
    pure (d :: (cs ++ ls))
  else pure (d :: (cs ++ ls))

/-- The choice of the operation, `gerabaldi/models/devices.py:214-219`: for pyro an attribute of torch. -/
def LatentVar.opIn (hs : Handles) (lv : LatentVar V) (target : String) : Except ExportErr Unit :=
  if target = "pymc" then .ok ()
  else if target = "pyro" then hs.torch.attr (if lv.vrtnType = some .scaling then "multiply" else "add")
  else .error (.other .notImplemented)

/-- `cbi_export`, `gerabaldi/models/devices.py:198-253`, with the packages that are there: result and the object
afterwards (also after an exception). -/
def LatentVar.cbiExportIn (hs : Handles) (lv : LatentVar V) (target : String) :
    Except ExportErr (CbiExport V) × LatentVar V :=
  if !lv.devDef then (.error (.other .userConfig), lv)
  else
    match lv.opIn hs target with
    | .error e => (.error e, lv)
    | .ok _ =>
      let t : VType := if lv.vrtnType = some .scaling then .scaling else .offset
      -- lines 222-228: `if self.deter_val` is false for None and for zero
      let useDeter : Option V := match lv.deterVal with
        | some v => if PyArith.eq v (PyArith.ofRat 0) then none else some v
        | none => none
      let shifted : Except Err (Option V × LatentVar V) := match useDeter with
        | none => .ok (none, lv)
        | some v => match lv.dev.getCentre with
          | .error e => .error e
          | .ok c => match lv.dev.setCentre v (some t.op) with
            | .error e => .error e
            | .ok d => .ok (some c, { lv with dev := d })
      match shifted with
      | .error e => (.error (.other e), lv)
      | .ok (oldCentre, lv1) =>
        match lv1.cbiLayersIn hs target with
        | .error e => (.error e, lv1)
        | .ok ls =>
          let res : CbiExport V := ⟨t,
            if target = "pymc" ∧ (lv1.chpDef ∨ lv1.lotDef) then some lv1.name else none, ls⟩
          -- lines 249-250: `if old_centre` is false for None and for zero
          match oldCentre with
          | none => (.ok res, lv1)
          | some c =>
            if PyArith.eq c (PyArith.ofRat 0) then (.ok res, lv1)
            else match lv1.dev.setCentre c none with
              | .ok d => (.ok res, { lv1 with dev := d })
              | .error e => (.error (.other e), lv1)

end
end Gerabaldi
