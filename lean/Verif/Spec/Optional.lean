import Verif.Model.Optional

/-!
# Vocabulary for optional packages (C81)
-/

namespace Gerabaldi.Spec

/-- The package is absent or its import fails as imports of absent modules do. -/
def ImportFails (x : Except Exc Attrs) : Prop :=
  ∃ e, x = .error e ∧ ("ImportError" ∈ e.mro ∨ "SystemError" ∈ e.mro)

/-- A message that names the module and the package to install. -/
def Names (hint module package : String) : Prop := ∃ a b c, hint = a ++ module ++ b ++ package ++ c

/-- PyMC provides the classes the exports use. -/
structure PymcThere (has : Attrs) : Prop where
  normal : has "Normal" = true
  gamma : has "Gamma" = true
  uniform : has "Uniform" = true
  deterministic : has "Deterministic" = true

/-- Pyro, its distributions and torch provide what the exports use. -/
structure PyroThere (pyro dist torch : Attrs) : Prop where
  sample : pyro "sample" = true
  normal : dist "Normal" = true
  gamma : dist "Gamma" = true
  uniform : dist "Uniform" = true
  multiply : torch "multiply" = true
  add : torch "add" = true

/-- The outcome of an export in the model that takes the packages for granted. -/
def granted {V : Type} (x : Except Err (CbiExport V)) : Except ExportErr (CbiExport V) :=
  match x with
  | .ok y => .ok y
  | .error e => .error (.other e)

end Gerabaldi.Spec
