import Verif.Model.ReportFile
import Verif.Spec.ReportIO

/-!
# Reports in files (C86)
-/

namespace Gerabaldi.Spec

variable {V : Type}

/-- A disk as it can be: the root and the current directory exist, every directory is in one, no directory is a
file. -/
structure SaneDisk (d : Disk V) : Prop where
  root : [] ∈ d.dirs
  cwd : d.cwd ∈ d.dirs
  above : ∀ p ∈ d.dirs, p.dropLast ∈ d.dirs
  kinds : ∀ p ∈ d.dirs, d.files p = none

/-- A name that is one: not empty and not the dot for the directory itself. -/
def ProperName (s : String) : Prop := s ≠ "" ∧ s ≠ "."

/-- The file name, the directory it is in and the directory above that one can be used on this disk: the last exists,
there is no file in place of the directory and no directory in place of the file. -/
structure Reachable (d : Disk V) (dir : List String) (name : String) : Prop where
  above : (d.place dir).dropLast ∈ d.dirs
  free : d.files (d.place dir) = none
  target : d.place (dir ++ [name]) ∉ d.dirs

end Gerabaldi.Spec
