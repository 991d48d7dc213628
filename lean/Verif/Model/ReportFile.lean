import Verif.Model.ReportIO

/-!
# Saving reports to files and loading them (`gerabaldi/models/reports.py`)

A file name is given as the list of its pieces between slashes (`'a/b.json'` is `["a", "b.json"]`, `'/b.json'` is
`["", "b.json"]`). Symbolic links, `..`, permissions and full disks are not modelled.
-/

namespace Gerabaldi

/-- The names of the directories from the root to a place on the disk, and its own name. -/
abbrev Place := List String

/-- The directories and the files (with the JSON document in them) on a disk, and the current directory. -/
structure Disk (V : Type) where
  dirs : List Place
  files : Place → Option (ReportJson V)
  cwd : Place

/-- Exceptions of file operations. -/
inductive FileErr
  | py (e : Err)
  | fileExists
  | notADirectory
  | isADirectory
  deriving DecidableEq

variable {V : Type}

/-- The place of a file name: from the root if it starts with a slash, else from the current directory. -/
def Disk.place (d : Disk V) (pieces : List String) : Place :=
  let names := pieces.filter fun s => s ≠ "" ∧ s ≠ "."
  match pieces with
  | "" :: _ :: _ => names
  | _ => d.cwd ++ names

/-- `Path(p).mkdir(exist_ok=True)`: the directory above has to exist. -/
def Disk.mkdir (d : Disk V) (p : Place) : Except FileErr (Disk V) :=
  if p ∈ d.dirs then .ok d
  else if (d.files p).isSome then .error .fileExists
  else if p.dropLast ∈ d.dirs then .ok { d with dirs := p :: d.dirs }
  else if (d.files p.dropLast).isSome then .error .notADirectory
  else .error (.py .fileNotFound)

/-- `open(file, 'w')` and `json.dump`. -/
def Disk.write (d : Disk V) (p : Place) (j : ReportJson V) : Except FileErr (Disk V) :=
  if p ∈ d.dirs then .error .isADirectory
  else if p.dropLast ∈ d.dirs then .ok { d with files := fun q => if q = p then some j else d.files q }
  else if (d.files p.dropLast).isSome then .error .notADirectory
  else .error (.py .fileNotFound)

/-- `export_to_json` with a file name, `gerabaldi/models/reports.py:170-219`: the result and the disk afterwards.
`file.rpartition('/')[0]` is all but the last piece. -/
def ReportData.exportFile (enc : JsonEnc V) (r : ReportData V) (d : Disk V) (file : List String)
    (given : Option String) : Except FileErr (ReportJson V) × Disk V :=
  match r.exportJson enc given with
  | .error e => (.error (.py e), d)
  | .ok j => match d.mkdir (d.place file.dropLast) with
    | .error e => (.error e, d)
    | .ok d1 => match d1.write (d1.place file) j with
      | .error e => (.error e, d1)
      | .ok d2 => (.ok j, d2)

/-- `SimReport(file=...)`, `gerabaldi/models/reports.py:66-84`. -/
def Disk.load (d : Disk V) (file : List String) : Except FileErr (ReportData V) :=
  match d.files (d.place file) with
  | some j => match loadReport j with
    | .ok r => .ok r
    | .error e => .error (.py e)
  | none =>
    if d.place file ∈ d.dirs then .error .isADirectory
    else if (d.files (d.place file).dropLast).isSome then .error .notADirectory
    else .error (.py .fileNotFound)

end Gerabaldi
