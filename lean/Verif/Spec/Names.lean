import Verif.Model.Latent

/-!
# Specification of the names of layer distributions
-/

namespace Gerabaldi.Spec

variable {V : Type}

/-- The name of every user-defined layer of a variable called `n`: device, chip, lot. -/
def layerNames (lv : LatentVar V) : List (Option String) :=
  (if lv.devDef then [lv.dev.name] else []) ++ (if lv.chpDef then [lv.chp.name] else []) ++
    (if lv.lotDef then [lv.lot.name] else [])

/-- The names the export needs: the plain name for a lone device layer, otherwise suffixed names. -/
def neededNames (n : String) (dev chp lot : Bool) : List (Option String) :=
  (if dev then [some (if chp || lot then n ++ "_dev" else n)] else []) ++
    (if chp then [some (n ++ "_chp")] else []) ++ (if lot then [some (n ++ "_lot")] else [])

/-- A named variable's layers carry the needed names. -/
def NamesOk (lv : LatentVar V) : Prop :=
  ∀ n, lv.name = some n → layerNames lv = neededNames n lv.devDef lv.chpDef lv.lotDef

/-- Assignments of a distribution. -/
def assignsLayer : LatentAssign V → Bool
  | .dev _ | .chp _ | .lot _ => true
  | _ => false

end Gerabaldi.Spec
