/-
What the scripts for translation files should do (C77).
-/
import Verif.Model.BulkPo
import Verif.Spec.Translations
import Verif.Spec.Save

namespace Verif.Spec

/-- The translation of a message after a global update: the entry of the JSON dictionary, even an empty one, otherwise that of the old file,
otherwise none (empty). -/
def changedTranslation (json : Option (Dict Str)) (old : PoFile) (m : Str) : Str :=
  ((json.bind fun j => j.get? m).orElse fun _ => lastTranslation m old.entries).getD []

/-- The template, the translation file with its backup, the catalogue and its copy are different files. -/
structure CatalogPaths (pot po mo copy : Str) : Prop where
  template : pot ≠ po ∧ pot ≠ po ++ c!".bak"
  catalogue : mo ≠ po ∧ mo ≠ po ++ c!".bak"
  copied : copy ≠ po ∧ copy ≠ po ++ c!".bak" ∧ copy ≠ mo

end Verif.Spec
