/-
Specification of the result of a conversion.
-/
import Verif.Model.Converter
import Verif.Spec.Save

namespace Verif.Spec
open Verif

variable {ν : Type}

/-- The document of the novel `n` is complete in the file of `d`. -/
def Complete (env : Env ν) (d : Doc) (old : Option ν) (n : ν) (fs : FS) : Prop :=
  (d.cls = yw7Class ∧ ∃ root, env.tree old n = .ok root ∧ fs (d.filePath.getD []) = some (fileText (env.hasChapters n) root)) ∨
  (d.cls ≠ yw7Class ∧ ∃ f t s, env.odfFiles d.cls n = .ok f ∧ env.content d.cls n = .ok t ∧
    Archive env.zip.entry (f ++ [(c!"content.xml", t)]) (env.comps d.cls) s ∧ fs (d.filePath.getD []) = some (s ++ env.zip.directory (env.comps d.cls)))

/-- The document in `t` was made from the document in `s`. -/
def Converted (env : Env ν) (s t : Doc) (fs0 fs : FS) : Prop :=
  ∃ text n, fs0 (s.filePath.getD []) = some text ∧ env.parse s.cls text env.empty = .ok n ∧ Complete env t none n.1 fs

/-- The project in `t` was updated from the document in `s`. -/
def Updated (env : Env ν) (s t : Doc) (fs0 fs : FS) : Prop :=
  ∃ text0 old text n, fs0 (t.filePath.getD []) = some text0 ∧ env.parse t.cls text0 env.empty = .ok old ∧
    fs0 (s.filePath.getD []) = some text ∧ env.parse s.cls text old.1 = .ok n ∧ Complete env t (some old.1) n.1 fs

end Verif.Spec
