/-
Specification: the way of a project through a document and back.
-/
import Verif.Spec.Save
import Verif.Spec.OdfMeta
import Verif.Spec.Disk
import Verif.Spec.Converter
import Verif.Model.Program

namespace Verif.Spec
open Verif

/-- Files with different names that were put into an archive can be taken out of it. -/
def ArchivesWork (zip : ZipFormat) (unzip : Str → Str → Option Str) : Prop :=
  ∀ l : List (Str × Str), (l.map (·.1)).Nodup → ∀ p ∈ l,
    unzip ((l.map fun e => zip.entry e.1 e.2).flatten ++ zip.directory (l.map (·.1))) p.1 = some p.2

/-- The metadata of a project, the time and the language can be put into a document as they are (PyWriter does not escape them). -/
structure MetadataFit (now : Str) (system : Str × Str) (n : Novel) : Prop where
  time : Insertable now
  title : Insertable (n.title.getD c!"None")
  author : Insertable (n.authorName.getD c!"None")
  desc : SectionText (n.desc.getD c!"None")
  language : CodeText (documentLocale n system).1
  country : CodeText (documentLocale n system).2

/-- The project file `base.yw7` with the text `s` can be exported to a document of the type `c` and the document can be written back: the path of
the project has an ordinary form and does not contain the suffix of the document, the file is there and not locked, the temporary directory is
elsewhere, the user agrees to everything, and archives work. -/
structure Departure (w : Machine) (c : DocClass) (base s : Str) (fs : FS) : Prop where
  type : c ∈ importSources
  named : HasName base
  slashes : '\\' ∉ base
  free : ∀ x, c.suffix = some x → ¬ x <:+: base
  outside : ∀ e, ¬ InDir w.dir (base ++ e)
  here : fs (base ++ c!".yw7") = some s
  unlocked : fs (base ++ c!".yw7.lock") = none
  consent : ∀ p, w.confirm p = true
  archives : ArchivesWork w.zip w.unzip

/-- The project is exported to a document of the type `c`, and the unmodified document is written back. Both conversions report success; the project
file is then what it is when the project is just opened and saved, the old project file is the backup, and no other files are changed
than the document and its backup. -/
def ComesBack (w : Machine) (c : DocClass) (base s : Str) (n : Novel) (fs : FS) : Prop :=
  ∃ fs1 fs2 s' x', run w.program yw7Converter (base ++ c!".yw7") c.suffix fs [] =
      (.ok { newFile := some (base ++ c.ending), how := c!"File written: \"" ++ normPath (base ++ c.ending) ++ c!"\"." }, fs1, []) ∧
    run w.program yw7Converter (base ++ c.ending) none fs1 [] =
      (.ok { newFile := some (base ++ c!".yw7"), how := c!"File written: \"" ++ normPath (base ++ c!".yw7") ++ c!"\".", warned := false }, fs2, []) ∧
    fs2 (base ++ c!".yw7") = some s' ∧ resaved w.lib w.sysLng w.sysCtr s = some s' ∧ loadFile w.lib s' = some (x', n) ∧
    fs2 (base ++ c!".yw7.bak") = some s ∧
    ∀ q, ¬ InDir w.dir q → q ∉ [base ++ c!".yw7", base ++ c!".yw7.bak", base ++ c.ending, base ++ c.ending ++ c!".bak"] → fs2 q = fs q

/-- A project file in good order: it can be opened, its tree is regular, the novel is settled, and everything in it can be stored. -/
structure GoodFile (w : Machine) (s : Str) (x : Elem) (n : Novel) : Prop where
  opens : loadFile w.lib s = some (x, n)
  regular : RegularTree x.kids
  keepable : KeepableTree x
  settled : SettledNovel w.lib n
  storable : StorableNovel n
  system : Simple w.sysLng ∧ Simple w.sysCtr

/-- Every scene of the chapters has one of the known status values. -/
def KnownStatus (n : Novel) : Prop := ∀ id ∈ narrative n, ∀ s, n.scenes.get? id = some s → ∃ i : Nat, i < 6 ∧ s.status = some (i : Int)

end Verif.Spec
