/-
The whole program: the parts of the model put together. What the converter (converter/*.py) uses of the file classes (yw/yw7_file.py,
odf/*.py, odt_w/*.py, odt_r/*.py, ods_w/*.py, ods_r/*.py) is no parameter any more. What remains a parameter is in `Machine`.
-/
import Verif.Model.Converter
import Verif.Model.DocOpen
import Verif.Model.OdfMeta
import Verif.Model.OdfPackage
import Verif.Model.OdtProof
import Verif.Model.OdtXref
import Verif.Model.OdtSheets
import Verif.Model.OdsWrite
import Verif.Model.OdsRead
import Verif.Model.OdtRead
import Verif.Model.Yw7Text
import Verif.Model.Yw7Write
import Verif.Model.Yw7Read
import Verif.Spec.Sax
import Verif.Spec.XmlDoc
import Verif.Spec.OdfMeta
import Verif.Props.C24_C25_Save

namespace Verif
open Spec

/-- What the program runs in: Python's library, the language and the country of the system, the time, the name and the path of the project as
the documents show them (file.py 99-105), the format of ZIP archives, the answers of the user, the texts of exceptions, and the temporary directory (odf_file.py 51-52). -/
structure Machine where
  lib : PyLib
  sysLng : Str
  sysCtr : Str
  now : Str
  name : Str
  path : Str
  zip : ZipFormat
  unzip : Str → Str → Option Str
  confirm : Str → Bool
  describe : Exc → Str
  dir : Str

namespace Machine

/-- The novel that a text document with formatted text is made of: the languages are determined first (odt_w_formatted.py 45-52). -/
def _root_.Verif.Novel.withLanguages (n : Novel) : Novel := if n.languages = none then n.getLanguages else n

/-- `_get_text()` of the class with the suffix `s`; for the classes derived from `OdtWFormatted` preceded by `get_languages`
(odt_w_formatted.py 45-52). -/
def odtContent (w : Machine) (s : Str) (n : Novel) : Except Exc Str :=
  if s = c!"" then exportText (formattedEnv w.name w.path) n.withLanguages
  else if s = c!"_proof" then proofText (odtProof (proofEnv w.name w.path)) n.withLanguages
  else if s = c!"_manuscript" then formattedText (odtManuscript (formattedEnv w.name w.path)) n.withLanguages
  else if s = c!"_notes" then formattedText (odtNotes (formattedEnv w.name w.path)) n.withLanguages
  else if s = c!"_todo" then formattedText (odtTodo (formattedEnv w.name w.path)) n.withLanguages
  else if s = c!"_brf_synopsis" then getText (odtSynopsis (plainEnv w.name w.path)) n
  else if s = c!"_scenes" then getText (odtSceneDesc (plainEnv w.name w.path)) n
  else if s = c!"_chapters" then getText (odtChapterDesc (plainEnv w.name w.path)) n
  else if s = c!"_parts" then getText (odtPartDesc (plainEnv w.name w.path)) n
  else if s = c!"_characters" then getText (odtCharacters (plainEnv w.name w.path)) n
  else if s = c!"_items" then getText (odtItems (plainEnv w.name w.path)) n
  else if s = c!"_locations" then getText (odtLocations (plainEnv w.name w.path)) n
  else if s = c!"_xref" then xrefText (plainEnv w.name w.path) n
  else .error .attributeError

/-- `_get_text()` of a spreadsheet class. -/
def odsContent (w : Machine) (s : Str) (n : Novel) : Except Exc Str :=
  if s = c!"_charlist" then getText (odsCharList (plainEnv w.name w.path)) n
  else if s = c!"_loclist" then getText (odsLocList (plainEnv w.name w.path)) n
  else if s = c!"_itemlist" then getText (odsItemList (plainEnv w.name w.path)) n
  else if s = c!"_scenelist" then getText (odsSceneList (plainEnv w.name w.path)) n
  else .error .attributeError

/-- `content.xml` of a document. -/
def content (w : Machine) (c : DocClass) (n : Novel) : Except Exc Str :=
  if c.ext = c!".odt" then w.odtContent (c.suffix.getD []) n else w.odsContent (c.suffix.getD []) n

/-- The other files of a document (odf_file.py 98-161, odt_writer.py 415-431). -/
def otherFiles (w : Machine) (c : DocClass) (n : Novel) : OdfFiles :=
  if c.ext = c!".odt" then
    odtFiles odtMimetype odtSettingsXml odtManifestXml (stylesText odtStylesXml w.sysLng w.sysCtr n) (metaText w.now n) odtManifestRdf
  else odsFiles odsMimetype odsSettingsXml odsManifestXml (stylesText odsStylesXml w.sysLng w.sysCtr n) (metaText w.now n)

/-- The error of `feed_file` and `get_rows` (odt_parser.py 69-70, ods_parser.py 46-47). Simplification: without the path. -/
def unreadable : Exc := .error c!"Cannot read file"

/-- A result, or an exception if there is none. -/
def need {α : Type} (e : Exc) : Option α → Except Exc α
  | none => .error e
  | some a => .ok a

/-- `feed_file` (odt_parser.py 42-103), as far as the three files are concerned. Simplifications: of the three files, only `meta.xml` is read
with CDATA sections (PyWriter and office programs write none elsewhere), and all files are parsed before the reader is called. -/
def odtFile (w : Machine) (archive : Str) : Except Exc OdtFile := do
  let content ← need unreadable (w.unzip archive c!"content.xml")
  let styles ← need unreadable (w.unzip archive c!"styles.xml")
  let st ← need .parseError (parseDoc styles)
  let info ← match w.unzip archive c!"meta.xml" with
    | none => (.ok none : Except Exc (Option XNode))
    | some m => if m = [] then .ok none else (need .parseError (parseWithCdata m)).map some
  let evs ← need .parseError (saxEvents content)
  .ok ⟨st, info, evs⟩

/-- `read()` of a text document with the suffix `s`: the classes of `IMPORT_SOURCE_CLASSES` (yw7_converter.py 75-89), and the new projects
(new_project_factory.py 53-72). The result is the novel and `scenesSplit`, which only formatted documents have. -/
def readText (w : Machine) (s archive : Str) (n : Novel) : Except Exc (Novel × Bool) := do
  let f ← w.odtFile archive
  let plain (h : Reader) : Except Exc (Novel × Bool) := (readOdt h f n).map fun m => (m, false)
  if s = c!"_proof" then readFormatted proofReader f n
  else if s = c!"_manuscript" then readFormatted (manuscriptReader 0) f n
  else if s = c!"_notes" then readFormatted (manuscriptReader 1) f n
  else if s = c!"_todo" then readFormatted (manuscriptReader 2) f n
  else if s = c!"_scenes" then plain sceneDescReader
  else if s = c!"_chapters" then plain chapterDescReader
  else if s = c!"_parts" then plain chapterDescReader
  else if s = c!"_characters" then plain charactersReader
  else if s = c!"_items" then plain (worldReader itemKind)
  else if s = c!"_locations" then plain (worldReader locationKind)
  else if Str.contains ((w.unzip archive c!"content.xml").getD []) c!"Heading_20_3" then plain outlineReader
  else readFormatted importReader f n

/-- `read()` of a spreadsheet (ods_r/*.py). -/
def readSheet (w : Machine) (s archive : Str) (n : Novel) : Except Exc (Novel × Bool) := do
  let content ← need unreadable (w.unzip archive c!"content.xml")
  let root ← need .parseError (parseDoc content)
  let m ← if s = c!"_charlist" then readCharList root n
    else if s = c!"_loclist" then readLocList root n
    else if s = c!"_itemlist" then readItemList root n
    else if s = c!"_scenelist" then readSceneList root n
    else .error .attributeError
  .ok (m, false)

/-- `read()` of a project file: the element tree is kept for the next `write()` (yw7_file.py 129-177). -/
def readYw7 (w : Machine) (text : Str) : Except Exc ((Option Elem × Novel) × Bool) := do
  let x ← need .parseError (parseXml (parserInput text))
  let n ← readTree w.lib x
  .ok ((some x, n), false)

/-- `read()` of any file. -/
def parse (w : Machine) (c : DocClass) (text : Str) (n : Option Elem × Novel) : Except Exc ((Option Elem × Novel) × Bool) :=
  if c = yw7Class then w.readYw7 text
  else do
    let r ← if c.ext = c!".odt" then w.readText (c.suffix.getD []) text n.2 else w.readSheet (c.suffix.getD []) text n.2
    .ok ((n.1, r.1), r.2)

/-- The program: the converter with all that it uses. A novel comes with the element tree it was read from. -/
def program (w : Machine) : Env (Option Elem × Novel) where
  empty := (none, {})
  parse := w.parse
  tree := fun old n => writeTree w.sysLng w.sysCtr n.2 (old.bind (·.1))
  hasChapters := fun n => !n.2.chapters.isEmpty
  odfFiles := fun c n => .ok (w.otherFiles c n.2)
  content := fun c n => w.content c n.2
  comps := fun c => if c.ext = c!".odt" then odtComponents else odsComponents
  zip := w.zip
  contentXml := fun a => w.unzip a c!"content.xml"
  confirm := w.confirm
  describe := w.describe
  norm := normPath
  dir := w.dir

end Machine
end Verif
