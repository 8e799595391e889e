/-
The converter: file/file.py 86-105, converter/*.py, ui/ui.py 48-59.
Messages are not translated.
-/
import Verif.Py.Path
import Verif.Model.Save

namespace Verif
open Prog Path

/-- A class of files: `SUFFIX` and `EXTENSION`. -/
structure DocClass where
  suffix : Option Str
  ext : Str
  deriving DecidableEq, Repr

/-- A `File` object: its class and its `filePath`. -/
structure Doc where
  cls : DocClass
  filePath : Option Str
  deriving DecidableEq, Repr

/-- `f'{suffix}{self.EXTENSION}'` (file.py 93-97). -/
def DocClass.ending (c : DocClass) : Str := c.suffix.getD [] ++ c.ext

/-- The setter of `filePath` (file.py 86-105). `projectPath` and `projectName` are not part of this model. -/
def Doc.setPath (d : Doc) (path : Str) : Doc :=
  let path := slashes path
  if Str.endsWith (Str.lower path) (Str.lower d.cls.ending) then { d with filePath := some path } else d

/-- The constructor (file.py 55-79). -/
def mkDoc (c : DocClass) (path : Str) : Doc := Doc.setPath ⟨c, none⟩ path

/-- `Yw7File` (yw7_file.py 42). -/
def yw7Class : DocClass := ⟨none, c!".yw7"⟩

/-- A text document class (odt_writer.py 16, odt_reader.py 30) with its `SUFFIX`. -/
def odt (s : Str) : DocClass := ⟨some s, c!".odt"⟩
/-- A spreadsheet class (ods_writer.py 14, ods_reader.py 22) with its `SUFFIX`. -/
def ods (s : Str) : DocClass := ⟨some s, c!".ods"⟩

/-- `EXPORT_TARGET_CLASSES` (yw7_converter.py 57-74). -/
def exportTargets : List DocClass :=
  [odt c!"", odt c!"_proof", odt c!"_manuscript", odt c!"_brf_synopsis", odt c!"_scenes", odt c!"_chapters", odt c!"_parts",
   odt c!"_characters", odt c!"_items", odt c!"_locations", ods c!"_charlist", ods c!"_loclist", ods c!"_itemlist",
   ods c!"_scenelist", odt c!"_xref", odt c!"_notes", odt c!"_todo"]

/-- `IMPORT_SOURCE_CLASSES` (yw7_converter.py 75-89). -/
def importSources : List DocClass :=
  [odt c!"_proof", odt c!"_manuscript", odt c!"_scenes", odt c!"_chapters", odt c!"_parts", odt c!"_characters", odt c!"_items",
   odt c!"_locations", odt c!"_notes", odt c!"_todo", ods c!"_charlist", ods c!"_loclist", ods c!"_itemlist", ods c!"_scenelist"]

/-- The class lists of a converter, and whether it has a factory for new projects. -/
structure Config where
  targets : List DocClass
  sources : List DocClass
  newProjects : Bool

/-- `Yw7Converter` (yw7_converter.py 56-99). -/
def yw7Converter : Config := ⟨exportTargets, importSources, true⟩
/-- `Yw7Importer` (yw7_importer.py 39-64). -/
def yw7Importer : Config := ⟨[], importSources, true⟩
/-- `Yw7Exporter` (yw7_exporter.py 36-54; the order of the list differs, but all suffixes are different). -/
def yw7Exporter : Config := ⟨exportTargets, [], false⟩

/-- The parts of the program the converter uses that are not modelled here: the type `ν` of novels, reading
and writing them, ZIP archives, the answer of the user, messages of exceptions, `norm_path`, and the
name of the temporary directory. -/
structure Env (ν : Type) where
  empty : ν
  parse : DocClass → Str → ν → Except Exc (ν × Bool)
  tree : Option ν → ν → Except Exc Elem
  hasChapters : ν → Bool
  odfFiles : DocClass → ν → Except Exc OdfFiles
  content : DocClass → ν → Except Exc Str
  comps : DocClass → List Str
  zip : ZipFormat
  contentXml : Str → Option Str
  confirm : Str → Bool
  describe : Exc → Str
  norm : Str → Str
  dir : Str

/-- What `run` is going to do. -/
inductive Plan where
  | export (source target : Doc)
  | update (source target : Doc)
  | create (source target : Doc)
  | refuse (msg : Str)
  deriving DecidableEq, Repr

/-- `ExportSourceFactory.make_file_objects` (export_source_factory.py 31-37); `none` means `Error`. -/
def exportSource (path : Str) : Option Doc :=
  if (splitext path).2 = yw7Class.ext then some (mkDoc yw7Class path) else none

/-- `ExportTargetFactory.make_file_objects` (export_target_factory.py 34-43). -/
def exportTarget (targets : List DocClass) (path : Str) (suffix : Option Str) : Option Doc :=
  (targets.find? (fun c => c.suffix = suffix)).map fun c => mkDoc c ((splitext path).1 ++ suffix.getD [] ++ c.ext)

/-- `ImportSourceFactory.make_file_objects` (import_source_factory.py 30-36). -/
def importSource (sources : List DocClass) (path : Str) : Option Doc :=
  (sources.find? (fun c => c.suffix.isSome && Str.endsWith path c.ending)).map fun c => mkDoc c path

/-- `''.join(e)` after `e = fileName.split(suffix)` and `e.pop()` (import_target_factory.py 36-45). -/
def ywBasis (fileName : Str) (suffix : Option Str) : Str :=
  match suffix with
  | none => fileName
  | some [] => fileName
  | some s =>
    let e := Str.split fileName s
    Str.join [] (if e.length > 1 then e.dropLast else e)

/-- `ImportTargetFactory.make_file_objects` (import_target_factory.py 34-53). -/
def importTarget (fs : FS) (path : Str) (suffix : Option Str) : Option Doc :=
  let p := ywBasis (splitext path).1 suffix ++ yw7Class.ext
  if (fs p).isSome then some (mkDoc yw7Class p) else none

/-- `NewProjectFactory.make_file_objects` (new_project_factory.py 40-82) with an empty list of classes.
`OdtROutline` and `OdtRImport` have the same suffix and extension; which of them reads the document
depends on its contents and is part of `Env.parse`. Simplification: reading the archive does not fail
if the archive is intact. -/
def newProject (contentXml : Str → Option Str) (norm : Str → Str) (fs : FS) (path : Str) : Plan :=
  let fileName := (splitext path).1
  if Str.endsWith fileName c!"_xref" || Str.endsWith fileName c!"_brf_synopsis" then
    .refuse c!"This document is not meant to be written back."
  else if Str.endsWith path c!".odt" then
    match (fs path).bind contentXml with
    | none => .refuse (c!"Cannot read file: \"" ++ norm path ++ c!"\".")
    | some _ => .create (mkDoc (odt c!"") path) (mkDoc yw7Class (fileName ++ c!".yw7"))
  else .refuse (c!"File type is not supported: \"" ++ norm path ++ c!"\".")

/-- The decisions of `run` (yw_cnv_ff.py 70-100). Without a factory for new projects, an `AttributeError`
is raised. -/
def plan (cfg : Config) (contentXml : Str → Option Str) (norm : Str → Str) (fs : FS) (path : Str) (suffix : Option Str) : Except Exc Plan :=
  match exportSource path with
  | some source =>
    match exportTarget cfg.targets path suffix with
    | some target => .ok (.export source target)
    | none => .ok (.refuse (c!"Export type is not supported: \"" ++ suffix.getD c!"None" ++ c!"\"."))
  | none =>
    match importSource cfg.sources path with
    | some source =>
      match importTarget fs path source.cls.suffix with
      | some target => .ok (.update source target)
      | none => .ok (.refuse c!"No yWriter project to write.")
    | none => if cfg.newProjects then .ok (newProject contentXml norm fs path) else .error .attributeError

/-- What a conversion leaves behind: `newFile`, the text of the info line, and whether a warning about
new scenes was shown. -/
structure Outcome where
  newFile : Option Str
  how : Str
  warned : Bool := false
  deriving DecidableEq, Repr

/-- `Ui.set_info_how` (ui.py 48-59). -/
def infoHow (message : Str) : Str :=
  if Str.startsWith message c!"!" then c!"FAIL: " ++ Str.strip (message.drop 1) else message

/-- `check` (yw_cnv_ui.py 161-178). -/
def check {ν : Type} (env : Env ν) (source target : Doc) : Prog Unit :=
  match source.filePath with
  | none => raise (.error c!"File type is not supported.")
  | some s => do
    if !(← isfile s) then raise (.error (c!"File not found: \"" ++ env.norm s ++ c!"\"."))
    else match target.filePath with
      | none => raise (.error c!"File type is not supported.")
      | some t => do
        if (← isfile t) && !env.confirm t then raise (.error c!"Action canceled by user.")
        else pure ()

/-- `read()` of a `File` object: project files are refused if they are locked (yw7_file.py 139-140). -/
def readDoc {ν : Type} (env : Env ν) (d : Doc) (n : ν) : Prog (ν × Bool) := do
  let p := d.filePath.getD []
  if d.cls = yw7Class then
    if ← isLocked p then raise lockedError
  let text ← readFile p
  lift (env.parse d.cls text n)

/-- `write()` of a `File` object: a project file or an ODF document. `old` is what was read from the
project file before, if anything. -/
def writeDoc {ν : Type} (env : Env ν) (d : Doc) (old : Option ν) (n : ν) : Prog Unit :=
  let p := d.filePath.getD []
  if d.cls = yw7Class then yw7Write p (env.tree old n) (env.hasChapters n)
  else odfWrite env.zip env.dir (env.odfFiles d.cls n) (env.content d.cls n) (env.comps d.cls) p

/-- The `try` statement of the three conversions (yw_cnv_ui.py 55-68, 93-106, 128-144). -/
def conclude {ν : Type} (env : Env ν) (target : Doc) (body : Prog Bool) : Prog Outcome :=
  tryExcept (do
      let split ← body
      return { newFile := target.filePath,
               how := infoHow (c!"File written: \"" ++ env.norm (target.filePath.getD []) ++ c!"\"."), warned := split })
    fun e => pure { newFile := none, how := infoHow ('!' :: env.describe e) }

/-- `export_from_yw` (yw_cnv_ui.py 37-68). -/
def exportFromYw {ν : Type} (env : Env ν) (source target : Doc) : Prog Outcome :=
  conclude env target do
    check env source target
    let n ← readDoc env source env.empty
    writeDoc env target none n.1
    return false

/-- `create_yw7` (yw_cnv_ui.py 70-106); `newFile` is the value of the instance variable before. -/
def createYw7 {ν : Type} (env : Env ν) (newFile : Option Str) (source target : Doc) : Prog Outcome := do
  if ← isfile (target.filePath.getD []) then
    return { newFile := newFile, how := infoHow (c!"!File already exists: \"" ++ env.norm (target.filePath.getD []) ++ c!"\".") }
  else
    conclude env target do
      check env source target
      let n ← readDoc env source env.empty
      writeDoc env target none n.1
      return false

/-- `import_to_yw` (yw_cnv_ui.py 108-144). -/
def importToYw {ν : Type} (env : Env ν) (source target : Doc) : Prog Outcome :=
  conclude env target do
    check env source target
    let old ← readDoc env target env.empty
    let n ← readDoc env source old.1
    writeDoc env target (some old.1) n.1
    return n.2

/-- `run` (yw_cnv_ff.py 54-100). The class of the source determines the factory; the decisions are made
before anything is written. -/
def run {ν : Type} (env : Env ν) (cfg : Config) (path : Str) (suffix : Option Str) : Prog Outcome := fun fs fl =>
  if (fs path).isSome then
    match plan cfg env.contentXml env.norm fs path suffix with
    | .error e => (.err e, fs, fl)
    | .ok (.refuse msg) => (.ok { newFile := none, how := infoHow ('!' :: msg) }, fs, fl)
    | .ok (.export s t) => exportFromYw env s t fs fl
    | .ok (.update s t) => importToYw env s t fs fl
    | .ok (.create s t) => createYw7 env none s t fs fl
  else (.ok { newFile := none, how := infoHow (c!"!File not found: \"" ++ env.norm path ++ c!"\".") }, fs, fl)

end Verif
