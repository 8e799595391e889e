/-
The sample applications (/repo/src/sample/*.py), among them the export of XML data files (yw/data_files.py).
-/
import Verif.Model.Converter

namespace Verif
open Prog Path Elem Xml

/-- `DataFiles` (data_files.py 22) with the suffix it gets in cnv_data.py 19. -/
def dataClass : DocClass := ⟨some c!"_data", c!".xml"⟩

/-- `ywProject.tree.find('CHARACTERS')` etc. (data_files.py 52, 60, 68). A missing section would be `None`, of which no file
can be written. Simplification: the three sections are looked up before the first file is written. -/
def dataSections (root : Elem) : Except Exc (Elem × Elem × Elem) :=
  match find c!"CHARACTERS" root.kids, find c!"LOCATIONS" root.kids, find c!"ITEMS" root.kids with
  | some c, some l, some i => .ok (c, l, i)
  | _, _, _ => .error .attributeError

variable {ν : Type}

/-- `DataFiles.write()` (yw7_file.py 179-205 with data_files.py 24-75): the paths of the three files are made of the path of the
object, which is no file itself. The tree is always a new one, because the object has not been read. -/
def writeData (env : Env ν) (d : Doc) (n : ν) : Prog Unit :=
  let p := d.filePath.getD []
  dataFilesWrite p (splitext p).1 ((env.tree none n).bind dataSections) (env.hasChapters n)

/-- `export_from_yw` (yw_cnv_ui.py 37-68) with a `DataFiles` object as the target. -/
def exportData (env : Env ν) (source target : Doc) : Prog Outcome :=
  conclude env target do
    check env source target
    let n ← readDoc env source env.empty
    writeData env target n.1
    return false

/-- `Yw7Exporter` after `EXPORT_TARGET_CLASSES.append(DataFiles)` (cnv_data.py 21-23). -/
def dataConverter : Config := ⟨exportTargets ++ [dataClass], [], false⟩

/-- `run` (yw_cnv_ff.py 54-100) of this converter. It has no classes for the import. -/
def runData (env : Env ν) (path : Str) (suffix : Option Str) : Prog Outcome := fun fs fl =>
  if (fs path).isSome then
    match plan dataConverter env.contentXml env.norm fs path suffix with
    | .error e => (.err e, fs, fl)
    | .ok (.refuse msg) => (.ok { newFile := none, how := infoHow ('!' :: msg) }, fs, fl)
    | .ok (.export s t) => if t.cls = dataClass then exportData env s t fs fl else exportFromYw env s t fs fl
    | .ok (.update s t) => importToYw env s t fs fl
    | .ok (.create s t) => createYw7 env none s t fs fl
  else (.ok { newFile := none, how := infoHow (c!"!File not found: \"" ++ env.norm path ++ c!"\".") }, fs, fl)

/-- A sample application: its name, its converter (`none`: the one of cnv_data.py) and `SUFFIX`. -/
structure Script where
  name : Str
  converter : Option Config
  suffix : Str

/-- The sample applications (sample/*.py: the line `SUFFIX = ...` and the line `converter = ...`). -/
def scripts : List Script :=
  [⟨c!"cnv_brief_synopsis", some yw7Exporter, c!"_brf_synopsis"⟩,
   ⟨c!"cnv_chapters", some yw7Converter, c!"_chapters"⟩,
   ⟨c!"cnv_characters", some yw7Converter, c!"_characters"⟩,
   ⟨c!"cnv_charlist", some yw7Converter, c!"_charlist"⟩,
   ⟨c!"cnv_data", none, c!"_data"⟩,
   ⟨c!"cnv_itemlist", some yw7Converter, c!"_itemlist"⟩,
   ⟨c!"cnv_items", some yw7Converter, c!"_items"⟩,
   ⟨c!"cnv_locations", some yw7Converter, c!"_locations"⟩,
   ⟨c!"cnv_loclist", some yw7Converter, c!"_loclist"⟩,
   ⟨c!"cnv_manuscript", some yw7Converter, c!"_manuscript"⟩,
   ⟨c!"cnv_notes", some yw7Converter, c!"_notes"⟩,
   ⟨c!"cnv_parts", some yw7Converter, c!"_parts"⟩,
   ⟨c!"cnv_plotlist", some yw7Converter, c!"_plotlist"⟩,
   ⟨c!"cnv_proof", some yw7Converter, c!"_proof"⟩,
   ⟨c!"cnv_scenelist", some yw7Converter, c!"_scenelist"⟩,
   ⟨c!"cnv_scenes", some yw7Converter, c!"_scenes"⟩,
   ⟨c!"cnv_todo", some yw7Converter, c!"_todo"⟩,
   ⟨c!"cross_reference", some yw7Exporter, c!"_xref"⟩,
   ⟨c!"export_odt", some yw7Converter, c!""⟩,
   ⟨c!"import_outline", some yw7Converter, c!""⟩,
   ⟨c!"import_wip", some yw7Converter, c!""⟩]

/-- `run(sys.argv[1], SUFFIX)` (sample/*.py). The user interface is modelled in `Model/Facade`. -/
def Script.run (env : Env ν) (s : Script) (path : Str) : Prog Outcome :=
  match s.converter with
  | some cfg => Verif.run env cfg path (some s.suffix)
  | none => runData env path (some s.suffix)

end Verif
