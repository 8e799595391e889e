/-
The save protocols: file/file_export.py 79-101, odf/odf_file.py 54-169, yw/yw7_file.py 121-127, 179-205,
1121-1154, 1684-1702, yw/data_files.py 23-74. Messages: the paths in the messages are not normalised
(`norm_path`), and the messages are not translated.
-/
import Verif.Py.Fs
import Verif.Model.Yw7Text
import Verif.Model.Yw7Write

namespace Verif
open Prog

/-- `f'{path}.bak'` -/
def bak (path : Str) : Str := path ++ c!".bak"

/-- `raise Error(f'{_("...")}: "{norm_path(path)}".')` -/
def fileError (what path : Str) : Exc := .error (what ++ c!": \"" ++ path ++ c!"\".")

/-- Move an existing file out of the way (file_export.py 87-94, odf_file.py 74-81, yw7_file.py 1689-1696);
returns `backedUp`. -/
def backUp (path : Str) : Prog Bool := do
  if ← isfile path then
    tryExcept (replace path (bak path)) fun _ => raise (fileError c!"Cannot overwrite file" path)
    return true
  else return false

/-- The `except:` branch after a failed write (file_export.py 98-101, odf_file.py 89-91,
yw7_file.py 1699-1702). If the `os.replace` fails, its exception is raised. -/
def restoreBackup (backedUp : Bool) (path what : Str) : Prog Unit := do
  if backedUp then replace (bak path) path
  raise (fileError what path)

/-- `FileExport.write` (file_export.py 79-101); `text` is the result of `_get_text()`. -/
def exportWrite (path : Str) (text : Except Exc Str) : Prog Unit := do
  let t ← lift text
  let backedUp ← backUp path
  tryExcept (writeFile path t) fun _ => restoreBackup backedUp path c!"Cannot write file"

/-- The contents of an ODF document besides `content.xml`: the files `_set_up` writes, with
their texts (odf_file.py 113-161), in the order in which they are written. -/
abbrev OdfFiles := List (Str × Str)

/-- Generate the files one by one (odf_file.py 113-161). -/
def writeAll (dir : Str) : OdfFiles → Prog Unit
  | [] => pure ()
  | (name, text) :: r => do
    tryExcept (writeFile (dir ++ '/' :: name) text) fun _ =>
      raise (.error (c!"Cannot write file: \"" ++ name ++ c!"\""))
    writeAll dir r

/-- `_set_up` (odf_file.py 98-161). `files` raises if the metadata cannot be generated.
Simplification: the metadata are generated before the first file is written. -/
def odfSetUp (dir : Str) (files : Except Exc OdfFiles) : Prog Unit := do
  let fs ← lift files
  tryExcept (do
      tryExcept (rmtree dir) fun _ => pure ()
      other
      other) fun _ => raise (fileError c!"Cannot create directory" dir)
  writeAll dir fs

/-- Pack the components (odf_file.py 85-86): each is read from the temporary directory and appended to
the archive in the form `entry name contents`. -/
def zipAll (entry : Str → Str → Str) (path dir : Str) : List Str → Prog Unit
  | [] => pure ()
  | name :: r => do
    let c ← readFile (dir ++ '/' :: name)
    append path (entry name c)
    zipAll entry path dir r

/-- The format of the ZIP archive, which is not modelled: an entry for each file, and the directory at
the end of the archive. -/
structure ZipFormat where
  entry : Str → Str → Str
  directory : List Str → Str

/-- `OdfFile.write` (odf_file.py 54-96). `dir` is the temporary directory, `files` and `content` are the
generated texts, `comps` is `_ODF_COMPONENTS`. -/
def odfWrite (zip : ZipFormat) (dir : Str) (files : Except Exc OdfFiles) (content : Except Exc Str)
    (comps : List Str) (path : Str) : Prog Unit := do
  odfSetUp dir files
  exportWrite (dir ++ c!"/content.xml") content
  let backedUp ← backUp path
  tryExcept (do
      openW path
      other
      zipAll zip.entry path dir comps
      append path (zip.directory comps)) fun _ => do
    other
    restoreBackup backedUp path c!"Cannot create file"
  other
  tryExcept (rmtree dir) fun _ => pure ()

/-- `is_locked` (yw7_file.py 121-127). -/
def isLocked (path : Str) : Prog Bool := isfile (path ++ c!".lock")

/-- The error raised if the project is open in yWriter (yw7_file.py 140, 188). -/
def lockedError : Exc := .error c!"yWriter seems to be open. Please close first."

/-- `_write_element_tree` (yw7_file.py 1684-1702). -/
def writeElementTree (path : Str) (root : Elem) : Prog Unit := do
  let backedUp ← backUp path
  tryExcept (writeFile path (etWrite root)) fun _ => restoreBackup backedUp path c!"Cannot write file"

/-- `_postprocess_xml_file` (yw7_file.py 1121-1154). -/
def postprocessFile (path : Str) (hasChapters : Bool) : Prog Unit := do
  let text ← readFile path
  tryExcept (writeFile path (postprocess hasChapters (universalNewlines text))) fun _ =>
    raise (fileError c!"Cannot write file" path)

/-- `Yw7File.write` (yw7_file.py 179-205); `tree` is the result of `_build_element_tree`. -/
def yw7Write (path : Str) (tree : Except Exc Elem) (hasChapters : Bool) : Prog Unit := do
  if ← isLocked path then raise lockedError
  let root ← lift tree
  writeElementTree path root
  postprocessFile path hasChapters

/-- One of the three files of `DataFiles._write_element_tree` (data_files.py 51-74). Simplification: all
failures are treated like a `PermissionError`. -/
def writeDataFile (path : Str) (tree : Elem) : Prog Unit :=
  tryExcept (writeFile path (etWrite tree)) fun _ => raise (fileError c!"File is write protected" path)

/-- `DataFiles.write` (yw7_file.py 179-205 with data_files.py 23-74); `base` is the path without its
extension, the trees are the three sections. -/
def dataFilesWrite (path base : Str) (trees : Except Exc (Elem × Elem × Elem)) (hasChapters : Bool) : Prog Unit := do
  if ← isLocked path then raise lockedError
  let t ← lift trees
  writeDataFile (base ++ c!"_Characters.xml") t.1
  writeDataFile (base ++ c!"_Locations.xml") t.2.1
  writeDataFile (base ++ c!"_Items.xml") t.2.2
  postprocessFile (base ++ c!"_Characters.xml") hasChapters
  postprocessFile (base ++ c!"_Locations.xml") hasChapters
  postprocessFile (base ++ c!"_Items.xml") hasChapters

end Verif
