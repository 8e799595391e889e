/-
C24 and C25: interrupted and failed saves, locked projects.
-/
import Verif.Lemmas.Save3

namespace Verif
open Prog Spec Elem

/-! ### C24: interruptions -/

/-- **C24, text export**: whatever fails, and wherever the process is interrupted, the previous version of
the file exists under its own name or as backup. -/
theorem C24_export (path old : Str) (text : Except Exc Str) (fs : FS) (faults : List Fault) (h : fs path = some old) :
    Intact path old (exportWrite path text fs faults).2.1 :=
  (exportWrite_spec noTemp path text fs _ id id fs faults ⟨fun _ _ => rfl, Nat.le_refl _⟩).2.intact old h

/-- **C24, project file**: the same for the project file. -/
theorem C24_yw7 (path old : Str) (tree : Except Exc Elem) (hasChapters : Bool) (fs : FS) (faults : List Fault)
    (h : fs path = some old) : Intact path old (yw7Write path tree hasChapters fs faults).2.1 :=
  (yw7Write_spec path tree hasChapters fs _ fs faults ⟨rfl, Nat.le_refl _⟩).2.1 old h

/-- The generated files of an ODF document besides `content.xml` have different names, and all components
of the document are generated. -/
def OdfComplete (files : Except Exc OdfFiles) (comps : List Str) : Prop :=
  ∀ f, files = .ok f → (f.map Prod.fst).Nodup ∧ c!"content.xml" ∉ f.map Prod.fst ∧ c!"content.xml.bak" ∉ f.map Prod.fst ∧
    ∀ n ∈ comps, n ∈ f.map Prod.fst ∨ n = c!"content.xml"

/-- **C24, ODF documents**: the same for text documents and spreadsheets. -/
theorem C24_odf (zip : ZipFormat) (dir : Str) (files : Except Exc OdfFiles) (content : Except Exc Str) (comps : List Str)
    (path old : Str) (hp : ¬ InDir dir path) (hb : ¬ InDir dir (path ++ c!".bak")) (hc : OdfComplete files comps)
    (fs : FS) (faults : List Fault) (h : fs path = some old) :
    Intact path old (odfWrite zip dir files content comps path fs faults).2.1 :=
  (odfWrite_spec zip dir files content comps path hp hb fs _ hc fs faults ⟨rfl, Nat.le_refl _⟩).2.1 old h

/-- **C24, histories**: after a save that succeeded, however the next one ends, the saved project file is
intact under its own name or as backup. -/
theorem C24_history (path : Str) (tree1 tree2 : Except Exc Elem) (hc1 hc2 : Bool) (fs : FS) (faults1 faults2 : List Fault)
    (h : (yw7Write path tree1 hc1 fs faults1).1 = .ok ()) :
    ∃ root, tree1 = .ok root ∧
      Intact path (fileText hc1 root) (yw7Write path tree2 hc2 (yw7Write path tree1 hc1 fs faults1).2.1 faults2).2.1 := by
  obtain ⟨_, root, h1, h2, _⟩ := (yw7Write_spec path tree1 hc1 fs _ fs faults1 ⟨rfl, Nat.le_refl _⟩).2.2.2.1 h
  exact ⟨root, h1, C24_yw7 path _ tree2 hc2 _ faults2 h2⟩

/-! ### C24: errors -/

/-- **C24, text export**: if the write ends with an exception, and this was the only thing that went wrong,
the previous version is under its own name. -/
theorem C24_export_error (path old : Str) (text : Except Exc Str) (fs : FS) (faults : List Fault) (e : Exc)
    (h : fs path = some old) (h1 : AtMostOneFault faults) (he : (exportWrite path text fs faults).1 = .err e) :
    (exportWrite path text fs faults).2.1 path = some old :=
  (exportWrite_spec noTemp path text fs _ id id fs faults ⟨fun _ _ => rfl, Nat.le_refl _⟩).2.kept e old he
    (by rw [faultCount_eq]; exact h1) h

/-- **C24, ODF documents**: the same; but if the document was already complete when the exception was raised,
the new document is under the name of the file (and the previous version is its backup). -/
theorem C24_odf_error (zip : ZipFormat) (dir : Str) (files : Except Exc OdfFiles) (content : Except Exc Str) (comps : List Str)
    (path old : Str) (hp : ¬ InDir dir path) (hb : ¬ InDir dir (path ++ c!".bak")) (hc : OdfComplete files comps)
    (fs : FS) (faults : List Fault) (e : Exc) (h : fs path = some old) (h1 : AtMostOneFault faults)
    (he : (odfWrite zip dir files content comps path fs faults).1 = .err e) :
    (odfWrite zip dir files content comps path fs faults).2.1 path = some old ∨
    ∃ f t s, files = .ok f ∧ content = .ok t ∧ Archive zip.entry (f ++ [(c!"content.xml", t)]) comps s ∧
      (odfWrite zip dir files content comps path fs faults).2.1 path = some (s ++ zip.directory comps) :=
  (odfWrite_spec zip dir files content comps path hp hb fs _ hc fs faults ⟨rfl, Nat.le_refl _⟩).2.2.2.2 e old he
    (by rw [faultCount_eq]; exact h1) h

/-- **C24, project file**, first half of the save: the same as long as the element tree is being written. -/
theorem C24_yw7_error_partial (path old : Str) (root : Elem) (fs : FS) (faults : List Fault) (e : Exc)
    (h : fs path = some old) (h1 : AtMostOneFault faults) (he : (writeElementTree path root fs faults).1 = .err e) :
    (writeElementTree path root fs faults).2.1 path = some old :=
  (writeElementTree_spec path root fs _ fs faults ⟨rfl, Nat.le_refl _⟩).2.kept e old he
    (by rw [faultCount_eq]; exact h1) h

/-- A file system with one file. -/
def oneFile (path text : Str) : FS := fun q => if q = path then some text else none

/-- **C24 is false for the project file**: if the second writing (by the postprocessor) fails, an error is
reported, but the file is damaged; the previous version is only in the backup. If the user then tries again
and the second writing fails again, the previous version is lost. -/
theorem C24_false :
    let root := leaf c!"YWRITER7" (some c!"new")
    let fs0 := oneFile c!"a.yw7" c!"old"
    let run1 := yw7Write c!"a.yw7" (.ok root) true fs0 [.none, .none, .none, .none, .none, .fail 9]
    let run2 := yw7Write c!"a.yw7" (.ok root) true run1.2.1 [.none, .none, .none, .none, .none, .fail 9]
    run1.1 = .err (fileError c!"Cannot write file" c!"a.yw7") ∧
    run1.2.1 c!"a.yw7" = some c!"<?xml ver" ∧ run1.2.1 c!"a.yw7.bak" = some c!"old" ∧
    run2.1 = .err (fileError c!"Cannot write file" c!"a.yw7") ∧
    run2.2.1 c!"a.yw7" = some c!"<?xml ver" ∧ run2.2.1 c!"a.yw7.bak" = some c!"<?xml ver" :=
  ⟨rfl, rfl, rfl, rfl, rfl, rfl⟩

/-- **C24 is false for the XML data files**: there is no backup, so an interruption destroys the only copy. -/
theorem C24_dataFiles_false :
    let t := leaf c!"CHARACTERS" none
    let run := dataFilesWrite c!"a.xml" c!"a" (.ok (t, t, t)) true (oneFile c!"a_Characters.xml" c!"old") [.none, .crash 0]
    run.1 = .crashed ∧ run.2.1 c!"a_Characters.xml" = some [] ∧ run.2.1 (bak c!"a_Characters.xml") = none :=
  ⟨rfl, rfl, rfl⟩

/-! ### Success and other files -/

/-- A successful save of the project leaves the new file, and the previous version as its backup. -/
theorem C24_yw7_success (path : Str) (tree : Except Exc Elem) (hasChapters : Bool) (fs : FS) (faults : List Fault)
    (h : (yw7Write path tree hasChapters fs faults).1 = .ok ()) :
    ∃ root, tree = .ok root ∧ (yw7Write path tree hasChapters fs faults).2.1 path = some (fileText hasChapters root) ∧
      ∀ old, fs path = some old → (yw7Write path tree hasChapters fs faults).2.1 (path ++ c!".bak") = some old := by
  obtain ⟨_, h1⟩ := (yw7Write_spec path tree hasChapters fs _ fs faults ⟨rfl, Nat.le_refl _⟩).2.2.2.1 h
  exact h1

/-- Saving the project touches no other file than the project file and its backup. -/
theorem C24_yw7_frame (path : Str) (tree : Except Exc Elem) (hasChapters : Bool) (fs : FS) (faults : List Fault) :
    OnlyTouches noTemp path fs (yw7Write path tree hasChapters fs faults).2.1 :=
  fun q _ h1 h2 => (yw7Write_spec path tree hasChapters fs _ fs faults ⟨rfl, Nat.le_refl _⟩).1 q h1 h2

/-- A successful export leaves the complete document, and the previous version as its backup. -/
theorem C24_odf_success (zip : ZipFormat) (dir : Str) (files : Except Exc OdfFiles) (content : Except Exc Str) (comps : List Str)
    (path : Str) (hp : ¬ InDir dir path) (hb : ¬ InDir dir (path ++ c!".bak")) (hc : OdfComplete files comps)
    (fs : FS) (faults : List Fault) (h : (odfWrite zip dir files content comps path fs faults).1 = .ok ()) :
    (∃ f t s, files = .ok f ∧ content = .ok t ∧ Archive zip.entry (f ++ [(c!"content.xml", t)]) comps s ∧
      (odfWrite zip dir files content comps path fs faults).2.1 path = some (s ++ zip.directory comps)) ∧
    ∀ old, fs path = some old → (odfWrite zip dir files content comps path fs faults).2.1 (path ++ c!".bak") = some old :=
  (odfWrite_spec zip dir files content comps path hp hb fs _ hc fs faults ⟨rfl, Nat.le_refl _⟩).2.2.2.1 h

/-- Exporting a document touches no other file than the document, its backup and temporary files. -/
theorem C24_odf_frame (zip : ZipFormat) (dir : Str) (files : Except Exc OdfFiles) (content : Except Exc Str) (comps : List Str)
    (path : Str) (hp : ¬ InDir dir path) (hb : ¬ InDir dir (path ++ c!".bak")) (hc : OdfComplete files comps)
    (fs : FS) (faults : List Fault) :
    OnlyTouches (InDir dir) path fs (odfWrite zip dir files content comps path fs faults).2.1 :=
  (odfWrite_spec zip dir files content comps path hp hb fs _ hc fs faults ⟨rfl, Nat.le_refl _⟩).1

/-- The components of a text document: `_ODF_COMPONENTS` without the directory entry (odt_writer.py 19-20). -/
def odtComponents : List Str :=
  [c!"manifest.rdf", c!"content.xml", c!"meta.xml", c!"mimetype", c!"settings.xml", c!"styles.xml", c!"META-INF/manifest.xml"]

/-- The components of a spreadsheet (ods_writer.py 15-16). -/
def odsComponents : List Str :=
  [c!"content.xml", c!"meta.xml", c!"mimetype", c!"settings.xml", c!"styles.xml", c!"META-INF/manifest.xml"]

/-- The files generated for a spreadsheet (odf_file.py 113-161); for a text document also the RDF manifest
(odt_writer.py 415-431). -/
def odsFiles (mimetype settings manifest styles meta_ : Str) : OdfFiles :=
  [(c!"mimetype", mimetype), (c!"settings.xml", settings), (c!"META-INF/manifest.xml", manifest),
   (c!"styles.xml", styles), (c!"meta.xml", meta_)]

/-- See `odsFiles`. -/
def odtFiles (mimetype settings manifest styles meta_ rdf : Str) : OdfFiles :=
  odsFiles mimetype settings manifest styles meta_ ++ [(c!"manifest.rdf", rdf)]

/-- The hypothesis of the theorems holds for both document types. -/
theorem odf_complete (a b c d e f : Str) :
    OdfComplete (.ok (odtFiles a b c d e f)) odtComponents ∧ OdfComplete (.ok (odsFiles a b c d e)) odsComponents := by
  constructor <;>
  · intro x hx
    injection hx with hx
    subst hx
    refine ⟨?_, ?_, ?_, ?_⟩ <;> simp only [odtFiles, odsFiles, List.map, List.cons_append, List.nil_append] <;> decide

/-- A complete run: an existing document is replaced, and the old one is kept as backup. -/
example :
    let zip : ZipFormat := ⟨fun n c => n ++ ':' :: c ++ c!";", fun _ => c!"end"⟩
    let run := odfWrite zip c!"/tmp/odf" (.ok (odsFiles c!"m" c!"s" c!"f" c!"y" c!"t")) (.ok c!"text") odsComponents c!"a.ods"
      (oneFile c!"a.ods" c!"old") []
    run.1 = .ok () ∧ run.2.1 c!"a.ods.bak" = some c!"old" ∧
      run.2.1 c!"a.ods" = some c!"content.xml:text;meta.xml:t;mimetype:m;settings.xml:s;styles.xml:y;META-INF/manifest.xml:f;end" :=
  ⟨rfl, rfl, rfl⟩

/-! ### C25 -/

/-- **C25**: if the lock file exists, writing fails with an error, and no file is created, changed or removed. -/
theorem C25_locked (path lock : Str) (tree : Except Exc Elem) (hasChapters : Bool) (fs : FS) (faults : List Fault)
    (h : fs (path ++ c!".lock") = some lock) :
    (yw7Write path tree hasChapters fs faults).2.1 = fs ∧
    ∃ msg, (yw7Write path tree hasChapters fs faults).1 = .err (.error msg) := by
  have := (yw7Write_spec path tree hasChapters fs _ fs faults ⟨rfl, Nat.le_refl _⟩).2.2.2.2 (by rw [h]; simp)
  exact ⟨this.1, _, this.2⟩

theorem backUp_nil (p : Str) (fs : FS) : ∃ b fs1, backUp p fs [] = (.ok b, fs1, []) := by
  unfold backUp
  show ∃ b fs1, Prog.bind _ _ _ _ = _
  unfold Prog.bind isfile
  cases hx : fs p with
  | none => exact ⟨false, fs, rfl⟩
  | some c =>
    have : Prog.replace p (bak p) fs [] = (.ok (), (fs.upd p none).upd (bak p) (some c), []) := by
      unfold Prog.replace Prog.step
      simp only [hx]
      rfl
    refine ⟨true, (fs.upd p none).upd (bak p) (some c), ?_⟩
    show Prog.bind (tryExcept (Prog.replace p (bak p)) _) _ _ _ = _
    unfold Prog.bind tryExcept
    rw [this]
    rfl

/-- Without the lock file, and if nothing fails, the project is written. -/
theorem C25_unlocked (path : Str) (root : Elem) (hasChapters : Bool) (fs : FS) (h : fs (path ++ c!".lock") = none) :
    (yw7Write path (.ok root) hasChapters fs []).1 = .ok () ∧
    (yw7Write path (.ok root) hasChapters fs []).2.1 path = some (fileText hasChapters root) := by
  have key : (yw7Write path (.ok root) hasChapters fs []).1 = .ok () := by
    have e1 : yw7Write path (.ok root) hasChapters fs [] = (do
          writeElementTree path root
          postprocessFile path hasChapters : Prog Unit) fs [] := by
      unfold yw7Write
      show Prog.bind _ _ _ _ = _
      unfold Prog.bind isLocked isfile
      rw [h]; rfl
    rw [e1]
    have e2 : ∃ fs1, writeElementTree path root fs [] = (.ok (), fs1, []) ∧ fs1 path = some (etWrite root) := by
      obtain ⟨b, fs1, hb⟩ := backUp_nil path fs
      refine ⟨(fs1.upd path (some [])).upd path (some ([] ++ etWrite root)), ?_, FS.upd_self _ _ _⟩
      unfold writeElementTree
      show Prog.bind _ _ _ _ = _
      unfold Prog.bind
      rw [hb]
      show tryExcept _ _ _ _ = _
      have : writeFile path (etWrite root) fs1 [] = (.ok (), (fs1.upd path (some [])).upd path (some ([] ++ etWrite root)), []) := by
        show Prog.append path (etWrite root) (fs1.upd path (some [])) [] = _
        unfold Prog.append
        rw [FS.upd_self]; rfl
      unfold tryExcept
      rw [this]
    obtain ⟨fs1, e3, e4⟩ := e2
    show (Prog.bind _ _ _ _).1 = _
    unfold Prog.bind
    rw [e3]
    unfold postprocessFile
    show (Prog.bind _ _ _ _).1 = _
    unfold Prog.bind readFile Prog.step
    simp only [e4]
    rfl
  refine ⟨key, ?_⟩
  obtain ⟨root', h1, h2, _⟩ := C24_yw7_success path (.ok root) hasChapters fs [] key
  injection h1 with h1
  rw [h2, h1]

end Verif
