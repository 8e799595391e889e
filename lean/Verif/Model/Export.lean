/-
Template-based export: file/file_export.py.
-/
import Verif.Py.Template
import Verif.Model.Novel
import Verif.Model.Globals

namespace Verif

/-- A mapping dictionary for `safe_substitute`; the values are `str(value)`. -/
abbrev Mapping := Dict Str

/-- The string templates of an exporter class (file/file_export.py 28-59); an empty string means that there is none. -/
structure Templates where
  fileHeader : Str := []
  part : Str := []
  chapter : Str := []
  notesPart : Str := []
  todoPart : Str := []
  notesChapter : Str := []
  todoChapter : Str := []
  unusedChapter : Str := []
  notExportedChapter : Str := []
  scene : Str := []
  firstScene : Str := []
  appendedScene : Str := []
  notesScene : Str := []
  todoScene : Str := []
  unusedScene : Str := []
  notExportedScene : Str := []
  sceneDivider : Str := []
  chapterEnd : Str := []
  unusedChapterEnd : Str := []
  notExportedChapterEnd : Str := []
  notesChapterEnd : Str := []
  todoChapterEnd : Str := []
  characterHeading : Str := []
  character : Str := []
  locationHeading : Str := []
  location : Str := []
  itemHeading : Str := []
  item : Str := []
  fileFooter : Str := []
  projectNote : Str := []

/-- An exporter: its templates and the "template methods" that build the mapping dictionaries (file/file_export.py
103-120, 137-159, 251-283, 318-341, 362-385, 406-548, 633-648). Each gets the novel and the ID. -/
structure Exporter extends Templates where
  headerMapping : Novel → Except Exc Mapping
  chapterMapping : Novel → Str → Nat → Except Exc Mapping
  sceneMapping : Novel → Str → Nat → Nat → Nat → Except Exc Mapping
  characterMapping : Novel → Str → Except Exc Mapping
  locationMapping : Novel → Str → Except Exc Mapping
  itemMapping : Novel → Str → Except Exc Mapping
  noteMapping : Novel → Str → Except Exc Mapping

/-! ### The mapping dictionaries of the base class -/

/-- `str(x)` for a string or `None`. -/
def pyStr : Option Str → Str
  | some s => s
  | none => c!"None"

/-- `_DIVIDER` (file/file_export.py 60). -/
def exportDivider : Str := c!", "

/-- What the base class mapping methods need: the conversion `_convert_from_yw(text, quick)` and the project's name
and path (file/file.py 86-105, 123-134; the URL quoting is not modelled, the names are given). -/
structure Base where
  conv : Novel → Option Str → Bool → Str
  projectName : Str
  projectPath : Str

/-- `_get_fileHeaderMapping()` (file/file_export.py 103-120). -/
def Base.header (b : Base) (n : Novel) : Except Exc Mapping :=
  .ok [(c!"Title", b.conv n n.title true), (c!"Desc", b.conv n n.desc false),
    (c!"AuthorName", b.conv n n.authorName true), (c!"AuthorBio", b.conv n n.authorBio true),
    (c!"FieldTitle1", b.conv n n.fieldTitle1 true), (c!"FieldTitle2", b.conv n n.fieldTitle2 true),
    (c!"FieldTitle3", b.conv n n.fieldTitle3 true), (c!"FieldTitle4", b.conv n n.fieldTitle4 true),
    (c!"Language", pyStr n.languageCode), (c!"Country", pyStr n.countryCode)]

/-- A number that is replaced by the empty string if it is zero (file/file_export.py 147-148, 416-417). -/
def dispNumber (k : Nat) : Str := if k = 0 then [] else Str.ofNat k

/-- `_get_chapterMapping(chId, chapterNumber)` (file/file_export.py 138-159). -/
def Base.chapter (b : Base) (n : Novel) (chId : Str) (number : Nat) : Except Exc Mapping := do
  let ch ← n.chapters.get! chId
  .ok [(c!"ID", chId), (c!"ChapterNumber", dispNumber number), (c!"Title", b.conv n ch.title true),
    (c!"Desc", b.conv n ch.desc false), (c!"ProjectName", b.conv n (some b.projectName) true),
    (c!"ProjectPath", b.projectPath), (c!"Language", pyStr n.languageCode), (c!"Country", pyStr n.countryCode)]

/-- The tag list of an element as text (file/file_export.py 259-262). -/
def tagString (tags : Option (List Str)) : Str :=
  match tags with
  | none => []
  | some l => listToString (some l) exportDivider

/-- `_get_characterMapping(crId)` (file/file_export.py 251-283). -/
def Base.character (b : Base) (n : Novel) (crId : Str) : Except Exc Mapping := do
  let c ← n.characters.get! crId
  .ok [(c!"ID", crId), (c!"Title", b.conv n c.title true), (c!"Desc", b.conv n c.desc false),
    (c!"Tags", b.conv n (some (tagString c.tags)) false), (c!"Image", pyStr c.image),
    (c!"AKA", b.conv n c.aka true), (c!"Notes", b.conv n c.notes false), (c!"Bio", b.conv n c.bio false),
    (c!"Goals", b.conv n c.goals false), (c!"FullName", b.conv n c.fullName true),
    (c!"Status", if c.isMajor = some true then c!"Major" else c!"Minor"),
    (c!"ProjectName", b.conv n (some b.projectName) false), (c!"ProjectPath", b.projectPath)]

/-- The common body of `_get_itemMapping` and `_get_locationMapping`. -/
def Base.world (b : Base) (n : Novel) (id : Str) (e : WorldElement) : Mapping :=
  [(c!"ID", id), (c!"Title", b.conv n e.title true), (c!"Desc", b.conv n e.desc false),
    (c!"Tags", b.conv n (some (tagString e.tags)) true), (c!"Image", pyStr e.image), (c!"AKA", b.conv n e.aka true),
    (c!"ProjectName", b.conv n (some b.projectName) true), (c!"ProjectPath", b.projectPath)]

/-- `_get_itemMapping(itId)` (file/file_export.py 318-341). -/
def Base.item (b : Base) (n : Novel) (id : Str) : Except Exc Mapping := do
  let e ← n.items.get! id
  .ok (b.world n id e)

/-- `_get_locationMapping(lcId)` (file/file_export.py 362-385). -/
def Base.location (b : Base) (n : Novel) (id : Str) : Except Exc Mapping := do
  let e ← n.locations.get! id
  .ok (b.world n id e)

/-- `_get_prjNoteMapping(pnId)` (file/file_export.py 633-648). -/
def Base.note (b : Base) (n : Novel) (id : Str) : Except Exc Mapping := do
  let e ← n.projectNotes.get! id
  .ok [(c!"ID", id), (c!"Title", b.conv n e.title true), (c!"Desc", b.conv n e.desc true),
    (c!"ProjectName", b.conv n (some b.projectName) true), (c!"ProjectPath", b.projectPath)]

/-- `list_to_string` of a list of titles: a title that is `None` raises `TypeError` in `join`, which gives `''`. -/
def titlesString (titles : List (Option Str)) : Str :=
  if titles.all (·.isSome) then listToString (some (titles.map (·.getD []))) exportDivider else []

/-- The titles of the elements with the given IDs; `KeyError` if one does not exist. -/
def titlesOf {α : Type} (title : α → Option Str) (d : Dict α) : List Str → Except Exc (List (Option Str))
  | [] => .ok []
  | id :: r => do
    let e ← d.get! id
    let l ← titlesOf title d r
    .ok (title e :: l)

/-- The names of the characters and the viewpoint character (file/file_export.py 424-436): the bare `except` turns every
problem (no list, unknown character, empty list) into two empty strings. -/
def sceneChars (n : Novel) (s : Scene) : Str × Str :=
  match s.characters with
  | none => ([], [])
  | some ids =>
    match titlesOf (fun c : Character => c.title) n.characters ids with
    | .error _ => ([], [])
    | .ok [] => ([], [])
    | .ok (t :: r) => (titlesString (t :: r), pyStr t)

/-- The names of the locations or items (file/file_export.py 438-455). -/
def sceneWorld (d : Dict WorldElement) (ids : Option (List Str)) : Except Exc Str :=
  match ids with
  | none => .ok []
  | some l => do
    let ts ← titlesOf (fun e : WorldElement => e.title) d l
    .ok (titlesString ts)

/-- `Scene.STATUS` (model/scene.py 63-69). -/
def statusNames : List Str := [c!"None", c!"Outline", c!"Draft", c!"1st Edit", c!"2nd Edit", c!"Done"]

/-- `Scene.STATUS[status]`: `None` raises `TypeError`, an index out of range `IndexError`; negative indices count from
the end. -/
def statusName : Option Int → Except Exc Str
  | none => .error .typeError
  | some i =>
    match (if 0 ≤ i then statusNames[i.toNat]? else if -6 ≤ i then statusNames[(i + 6).toNat]? else none) with
    | some s => .ok s
    | none => .error .indexError

/-- `time.rsplit(':', 1)[0]`. -/
def dropSeconds (t : Str) : Str :=
  if ':' ∈ t then (Str.split t c!":").dropLast |> Str.join c!":" else t

/-- A duration value and its text (file/file_export.py 484-503). -/
def lastsValue (v : Option Str) : Str :=
  match v with
  | none => []
  | some d => if d = c!"0" then [] else d

/-- See `lastsValue`. -/
def lastsText (v : Option Str) (u : Str) : Str :=
  match v with
  | none => []
  | some d => if d = c!"0" then [] else d ++ u

/-- Date, day and combined date of a scene (file/file_export.py 463-476). -/
def sceneDate (s : Scene) : Str × Str × Str :=
  match s.date with
  | some d =>
    if d ≠ c!"0001-01-01" then (d, [], d)
    else match s.day with
      | some x => ([], x, c!"Day " ++ x)
      | none => ([], [], [])
  | none =>
    match s.day with
    | some x => ([], x, c!"Day " ++ x)
    | none => ([], [], [])

/-- `_get_sceneMapping(scId, sceneNumber, wordsTotal, lettersTotal)` (file/file_export.py 406-548). -/
def Base.scene (b : Base) (n : Novel) (scId : Str) (number words letters : Nat) : Except Exc Mapping := do
  let s ← n.scenes.get! scId
  let locs ← sceneWorld n.locations s.locations
  let items ← sceneWorld n.items s.items
  let status ← statusName s.status
  let chars := sceneChars n s
  let date := sceneDate s
  .ok [(c!"ID", scId), (c!"SceneNumber", dispNumber number), (c!"Title", b.conv n s.title true),
    (c!"Desc", b.conv n s.desc false), (c!"WordCount", Str.ofNat s.wordCount), (c!"WordsTotal", Str.ofNat words),
    (c!"LetterCount", Str.ofNat s.letterCount), (c!"LettersTotal", Str.ofNat letters), (c!"Status", status),
    (c!"SceneContent", b.conv n s.sceneContent false),
    (c!"FieldTitle1", b.conv n n.fieldTitle1 true), (c!"FieldTitle2", b.conv n n.fieldTitle2 true),
    (c!"FieldTitle3", b.conv n n.fieldTitle3 true), (c!"FieldTitle4", b.conv n n.fieldTitle4 true),
    (c!"Field1", pyStr s.field1), (c!"Field2", pyStr s.field2), (c!"Field3", pyStr s.field3),
    (c!"Field4", pyStr s.field4), (c!"Date", date.1),
    (c!"Time", match s.time with | some t => dropSeconds t | none => []), (c!"Day", date.2.1), (c!"ScDate", date.2.2),
    (c!"LastsDays", lastsValue s.lastsDays), (c!"LastsHours", lastsValue s.lastsHours),
    (c!"LastsMinutes", lastsValue s.lastsMinutes),
    (c!"Duration", lastsText s.lastsDays c!"d " ++ lastsText s.lastsHours c!"h " ++ lastsText s.lastsMinutes c!"min"),
    (c!"ReactionScene", if s.isReactionScene = some true then c!"R" else c!"A"),
    (c!"Goal", b.conv n s.goal false), (c!"Conflict", b.conv n s.conflict false),
    (c!"Outcome", b.conv n s.outcome false), (c!"Tags", b.conv n (some (tagString s.tags)) true),
    (c!"Image", pyStr s.image), (c!"Characters", chars.1), (c!"Viewpoint", chars.2), (c!"Locations", locs),
    (c!"Items", items), (c!"Notes", b.conv n s.notes false), (c!"ProjectName", b.conv n (some b.projectName) true),
    (c!"ProjectPath", b.projectPath), (c!"Language", pyStr n.languageCode), (c!"Country", pyStr n.countryCode)]

/-! ### Chapters and scenes -/

/-- The template for a scene (file/file_export.py 573-616): `none` if the scene is skipped; the flag tells whether the
scene is counted. -/
def sceneTemplate (x : Templates) (chType : Option Nat) (notExported first : Bool) (s : Scene) : Option (Str × Bool) :=
  let opt (t : Str) : Option (Str × Bool) := if t = [] then none else some (t, false)
  if s.scType = some 2 then opt x.todoScene
  else if s.scType = some 1 then opt x.notesScene
  else if s.scType = some 3 ∨ chType = some 3 then opt x.unusedScene
  else if s.doNotExport = some true ∨ notExported = true then opt x.notExportedScene
  else if Str.startsWith (s.sceneContent.getD []) c!"<HTML>" then none
  else if Str.startsWith (s.sceneContent.getD []) c!"<TEX>" then none
  else if first = false ∧ s.appendToPrev = some true ∧ x.appendedScene ≠ [] then some (x.appendedScene, true)
  else some (x.scene, true)

/-- The running counters: number of counted scenes, words and letters. -/
structure Counters where
  number : Nat := 0
  words : Nat := 0
  letters : Nat := 0
  deriving DecidableEq, Repr

/-- The loop of `_get_scenes(chId, sceneNumber, wordsTotal, lettersTotal, doNotExport)` (file/file_export.py 571-631).
The scene filter of the base class accepts everything (file/filter.py). -/
def scenesLoop (x : Exporter) (n : Novel) (chType : Option Nat) (notExported : Bool) :
    Bool → Counters → List Str → Except Exc (List Str × Counters)
  | _, k, [] => .ok ([], k)
  | first, k, scId :: r => do
    let s ← n.scenes.get! scId
    match sceneTemplate x.toTemplates chType notExported first s with
    | none => scenesLoop x n chType notExported first k r
    | some (t, counted) =>
      let k' : Counters := if counted then
        { number := k.number + 1, words := k.words + s.wordCount, letters := k.letters + s.letterCount } else k
      let divider := if first = true ∨ s.appendToPrev = some true then [] else [x.sceneDivider]
      let t' := if first = true ∧ x.firstScene ≠ [] then x.firstScene else t
      let m ← x.sceneMapping n scId (if counted then k'.number else 0) k'.words k'.letters
      let (rest, k'') ← scenesLoop x n chType notExported false k' r
      .ok (divider ++ Template.subst t' m :: rest, k'')

/-- Whether all scenes of a chapter (at least one) are marked "do not export" (file/file_export.py 184-194). -/
def chapterNotExported (n : Novel) (ids : List Str) : Except Exc Bool := do
  let rec flags : List Str → Except Exc (List Bool)
    | [] => .ok []
    | id :: r => do
      let s ← n.scenes.get! id
      let l ← flags r
      .ok ((s.doNotExport == some true) :: l)
  let l ← flags ids
  .ok (l ≠ [] && l.all id)

/-- The heading template of a chapter (file/file_export.py 195-222), and whether the chapter is numbered. -/
def chapterTemplate (x : Templates) (ch : Chapter) (notExported : Bool) : Option Str × Bool :=
  let opt (t : Str) : Option Str := if t = [] then none else some t
  if ch.chType = some 2 then (if ch.chLevel = some 1 then opt x.todoPart else opt x.todoChapter, false)
  else if ch.chType = some 1 then (if ch.chLevel = some 1 then opt x.notesPart else opt x.notesChapter, false)
  else if ch.chType = some 3 then (opt x.unusedChapter, false)
  else if notExported then (opt x.notExportedChapter, false)
  else if ch.chLevel = some 1 ∧ x.part ≠ [] then (some x.part, false)
  else (some x.chapter, true)

/-- The template for the end of a chapter (file/file_export.py 232-247). -/
def chapterEndTemplate (x : Templates) (ch : Chapter) (notExported : Bool) : Option Str :=
  let opt (t : Str) : Option Str := if t = [] then none else some t
  if ch.chType = some 2 then opt x.todoChapterEnd
  else if ch.chType = some 1 then opt x.notesChapterEnd
  else if ch.chType = some 3 then opt x.unusedChapterEnd
  else if notExported then opt x.notExportedChapterEnd
  else opt x.chapterEnd

/-- The line made from an optional chapter template. -/
def chapterLine (x : Exporter) (n : Novel) (chId : Str) (number : Nat) : Option Str → Except Exc (List Str)
  | none => .ok []
  | some t => do
    let m ← x.chapterMapping n chId number
    .ok [Template.subst t m]

/-- The loop of `_get_chapters()` (file/file_export.py 161-249). The chapter filter of the base class accepts everything. -/
def chaptersLoop (x : Exporter) (n : Novel) : Nat → Counters → List Str → Except Exc (List Str)
  | _, _, [] => .ok []
  | chNumber, k, chId :: r => do
    let ch ← n.chapters.get! chId
    let notExported ← chapterNotExported n ch.srtScenes
    let t := chapterTemplate x.toTemplates ch notExported
    let chNumber' := if t.2 then chNumber + 1 else chNumber
    let disp := if t.2 then chNumber' else 0
    let head ← chapterLine x n chId disp t.1
    let (scenes, k') ← scenesLoop x n ch.chType notExported true k ch.srtScenes
    let tail ← chapterLine x n chId disp (chapterEndTemplate x.toTemplates ch notExported)
    let rest ← chaptersLoop x n chNumber' k' r
    .ok (head ++ scenes ++ tail ++ rest)

/-- `_get_chapters()`. -/
def getChapters (x : Exporter) (n : Novel) : Except Exc (List Str) := chaptersLoop x n 0 {} n.srtChapters

/-- `_get_fileHeader()` (file/file_export.py 304-316). -/
def getFileHeader (x : Exporter) (n : Novel) : Except Exc (List Str) := do
  let m ← x.headerMapping n
  .ok [Template.subst x.fileHeader m]

/-- The common loop of `_get_characters`, `_get_locations`, `_get_items`, `_get_projectNotes` (file/file_export.py 285-302,
343-360, 387-404, 650-664). The filters of the base class accept everything. -/
def elementLines (t : Str) (mapping : Str → Except Exc Mapping) : List Str → Except Exc (List Str)
  | [] => .ok []
  | id :: r => do
    let m ← mapping id
    let rest ← elementLines t mapping r
    .ok (Template.subst t m :: rest)

/-- A section heading that is present only if not empty. -/
def headingLine (h : Str) : List Str := if h = [] then [] else [h]

/-- `_get_text()` of the base class (file/file_export.py 666-679). -/
def getText (x : Exporter) (n : Novel) : Except Exc Str := do
  let header ← getFileHeader x n
  let chapters ← getChapters x n
  let characters ← elementLines x.character (x.characterMapping n) n.srtCharacters
  let locations ← elementLines x.location (x.locationMapping n) n.srtLocations
  let items ← elementLines x.item (x.itemMapping n) n.srtItems
  let notes ← elementLines x.projectNote (x.noteMapping n) n.srtPrjNotes
  .ok (header ++ chapters ++ (headingLine x.characterHeading ++ characters) ++
    (headingLine x.locationHeading ++ locations) ++ (headingLine x.itemHeading ++ items) ++ notes ++
    [x.fileFooter]).flatten

end Verif
