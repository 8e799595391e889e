/-
Model of the reading side of `Yw7File` on the element tree (yw/yw7_file.py 129-177, 1156-1682).
-/
import Verif.Model.Yw7Write

namespace Verif
open Xml Elem

/-- The parts of the Python library the reader uses that are not modelled in detail: `int(s)` (`none`
means `ValueError`) and `datetime.fromisoformat(s)` followed by `isoformat().split('T')` (`none` means
an exception), with the facts about them the proofs use. `PyLib.exists` shows that the facts are
consistent. -/
structure PyLib where
  int : Str → Option Int
  int_str : ∀ n : Int, int (Str.ofInt n) = some n
  fromIso : Str → Option (Str × Str)

/-- `s.zfill(2)`. -/
def zfill2 : Str → Str
  | [] => c!"00"
  | [c] => if c = '-' ∨ c = '+' then [c, '0'] else ['0', c]
  | s => s

/-- The value of a custom keyword variable: initially `None`, then the last `Fields` element with such
an entry counts (yw7_file.py 1196-1204, 1239-1248, 1426-1435). -/
def customOf (name : Str) (ks : List Elem) : Option Str :=
  (sel c!"Fields" ks).foldl (fun acc f => match find name f.kids with
    | some e => e.text
    | none => acc) none

/-- `string_to_list(text)` and `_strip_spaces` (yw7_file.py 1461-1464, 1671-1682). -/
def readTags (ks : List Elem) : Option (List Str) :=
  (textOf c!"Tags" ks).map (fun t => (stringToList (some t) c!";").map Str.strip)

/-- The scene type in the `Fields` elements (yw7_file.py 1424, 1437-1442). -/
def fieldSceneType (fs : List Elem) : Nat :=
  fs.foldl (fun acc f =>
    match find c!"Field_SceneType" f.kids with
    | some e => if e.text = some c!"1" then 1 else if e.text = some c!"2" then 2 else acc
    | none => acc) 0

/-- Scene type (yw7_file.py 1424, 1437-1445). -/
def readSceneType (ks : List Elem) : Nat :=
  if hasTag c!"Unused" ks ∧ fieldSceneType (sel c!"Fields" ks) = 0 then 3
  else fieldSceneType (sel c!"Fields" ks)

/-- 'Do not export' (yw7_file.py 1447-1453). -/
def readDoNotExport (ks : List Elem) : Bool :=
  hasTag c!"ExportCondSpecific" ks && !hasTag c!"ExportWhenRTF" ks

/-- The day (yw7_file.py 1498-1506). An empty `Day` element raises `TypeError` (`int(None)`). -/
def readDay (lib : PyLib) (ks : List Elem) : Except Exc (Option Str) :=
  match find c!"Day" ks with
  | none => .ok none
  | some e => match e.text with
    | none => .error .typeError
    | some s => .ok (some (if (lib.int s).isSome then s else []))

/-- Hour or minute (yw7_file.py 1509-1518). An empty element raises `AttributeError`. -/
def readHM (t : Str) (ks : List Elem) : Except Exc (Option Str) :=
  match find t ks with
  | none => .ok none
  | some e => match e.text with
    | none => .error .attributeError
    | some s => .ok (some (zfill2 s))

/-- Scene start (yw7_file.py 1483-1520): date, time, day. -/
def readStart (lib : PyLib) (ks : List Elem) :
    Except Exc (Option Str × Option Str × Option Str) :=
  match find c!"SpecificDateTime" ks with
  | some e =>
    match e.text with
    | none => .ok (some [], some [], none)
    | some s =>
      match lib.fromIso s with
      | none => .ok (some [], some [], none)
      | some (d, t) => .ok (some d, some t, none)
  | none =>
    match readDay lib ks with
    | .error x => .error x
    | .ok day =>
      match readHM c!"Hour" ks with
      | .error x => .error x
      | .ok hour =>
        match readHM c!"Minute" ks with
        | .error x => .error x
        | .ok minute =>
          if hour.isSome ∨ minute.isSome then
            .ok (none, some (hour.getD c!"00" ++ ':' :: (minute.getD c!"00" ++ c!":00")), day)
          else .ok (none, none, day)

/-- The status (yw7_file.py 1455-1456). -/
def readStatus (lib : PyLib) (ks : List Elem) : Except Exc (Option Int) :=
  match find c!"Status" ks with
  | none => .ok none
  | some e =>
    match e.text with
    | none => .error .typeError
    | some s => match lib.int s with
      | none => .error .valueError
      | some i => .ok (some i)

/-- The IDs in a list element that are known (yw7_file.py 1554-1576); `None` if there are none. -/
def readIds (t sub : Str) (known : List Str) (ks : List Elem) : Option (List Str) :=
  match find t ks with
  | none => none
  | some e =>
    let ids := ((iterTag sub e).filterMap Elem.text).filter (fun i => i ∈ known)
    if ids = [] then none else some ids

/-- One scene (yw7_file.py 1398-1576) with its custom variables (yw7_file.py 170-177). The content is
assigned by the `sceneContent` setter. -/
def readScene (lib : PyLib) (chrs locs itms : List Str) (ks : List Elem) : Except Exc Scene :=
  match readStatus lib ks with
  | .error x => .error x
  | .ok status =>
    match readStart lib ks with
    | .error x => .error x
    | .ok (date, time, day) =>
      let s : Scene :=
        { title := textOf c!"Title" ks, desc := textOf c!"Desc" ks,
          kwVar := [(c!"Field_SceneArcs", customOf c!"Field_SceneArcs" ks),
                    (c!"Field_SceneMode", customOf c!"Field_SceneMode" ks)],
          scType := some (readSceneType ks), doNotExport := some (readDoNotExport ks),
          status := status, notes := textOf c!"Notes" ks, tags := readTags ks,
          field1 := textOf c!"Field1" ks, field2 := textOf c!"Field2" ks,
          field3 := textOf c!"Field3" ks, field4 := textOf c!"Field4" ks,
          appendToPrev := some (hasTag c!"AppendToPrev" ks),
          date := date, time := time, day := day,
          lastsDays := textOf c!"LastsDays" ks, lastsHours := textOf c!"LastsHours" ks,
          lastsMinutes := textOf c!"LastsMinutes" ks,
          isReactionScene := some (hasTag c!"ReactionScene" ks),
          isSubPlot := some (hasTag c!"SubPlot" ks),
          goal := textOf c!"Goal" ks, conflict := textOf c!"Conflict" ks,
          outcome := textOf c!"Outcome" ks, image := textOf c!"ImageFile" ks,
          characters := readIds c!"Characters" c!"CharID" chrs ks,
          locations := readIds c!"Locations" c!"LocID" locs ks,
          items := readIds c!"Items" c!"ItemID" itms ks,
          scnArcs := customOf c!"Field_SceneArcs" ks,
          scnMode := (customOf c!"Field_SceneMode" ks).bind lib.int }
      .ok (match textOf c!"SceneContent" ks with
        | none => s
        | some t => s.setContent t)

/-- The flags a chapter's `Fields` elements carry (yw7_file.py 1643-1655): suppress title, trash,
suppress break; the latter two stay `None` without a `Fields` element. -/
def readChFields (st : Bool) (ks : List Elem) : Bool × Option Bool × Option Bool :=
  (sel c!"Fields" ks).foldl (fun acc f =>
    (acc.1 || decide (textOf c!"Field_SuppressChapterTitle" f.kids = some c!"1"),
     some (decide (textOf c!"Field_IsTrash" f.kids = some c!"1")),
     some (decide (textOf c!"Field_SuppressChapterBreak" f.kids = some c!"1")))) (st, none, none)

/-- Chapter type (yw7_file.py 1611-1632). -/
def readChapterType (ks : List Elem) : Nat :=
  match find c!"ChapterType" ks with
  | some e =>
    if e.text = some c!"2" then 2 else if e.text = some c!"1" then 1
    else if hasTag c!"Unused" ks then 3 else 0
  | none =>
    match find c!"Type" ks with
    | some e => if e.text = some c!"1" then 1 else if hasTag c!"Unused" ks then 3 else 0
    | none => 0

/-- One chapter (yw7_file.py 1583-1669); `scenes` are the IDs of the scenes read before. -/
def readChapter (scenes : List Str) (ks : List Elem) : Chapter :=
  let title := textOf c!"Title" ks
  let at' := match title with
    | some t => Str.startsWith t c!"@"
    | none => false
  let f := readChFields at' ks
  { title := title, desc := textOf c!"Desc" ks, kwVar := [],
    chLevel := some (if hasTag c!"SectionStart" ks then 1 else 0),
    chType := some (readChapterType ks),
    suppressChapterTitle := some f.1, isTrash := f.2.1, suppressChapterBreak := f.2.2,
    srtScenes := match find c!"Scenes" ks with
      | none => []
      | some e => ((sel c!"ScID" e.kids).filterMap Elem.text).filter (fun i => i ∈ scenes) }

/-- One location or item (yw7_file.py 1219-1248, 1256-1285). -/
def readWorld (ks : List Elem) : WorldElement :=
  { title := textOf c!"Title" ks, desc := textOf c!"Desc" ks, image := textOf c!"ImageFile" ks,
    aka := textOf c!"AKA" ks, tags := readTags ks,
    kwVar := [(c!"Field_Link", customOf c!"Field_Link" ks)] }

/-- One character (yw7_file.py 1293-1339). -/
def readCharacter (ks : List Elem) : Character :=
  { title := textOf c!"Title" ks, desc := textOf c!"Desc" ks, image := textOf c!"ImageFile" ks,
    aka := textOf c!"AKA" ks, tags := readTags ks, notes := textOf c!"Notes" ks,
    bio := textOf c!"Bio" ks, goals := textOf c!"Goals" ks, fullName := textOf c!"FullName" ks,
    isMajor := some (hasTag c!"Major" ks),
    kwVar := [(c!"Field_Link", customOf c!"Field_Link" ks),
              (c!"Field_BirthDate", customOf c!"Field_BirthDate" ks),
              (c!"Field_DeathDate", customOf c!"Field_DeathDate" ks)] }

/-- Read the entries of a section in document order: sort order and dictionary
(yw7_file.py 1215-1220 etc.). -/
def readEntries {α : Type} (f : List Elem → Except Exc α) :
    List Str × Dict α → List Elem → Except Exc (List Str × Dict α)
  | acc, [] => .ok acc
  | acc, e :: r =>
    match idOf e with
    | .error x => .error x
    | .ok id =>
      match f e.kids with
      | .error x => .error x
      | .ok a => readEntries f (acc.1 ++ [id], acc.2.set id a) r

/-- Iterate over a section; a missing section raises `TypeError` (iteration over `None`). -/
def readSection {α : Type} (t : Str) (f : List Elem → Except Exc α) (d : Dict α) (rk : List Elem) :
    Except Exc (List Str × Dict α) :=
  match find t rk with
  | none => .error .typeError
  | some e => readEntries f ([], d) e.kids

/-- `_read_projectnotes` (yw7_file.py 1341-1367). A note with a `Fields` element raises
`UnboundLocalError`, which is swallowed and ends the loop after this note (`PNT_KWVAR` is empty, so
`fieldName` is unbound). Simplification: a note with an empty ID ends the loop, too. -/
def readNotes (acc : List Str × Dict BasicElement) : List Elem → List Str × Dict BasicElement
  | [] => acc
  | e :: r =>
    match find c!"ID" e.kids with
    | none => if hasTag c!"Fields" e.kids then acc else readNotes acc r
    | some i =>
      match i.text with
      | none => acc
      | some id =>
        let acc := (acc.1 ++ [id],
          acc.2.set id { title := textOf c!"Title" e.kids, desc := textOf c!"Desc" e.kids })
        if hasTag c!"Fields" e.kids then acc else readNotes acc r

/-- `_read_projectvars` (yw7_file.py 1369-1392): language code, country code, languages. A variable
with an empty title ends the loop (`AttributeError`, swallowed). -/
def readVars (acc : Option Str × Option Str × Option (List Str)) :
    List Elem → Option Str × Option Str × Option (List Str)
  | [] => acc
  | e :: r =>
    match find c!"Title" e.kids with
    | none => readVars acc r
    | some tEl =>
      match tEl.text with
      | none => acc
      | some title =>
        if title = c!"Language" then
          readVars (match find c!"Desc" e.kids with
            | some d => (d.text, acc.2)
            | none => acc) r
        else if title = c!"Country" then
          readVars (match find c!"Desc" e.kids with
            | some d => (acc.1, d.text, acc.2.2)
            | none => acc) r
        else if Str.startsWith title c!"lang=" then
          readVars (match Str.split title c!"=" with
            | [_, code] => (acc.1, acc.2.1, some (acc.2.2.getD [] ++ [code]))
            | _ => acc) r
        else readVars acc r

/-- `attribute = xml.find(tag).text` if the element exists. -/
def readOver (t : Str) (old : Option Str) (ks : List Elem) : Option Str :=
  match find t ks with
  | none => old
  | some e => e.text

/-- A number with default 0 (yw7_file.py 1184-1194). -/
def readNum (lib : PyLib) (t : Str) (old : Option Int) (ks : List Elem) : Option Int :=
  match find t ks with
  | none => old
  | some e => some ((e.text.bind lib.int).getD 0)

/-- `_read_project` (yw7_file.py 1156-1211). -/
def readProject (lib : PyLib) (n : Novel) (ks : List Elem) : Novel :=
  let lng := customOf c!"Field_LanguageCode" ks
  let ctr := customOf c!"Field_CountryCode" ks
  { n with
    title := readOver c!"Title" n.title ks
    authorName := readOver c!"AuthorName" n.authorName ks
    authorBio := readOver c!"Bio" n.authorBio ks
    desc := readOver c!"Desc" n.desc ks
    fieldTitle1 := readOver c!"FieldTitle1" n.fieldTitle1 ks
    fieldTitle2 := readOver c!"FieldTitle2" n.fieldTitle2 ks
    fieldTitle3 := readOver c!"FieldTitle3" n.fieldTitle3 ks
    fieldTitle4 := readOver c!"FieldTitle4" n.fieldTitle4 ks
    wordCountStart := readNum lib c!"WordCountStart" n.wordCountStart ks
    wordTarget := readNum lib c!"WordTarget" n.wordTarget ks
    kwVar := (n.kwVar.set c!"Field_LanguageCode" lng).set c!"Field_CountryCode" ctr
    languageCode := if falsy lng then n.languageCode else lng
    countryCode := if falsy ctr then n.countryCode else ctr }

/-- `adjust_scene_types()` (yw7_file.py 114-119); an unknown chapter or scene raises `KeyError`. -/
def adjustSceneTypes (n : Novel) : Except Exc Novel :=
  n.srtChapters.foldl (fun acc chId =>
    match acc with
    | .error x => .error x
    | .ok n =>
      match n.chapters.get? chId with
      | none => .error .keyError
      | some c =>
        if c.chType = some 0 then .ok n
        else if c.srtScenes.all (fun s => n.scenes.has s) then
          .ok { n with scenes := c.srtScenes.foldl (fun d s => d.modify s (fun sc => { sc with scType := c.chType })) n.scenes }
        else .error .keyError) (.ok n)

/-- The reading of the element tree in `read` (yw7_file.py 160-177) into a novel `n`; `None` sections
of project variables and notes are tolerated, the other ones must exist. -/
def readRoot (lib : PyLib) (n : Novel) (rk : List Elem) : Except Exc Novel := do
  let prj ← match find c!"PROJECT" rk with
    | none => .error .attributeError
    | some e => .ok e.kids
  let n := readProject lib n prj
  let l ← readSection c!"LOCATIONS" (fun ks => .ok (readWorld ks)) n.locations rk
  let i ← readSection c!"ITEMS" (fun ks => .ok (readWorld ks)) n.items rk
  let c ← readSection c!"CHARACTERS" (fun ks => .ok (readCharacter ks)) n.characters rk
  let v := readVars (n.languageCode, n.countryCode, n.languages)
    (match find c!"PROJECTVARS" rk with | none => [] | some e => e.kids)
  let pn := readNotes ([], n.projectNotes)
    (match find c!"PROJECTNOTES" rk with | none => [] | some e => e.kids)
  let s ← readSection c!"SCENES" (readScene lib c.1 l.1 i.1) n.scenes rk
  let ch ← readSection c!"CHAPTERS" (fun ks => .ok (readChapter s.2.keys ks)) n.chapters rk
  adjustSceneTypes { n with srtLocations := l.1, locations := l.2, srtItems := i.1, items := i.2, srtCharacters := c.1, characters := c.2, languageCode := v.1, countryCode := v.2.1, languages := v.2.2, srtPrjNotes := pn.1, projectNotes := pn.2, scenes := s.2, srtChapters := ch.1, chapters := ch.2 }

/-- `read` on a parsed tree into a new novel. -/
def readTree (lib : PyLib) (root : Elem) : Except Exc Novel := readRoot lib {} root.kids

end Verif
