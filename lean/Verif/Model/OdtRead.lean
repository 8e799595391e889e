/-
The ODT readers: odt_r/odt_reader.py, odt_r_formatted.py, odt_r_manuscript.py (with odt_r_notes.py, odt_r_todo.py), odt_r_proof.py,
odt_r_scenedesc.py, odt_r_chapterdesc.py (with odt_r_partdesc.py), odt_r_characters.py, odt_r_locations.py, odt_r_items.py,
odt_r_import.py, odt_r_outline.py.
-/
import Verif.Model.OdtParse
import Verif.Model.OdsRead
import Verif.Model.Splitter

namespace Verif

/-- The state of a reader (odt_r/odt_reader.py 53-59, odt_r_characters.py 36-38, odt_r_locations.py, odt_r_items.py,
odt_r_import.py 49-52, odt_r_outline.py 44-46). `elId` is `_crId`, `_lcId` or `_itId`. -/
structure Rd where
  novel : Novel
  lines : List Str := []
  scId : Option Str := none
  chId : Option Str := none
  language : Str := []
  skipData : Bool := false
  elId : Option Str := none
  sect : Option Str := none
  chCount : Nat := 0
  scCount : Nat := 0
  heading : Bool := false
  deriving DecidableEq, Repr

/-- A reader: its reaction to a call. -/
abbrev Reader := Rd → Call → Except Exc Rd

/-- The calls one after the other. -/
def Reader.run (h : Reader) : Rd → List Call → Except Exc Rd
  | r, [] => .ok r
  | r, c :: cs => do
    let r' ← h r c
    h.run r' cs

namespace Rd

/-- `self._lines.append(s)`. -/
def push (r : Rd) (s : Str) : Rd := { r with lines := r.lines ++ [s] }

/-- `''.join(self._lines)`. -/
def text (r : Rd) : Str := r.lines.flatten

/-- `re.search(r'[0-9]+', s).group()`; no match raises `AttributeError`. -/
def firstNumber : Str → Except Exc Str
  | [] => .error .attributeError
  | c :: cs => if Str.isDig c then .ok ((c :: cs).takeWhile Str.isDig) else firstNumber cs

/-- Mutation of the scene with the given ID, raising `KeyError`. -/
def onScene (r : Rd) (id : Str) (f : Scene → Scene) : Except Exc Rd :=
  if r.novel.scenes.has id then .ok { r with novel := { r.novel with scenes := r.novel.scenes.modify id f } } else .error .keyError

/-- Mutation of the chapter with the given ID, raising `KeyError`. -/
def onChapter (r : Rd) (id : Str) (f : Chapter → Chapter) : Except Exc Rd :=
  if r.novel.chapters.has id then .ok { r with novel := { r.novel with chapters := r.novel.chapters.modify id f } }
  else .error .keyError

/-- `self.novel.chapters[self._chId].srtScenes.append(scId)`; `KeyError` without a chapter. -/
def listScene (r : Rd) (scId : Str) : Except Exc Rd :=
  match r.chId with
  | none => .error .keyError
  | some c => r.onChapter c (fun ch => { ch with srtScenes := ch.srtScenes ++ [scId] })

/-- `if not self._scId in self.novel.scenes: ...` (odt_reader.py 103-105). -/
def ensureScene (r : Rd) (id : Str) : Except Exc Rd :=
  if r.novel.scenes.has id then .ok r else Rd.listScene { r with novel := { r.novel with scenes := r.novel.scenes.set id {} } } id

/-- A section for a scene (odt_reader.py 101-106). -/
def startScene (type : Nat) (r : Rd) (name : Str) : Except Exc Rd := do
  let id ← firstNumber name
  let r' ← ensureScene { r with scId := some id } id
  r'.onScene id (fun s => { s with scType := some type })

/-- `if not self._chId in self.novel.chapters: ...` (odt_reader.py 109-112). -/
def ensureChapter (r : Rd) (id : Str) : Rd :=
  if r.novel.chapters.has id then r
  else { r with novel := { r.novel with chapters := r.novel.chapters.set id {}, srtChapters := r.novel.srtChapters ++ [id] } }

/-- A section for a chapter (odt_reader.py 107-113). -/
def startChapter (type : Nat) (r : Rd) (name : Str) : Except Exc Rd := do
  let id ← firstNumber name
  (ensureChapter { r with chId := some id } id).onChapter id (fun ch => { ch with chType := some type })

/-- `OdtReader.handle_starttag` (odt_reader.py 88-115). -/
def baseStart (type : Nat) (r : Rd) (tag : Str) (as : List (Str × Option Str)) : Except Exc Rd :=
  if tag = c!"div" then
    match as with
    | [] => .error .indexError
    | (k, v) :: _ =>
      if k = c!"id" then
        if Str.startsWith (v.getD []) c!"ScID" then startScene type r (v.getD [])
        else if Str.startsWith (v.getD []) c!"ChID" then startChapter type r (v.getD [])
        else .ok r
      else .ok r
  else if tag = c!"s" then .ok (r.push c!" ")
  else .ok r

/-- `OdtReader.handle_comment` (odt_reader.py 61-70). -/
def baseComment (r : Rd) (s : Str) : Rd := if r.scId.isSome then r.push (c!"/*" ++ s ++ c!"*/") else r

/-- The reaction to a `lang` attribute, common to several readers (odt_r_manuscript.py 118-122): without one, the exception
(`IndexError`) is caught. -/
def startLanguage (r : Rd) (as : List (Str × Option Str)) : Rd :=
  match as with
  | (k, some l) :: _ =>
    if k = c!"lang" then
      let ls := r.novel.languages.getD []
      Rd.push { r with language := l, novel := { r.novel with languages := some (if l ∈ ls then ls else ls ++ [l]) } }
        (c!"[lang=" ++ l ++ c!"]")
    else r
  | _ => r

/-- `if self._language: append the end tag; self._language = ''` (odt_r_manuscript.py 76-78). -/
def stopLanguage (r : Rd) : Rd :=
  if r.language = [] then r else { r.push (c!"[/lang=" ++ r.language ++ c!"]") with language := [] }

/-- The `body` tag: language and country of the document (odt_r_manuscript.py 145-152). -/
def startBody (r : Rd) : List (Str × Option Str) → Rd
  | [] => r
  | (k, v) :: as =>
    let r' := match v with
      | none | some [] => r
      | some v =>
        if k = c!"language" then { r with novel := { r.novel with languageCode := some v } }
        else if k = c!"country" then { r with novel := { r.novel with countryCode := some v } } else r
    startBody r' as

/-- The loop of `OdtRFormatted._cleanup_scene` (odt_r_formatted.py 50-53). -/
def cleanupTags : List Str → Str → Str
  | [], t => t
  | tag :: r, t =>
    let o := c!"[" ++ tag ++ c!"]"
    let c := c!"[/" ++ tag ++ c!"]"
    cleanupTags r (Str.replace (Str.replace (Str.replace t (c ++ o) []) (c ++ c!"\n" ++ o) c!"\n") (c ++ c!"\n> " ++ o) c!"\n> ")

/-- `OdtRFormatted._cleanup_scene` (odt_r_formatted.py 37-57). -/
def cleanupScene (r : Rd) (t : Str) : Str :=
  cleanupTags (c!"i" :: c!"b" :: (r.novel.languages.getD []).map (fun l => c!"lang=" ++ l)) t

/-- `data.split('~')[1].strip()` (odt_r_manuscript.py 42). -/
def titleOfComment (s : Str) : Option Str := (Str.split s c!"~")[1]?.map Str.strip

end Rd
open Rd

/-! ### `OdtRManuscript`, `OdtRNotes`, `OdtRTodo` (odt_r_manuscript.py; `type` is the class constant `_TYPE`) -/

/-- `handle_comment` (odt_r_manuscript.py 26-47). -/
def msComment (r : Rd) (s : Str) : Rd :=
  match r.scId with
  | none => r
  | some id =>
    if Str.contains s c!"~" then
      match titleOfComment s with
      | some t => { r with novel := { r.novel with scenes := r.novel.scenes.modify id (fun sc => { sc with title := some t }) } }
      | none => r
    else r.push (c!"/*" ++ Str.strip s ++ c!"*/")

/-- `data.isspace()` for a non-empty string; false for the empty one. -/
def isSpaceStr (s : Str) : Bool := s ≠ [] && s.all Str.isWs

/-- `handle_data` (odt_r_manuscript.py 49-64). -/
def msData (r : Rd) (s : Str) : Except Exc Rd :=
  if r.skipData then .ok { r with skipData := false }
  else if r.scId.isSome then .ok (if isSpaceStr s then r else r.push s)
  else
    match r.chId with
    | none => .ok r
    | some id =>
      match r.novel.chapters.get? id with
      | none => .error .keyError
      | some ch => if ch.title.isNone then r.onChapter id (fun ch => { ch with title := some (Str.strip s) }) else .ok r

/-- `handle_endtag` (odt_r_manuscript.py 66-99). -/
def msStop (r : Rd) (tag : Str) : Except Exc Rd :=
  match r.scId with
  | some id =>
    if tag = c!"p" ∨ tag = c!"blockquote" then .ok (r.stopLanguage.push c!"\n")
    else if tag = c!"em" then .ok (r.push c!"[/i]")
    else if tag = c!"strong" then .ok (r.push c!"[/b]")
    else if tag = c!"lang" then .ok r.stopLanguage
    else if tag = c!"div" then do
      let r' ← r.onScene id (fun s => s.setContent (Str.rstrip (r.cleanupScene r.text)))
      .ok { r' with lines := [], scId := none }
    else if tag = c!"h1" ∨ tag = c!"h2" then .ok (r.push c!"\n")
    else .ok r
  | none => if r.chId.isSome ∧ tag = c!"div" then .ok { r with chId := none } else .ok r

/-- `handle_starttag` (odt_r_manuscript.py 101-154). -/
def msStart (type : Nat) (r0 : Rd) (tag : Str) (as : List (Str × Option Str)) : Except Exc Rd := do
  let r ← baseStart type r0 tag as
  if r.scId.isSome then
    if tag = c!"em" then .ok (r.push c!"[i]")
    else if tag = c!"strong" then .ok (r.push c!"[b]")
    else if tag = c!"lang" ∨ tag = c!"p" then .ok (r.startLanguage as)
    else if tag = c!"h3" then .ok { r with skipData := true }
    else if tag = c!"h2" then .ok (r.push c!"## ")
    else if tag = c!"h1" then .ok (r.push c!"# ")
    else if tag = c!"li" then .ok (r.push c!"- ")
    else if tag = c!"blockquote" then .ok ((r.push c!"> ").startLanguage as)
    else .ok r
  else if tag = c!"body" then .ok (r.startBody as)
  else if tag = c!"s" then .ok (r.push c!" ")
  else .ok r

/-- The manuscript reader. -/
def manuscriptReader (type : Nat) : Reader
  | r, .start t as => msStart type r t as
  | r, .stop t => msStop r t
  | r, .data s => msData r s
  | r, .comment s => .ok (msComment r s)

/-! ### `OdtRProof` (odt_r_proof.py) -/

/-- `handle_data` (odt_r_proof.py 26-49); every exception becomes an `Error`. -/
def proofData (r : Rd) (s : Str) : Except Exc Rd :=
  let bad : Except Exc Rd := .error (.error (c!"Corrupt marker: \"" ++ s ++ c!"\""))
  if r.skipData then .ok { r with skipData := false }
  else if Str.contains s c!"[ScID" then
    match firstNumber s with
    | .ok id => .ok { r with scId := some id, lines := [] }
    | .error _ => bad
  else if Str.contains s c!"[/ScID" then
    match r.scId with
    | some id =>
      if r.novel.scenes.has id then
        match r.onScene id (fun sc => sc.setContent (Str.strip (r.cleanupScene r.text))) with
        | .ok r' => .ok { r' with lines := [], scId := none }
        | .error _ => bad
      else .ok { r with scId := none }
    | none => .ok r
  else .ok (if r.scId.isSome then r.push s else r)

/-- `handle_endtag` (odt_r_proof.py 51-71). -/
def proofStop (r : Rd) (tag : Str) : Rd :=
  if tag ∈ [c!"p", c!"h2", c!"h1", c!"blockquote"] then (r.push c!"\n").stopLanguage
  else if tag = c!"em" then r.push c!"[/i]"
  else if tag = c!"strong" then r.push c!"[/b]"
  else if tag = c!"lang" then r.stopLanguage
  else r

/-- `handle_starttag` (odt_r_proof.py 73-123). -/
def proofStart (r : Rd) (tag : Str) (as : List (Str × Option Str)) : Rd :=
  if tag = c!"em" then r.push c!"[i]"
  else if tag = c!"strong" then r.push c!"[b]"
  else if tag = c!"lang" ∨ tag = c!"p" then r.startLanguage as
  else if tag = c!"h2" then r.push c!"## "
  else if tag = c!"h1" then r.push c!"# "
  else if tag = c!"li" then r.push c!"- "
  else if tag = c!"blockquote" then (r.push c!"> ").startLanguage as
  else if tag = c!"body" then r.startBody as
  else if tag = c!"br" ∨ tag = c!"ul" then { r with skipData := true }
  else if tag = c!"s" then r.push c!" "
  else r

/-- The reader for proof reading. -/
def proofReader : Reader
  | r, .start t as => .ok (proofStart r t as)
  | r, .stop t => .ok (proofStop r t)
  | r, .data s => proofData r s
  | r, .comment s => .ok (r.baseComment s)

/-! ### `OdtRSceneDesc` (odt_r_scenedesc.py) -/

/-- A falsy optional string. -/
def isBlankField (v : Option Str) : Bool := v = none || v = some []

/-- `handle_data` (odt_r_scenedesc.py 23-35). -/
def sdData (r : Rd) (s : Str) : Except Exc Rd :=
  if r.scId.isSome then .ok (r.push s)
  else
    match r.chId with
    | none => .ok r
    | some id =>
      match r.novel.chapters.get? id with
      | none => .error .keyError
      | some ch => if isBlankField ch.title then r.onChapter id (fun ch => { ch with title := some (Str.strip s) }) else .ok r

/-- `text.split(sep='*/', maxsplit=1)` if the separator occurs. -/
def splitOnce (sep : Str) : Str → Option (Str × Str)
  | [] => none
  | c :: cs =>
    if sep.isPrefixOf (c :: cs) then some ([], (c :: cs).drop sep.length)
    else (splitOnce sep cs).map (fun p => (c :: p.1, p.2))

/-- The end of a scene section (odt_r_scenedesc.py 47-58): the new title, if any, and the description. A text that begins with a comment
start but has no comment end raises `ValueError`, which is caught. -/
def sdSplit (text : Str) : Option Str × Str :=
  if Str.startsWith text c!"/*" then
    match splitOnce c!"*/" text with
    | none => (none, Str.rstrip text)
    | some p => (if Str.contains p.1 c!"~" then titleOfComment p.1 else none, Str.rstrip p.2)
  else (none, Str.rstrip text)

/-- `handle_endtag` (odt_r_scenedesc.py 37-65). -/
def sdStop (r : Rd) (tag : Str) : Except Exc Rd :=
  match r.scId with
  | some id =>
    if tag = c!"div" then do
      let r' ← r.onScene id (fun s =>
        { s with title := match (sdSplit r.text).1 with | some t => some t | none => s.title, desc := some (sdSplit r.text).2 })
      .ok { r' with lines := [], scId := none }
    else if tag = c!"p" then .ok (r.push c!"\n")
    else .ok r
  | none => if r.chId.isSome ∧ tag = c!"div" then .ok { r with chId := none } else .ok r

/-- The scene description reader. -/
def sceneDescReader : Reader
  | r, .start t as => baseStart 0 r t as
  | r, .stop t => sdStop r t
  | r, .data s => sdData r s
  | r, .comment s => .ok (r.baseComment s)

/-! ### `OdtRChapterDesc`, `OdtRPartDesc` (odt_r_chapterdesc.py) -/

/-- `handle_endtag` (odt_r_chapterdesc.py 23-41). -/
def cdStop (r : Rd) (tag : Str) : Except Exc Rd :=
  match r.chId with
  | none => .ok r
  | some id =>
    if tag = c!"div" then do
      let r' ← r.onChapter id (fun ch => { ch with desc := some (Str.rstrip r.text) })
      .ok { r' with lines := [], chId := none }
    else if tag = c!"p" then .ok (r.push c!"\n")
    else if tag = c!"h1" ∨ tag = c!"h2" then do
      let r' ← r.onChapter id (fun ch => if isBlankField ch.title then { ch with title := some r.text } else ch)
      .ok { r' with lines := [] }
    else .ok r

/-- The chapter description reader. -/
def chapterDescReader : Reader
  | r, .start t as => baseStart 0 r t as
  | r, .stop t => cdStop r t
  | r, .data s => .ok (if r.chId.isSome then r.push (Str.strip s) else r)
  | r, .comment s => .ok (r.baseComment s)

/-! ### `OdtRCharacters` (odt_r_characters.py) -/

/-- `handle_starttag` (odt_r_characters.py 80-104). -/
def crStart (r : Rd) (tag : Str) (as : List (Str × Option Str)) : Except Exc Rd :=
  if tag = c!"div" then
    match as with
    | [] => .error .indexError
    | (k, v) :: _ =>
      let v := v.getD []
      if k = c!"id" then
        if Str.startsWith v c!"CrID_desc" then do
          let id ← firstNumber v
          let n := r.novel
          let n := if n.characters.has id then n
            else { n with srtCharacters := n.srtCharacters ++ [id], characters := n.characters.set id {} }
          .ok { r with novel := n, elId := some id, sect := some c!"desc" }
        else if Str.startsWith v c!"CrID_bio" then .ok { r with sect := some c!"bio" }
        else if Str.startsWith v c!"CrID_goals" then .ok { r with sect := some c!"goals" }
        else if Str.startsWith v c!"CrID_notes" then .ok { r with sect := some c!"notes" }
        else .ok r
      else .ok r
  else if tag = c!"s" then .ok (r.push c!" ")
  else .ok r

/-- The text of a section goes to the attribute it is named after (odt_r_characters.py 61-76). -/
def setSection (sect text : Str) (c : Character) : Character :=
  if sect = c!"desc" then { c with desc := some text }
  else if sect = c!"bio" then { c with bio := some text }
  else if sect = c!"goals" then { c with goals := some text }
  else { c with notes := some text }

/-- `handle_endtag` (odt_r_characters.py 51-78). -/
def crStop (r : Rd) (tag : Str) : Except Exc Rd :=
  match r.elId with
  | none => .ok r
  | some id =>
    if tag = c!"div" then
      match r.sect with
      | none => .ok r
      | some s =>
        if r.novel.characters.has id then
          .ok { r with novel := { r.novel with characters := r.novel.characters.modify id (setSection s (Str.rstrip r.text)) },
                       lines := [], sect := none }
        else .error .keyError
    else if tag = c!"p" then .ok (r.push c!"\n")
    else .ok r

/-- The character description reader. -/
def charactersReader : Reader
  | r, .start t as => crStart r t as
  | r, .stop t => crStop r t
  | r, .data s => .ok (if r.sect.isSome then r.push (Str.strip s) else r)
  | r, .comment s => .ok (r.baseComment s)

/-! ### `OdtRLocations`, `OdtRItems` (odt_r_locations.py, odt_r_items.py) -/

/-- Which of the two: the mark of the sections, and the access to the dictionary and the list of the novel. -/
structure WorldKind where
  mark : Str
  get : Novel → Dict WorldElement
  put : Novel → Dict WorldElement → Novel
  add : Novel → Str → Novel

/-- Locations. -/
def locationKind : WorldKind :=
  { mark := c!"LcID", get := fun n => n.locations, put := fun n d => { n with locations := d },
    add := fun n id => { n with srtLocations := n.srtLocations ++ [id] } }

/-- Items. -/
def itemKind : WorldKind :=
  { mark := c!"ItID", get := fun n => n.items, put := fun n d => { n with items := d },
    add := fun n id => { n with srtItems := n.srtItems ++ [id] } }

/-- `handle_starttag` (odt_r_locations.py 64-83, odt_r_items.py 64-83). -/
def weStart (w : WorldKind) (r : Rd) (tag : Str) (as : List (Str × Option Str)) : Except Exc Rd :=
  if tag = c!"div" then
    match as with
    | [] => .error .indexError
    | (k, v) :: _ =>
      let v := v.getD []
      if k = c!"id" ∧ Str.startsWith v w.mark then do
        let id ← firstNumber v
        let n := if (w.get r.novel).has id then r.novel else w.put (w.add r.novel id) ((w.get r.novel).set id {})
        .ok { r with novel := n, elId := some id }
      else .ok r
  else if tag = c!"s" then .ok (r.push c!" ")
  else .ok r

/-- `handle_endtag` (odt_r_locations.py 48-62, odt_r_items.py 48-62). -/
def weStop (w : WorldKind) (r : Rd) (tag : Str) : Except Exc Rd :=
  match r.elId with
  | none => .ok r
  | some id =>
    if tag = c!"div" then
      if (w.get r.novel).has id then
        .ok { r with novel := w.put r.novel ((w.get r.novel).modify id (fun e => { e with desc := some (Str.rstrip r.text) })),
                     lines := [], elId := none }
      else .error .keyError
    else if tag = c!"p" then .ok (r.push c!"\n")
    else .ok r

/-- The location or item description reader. -/
def worldReader (w : WorldKind) : Reader
  | r, .start t as => weStart w r t as
  | r, .stop t => weStop w r t
  | r, .data s => .ok (if r.elId.isSome then r.push (Str.strip s) else r)
  | r, .comment s => .ok (r.baseComment s)

/-! ### `OdtRImport` (odt_r_import.py) -/

/-- `handle_comment` (odt_r_import.py 54-72). -/
def imComment (r : Rd) (s : Str) : Rd :=
  match r.scId with
  | none => r
  | some id =>
    if r.lines = [] then
      { r with novel := { r.novel with scenes := r.novel.scenes.modify id (fun sc => { sc with title := some (Str.strip s) }) } }
    else r.push (c!"/*" ++ Str.strip s ++ c!"*/")

/-- `handle_data` (odt_r_import.py 74-85). -/
def imData (r : Rd) (s : Str) : Rd :=
  if r.scId.isSome ∧ Str.contains s c!"* * *" then { r with scId := none } else r.push s

/-- A new text for a scene, with the status that results from its length (odt_r_import.py 101-109). -/
def imStore (text : Str) (s : Scene) : Scene :=
  { s.setContent text with status := some (if (s.setContent text).wordCount < 10 then 1 else 2) }

/-- `handle_endtag` (odt_r_import.py 87-123). -/
def imStop (r0 : Rd) (tag : Str) : Except Exc Rd :=
  if tag = c!"p" ∨ tag = c!"blockquote" then
    let r := r0.stopLanguage.push c!"\n"
    match r.scId with
    | none => .ok r
    | some id => r.onScene id (imStore (r.cleanupScene (Str.rstrip r.text)))
  else if tag = c!"em" ∧ r0.heading = false then .ok (r0.push c!"[/i]")
  else if tag = c!"strong" ∧ r0.heading = false then .ok (r0.push c!"[/b]")
  else if tag = c!"lang" ∧ r0.heading = false then .ok r0.stopLanguage
  else if tag = c!"h1" ∨ tag = c!"h2" then
    match r0.chId with
    | none => .error .keyError
    | some id => do
      let r ← r0.onChapter id (fun ch => { ch with title := some r0.text })
      .ok { r with lines := [], heading := false }
  else if tag = c!"title" then .ok { r0 with novel := { r0.novel with title := some r0.text } }
  else .ok r0

/-- A new scene (odt_r_import.py 135-143). The title is not translated here. -/
def imNewScene (r0 : Rd) (ch : Str) : Except Exc Rd :=
  let k := r0.scCount + 1
  let id := Str.ofNat k
  let r := { r0 with
    lines := [], scCount := k, scId := some id
    novel := { r0.novel with scenes := r0.novel.scenes.set id { status := some 1, scType := some 0, title := some (c!"Scene " ++ id) } } }
  r.onChapter ch (fun c => { c with srtScenes := c.srtScenes ++ [id] })

/-- A new chapter, common to `OdtRImport` (163-174) and `OdtROutline` (93-104). -/
def addChapter (r0 : Rd) (level : Nat) : Rd :=
  let k := r0.chCount + 1
  let id := Str.ofNat k
  { r0 with
    scId := none, lines := [], chCount := k, chId := some id
    novel := { r0.novel with
      chapters := r0.novel.chapters.set id { chType := some 0, chLevel := some level }
      srtChapters := r0.novel.srtChapters ++ [id] } }

/-- The `meta` tag: author and description (odt_r_import.py 179-183, odt_r_outline.py 117-121). -/
def startMeta (r : Rd) (as : List (Str × Option Str)) : Rd :=
  match as with
  | (_, k) :: (_, v) :: _ =>
    if k = some c!"author" then { r with novel := { r.novel with authorName := v } }
    else if k = some c!"description" then { r with novel := { r.novel with desc := v } } else r
  | _ => r

/-- The beginning of a paragraph (odt_r_import.py 134-151). -/
def imParagraph (r0 : Rd) (as : List (Str × Option Str)) : Except Exc Rd :=
  match r0.scId, r0.chId with
  | none, some ch => do
    let r ← imNewScene r0 ch
    .ok (r.startLanguage as)
  | _, _ => .ok (r0.startLanguage as)

/-- `handle_starttag` (odt_r_import.py 125-207). -/
def imStart (r0 : Rd) (tag : Str) (as : List (Str × Option Str)) : Except Exc Rd :=
  if tag = c!"p" then imParagraph r0 as
  else if tag = c!"em" ∧ r0.heading = false then .ok (r0.push c!"[i]")
  else if tag = c!"strong" ∧ r0.heading = false then .ok (r0.push c!"[b]")
  else if tag = c!"lang" ∧ r0.heading = false then .ok (r0.startLanguage as)
  else if tag = c!"h1" then .ok { addChapter r0 1 with heading := true }
  else if tag = c!"h2" then .ok { addChapter r0 0 with heading := true }
  else if tag = c!"div" then .ok { r0 with scId := none, chId := none }
  else if tag = c!"meta" then .ok (startMeta r0 as)
  else if tag = c!"title" then .ok { r0 with lines := [] }
  else if tag = c!"body" then .ok (r0.startBody as)
  else if tag = c!"li" then .ok (r0.push c!"- ")
  else if tag = c!"blockquote" then .ok ((r0.push c!"> ").startLanguage as)
  else if tag = c!"s" then .ok (r0.push c!" ")
  else .ok r0

/-- The reader for a work in progress. -/
def importReader : Reader
  | r, .start t as => imStart r t as
  | r, .stop t => imStop r t
  | r, .data s => .ok (imData r s)
  | r, .comment s => .ok (imComment r s)

/-! ### `OdtROutline` (odt_r_outline.py) -/

/-- `handle_endtag` (odt_r_outline.py 58-81). -/
def olStop (r : Rd) (tag : Str) : Except Exc Rd :=
  if tag = c!"p" then
    let text := Str.strip r.text ++ c!"\n"
    let r' := { r with lines := [text] }
    match r.scId, r.chId with
    | some id, _ => r'.onScene id (fun s => { s with desc := some text })
    | none, some id => r'.onChapter id (fun ch => { ch with desc := some text })
    | none, none => .ok r'
  else if tag = c!"h1" ∨ tag = c!"h2" then
    match r.chId with
    | none => .error .keyError
    | some id => do
      let r' ← r.onChapter id (fun ch => { ch with title := some (Str.strip r.text) })
      .ok { r' with lines := [] }
  else if tag = c!"h3" then
    match r.scId with
    | none => .error .keyError
    | some id => do
      let r' ← r.onScene id (fun s => { s with title := some (Str.strip r.text) })
      .ok { r' with lines := [] }
  else if tag = c!"title" then .ok { r with novel := { r.novel with title := some (Str.strip r.text) } }
  else .ok r

/-- A new scene (odt_r_outline.py 106-113). -/
def olNewScene (r0 : Rd) : Except Exc Rd :=
  let k := r0.scCount + 1
  let id := Str.ofNat k
  let r := { r0 with
    lines := [], scCount := k, scId := some id
    novel := { r0.novel with
      scenes := r0.novel.scenes.set id { (({} : Scene).setContent []) with status := some 1, scType := some 0 } } }
  r.listScene id

/-- `handle_starttag` (odt_r_outline.py 83-133). -/
def olStart (r0 : Rd) (tag : Str) (as : List (Str × Option Str)) : Except Exc Rd :=
  if tag = c!"h1" then .ok (addChapter r0 1)
  else if tag = c!"h2" then .ok (addChapter r0 0)
  else if tag = c!"h3" then olNewScene r0
  else if tag = c!"div" then .ok { r0 with scId := none, chId := none }
  else if tag = c!"meta" then .ok (startMeta r0 as)
  else if tag = c!"title" then .ok { r0 with lines := [] }
  else if tag = c!"body" then .ok (r0.startBody as)
  else if tag = c!"s" then .ok (r0.push c!" ")
  else .ok r0

/-- The outline reader. -/
def outlineReader : Reader
  | r, .start t as => olStart r t as
  | r, .stop t => olStop r t
  | r, .data s => .ok (r.push s)
  | r, .comment s => .ok (r.baseComment s)

/-! ### `read()` -/

/-- `OdtReader.read` (odt_reader.py 117-119). -/
def readOdt (h : Reader) (f : OdtFile) (n : Novel) : Except Exc Novel := do
  let cs ← feedFile f
  let r ← h.run { novel := n } cs
  .ok r.novel

/-- `OdtRFormatted.read` (odt_r_formatted.py 25-35): the novel and `scenesSplit`. -/
def readFormatted (h : Reader) (f : OdtFile) (n : Novel) : Except Exc (Novel × Bool) := do
  let n' ← readOdt h f { n with languages := some [] }
  splitScenes n'

end Verif
