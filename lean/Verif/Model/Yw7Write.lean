/-
Model of `Yw7File._build_element_tree` (yw/yw7_file.py 207-1093).
-/
import Verif.Model.Yw7Tree
import Verif.Model.Novel
import Verif.Model.Languages

namespace Verif
open Xml Elem

/-! ### Scenes -/

/-- `remove_date_time()` (yw7_file.py 225-240). -/
def removeDateTime (ks : List Elem) : List Elem :=
  removeFirst c!"Minute" (removeFirst c!"Hour" (removeFirst c!"Day"
    (removeFirst c!"SpecificDateMode" (removeFirst c!"SpecificDateTime" ks))))

/-- Falsity of an optional string. -/
def falsy (v : Option Str) : Bool :=
  match v with
  | none => true
  | some s => s.isEmpty

/-- Write the scene start (yw7_file.py 389-441). -/
def putStart (date time day : Option Str) (ks : List Elem) : Except Exc (List Elem) :=
  match date, time with
  | some d, some t =>
    let dateTime := d ++ ' ' :: t
    if dateTime = c!" " then .ok (removeDateTime ks)
    else if hasTag c!"SpecificDateTime" ks then
      .ok (modFirst c!"SpecificDateTime"
        (setText (some (if dateTime.count ':' < 2 then dateTime ++ c!":00" else dateTime))) ks)
    else .ok (removeFirst c!"Minute" (removeFirst c!"Hour" (removeFirst c!"Day"
      (ks ++ [leaf c!"SpecificDateTime" (some dateTime)] ++
        [leaf c!"SpecificDateMode" (some c!"-1")]))))
  | _, time =>
    if day = none ∧ time = none then .ok ks
    else if falsy day ∧ falsy time then .ok (removeDateTime ks)
    else
      let ks := putAlways c!"Day" day
        (removeFirst c!"SpecificDateMode" (removeFirst c!"SpecificDateTime" ks))
      match time with
      | none => .ok ks
      | some t =>
        match Str.split t c!":" with
        | [hours, minutes, _] =>
          .ok (putAlways c!"Minute" (some minutes) (putAlways c!"Hour" (some hours) ks))
        | _ => .error .valueError

/-- Write `Field_SceneType` (yw7_file.py 289-303). -/
def putSceneType (v : Option Str) (ks : List Elem) : List Elem :=
  match v with
  | none => onFields (removeFirst c!"Field_SceneType") ks
  | some v => onFields (putAlways c!"Field_SceneType" (some v)) (ensureFields ks)

/-- Write the 'do not export' flag (yw7_file.py 305-317). -/
def putExport (doNotExport : Option Bool) (ks : List Elem) : List Elem :=
  match doNotExport with
  | none => ks
  | some true => removeFirst c!"ExportWhenRTF" (addMissing c!"ExportCondSpecific" none ks)
  | some false =>
    if hasTag c!"ExportCondSpecific" ks then addMissing c!"ExportWhenRTF" (some c!"-1") ks else ks

/-- `scTypeEncoding` (yw7_file.py 272-277): `<Unused>` and `Field_SceneType` by scene type. -/
def scTypeEncoding : List (Bool × Option Str) :=
  [(false, none), (true, some c!"1"), (true, some c!"2"), (true, some c!"0")]

/-- First part of `build_scene_subtree` (yw7_file.py 242-387). -/
def buildSceneA (s : Scene) (unused : Bool) (ty : Option Str) (ks : List Elem) : List Elem :=
  (setElement c!"Title" s.title (ks, 1)).1
  |> putText c!"Desc" s.desc
  |> addMissing c!"SceneContent" s.sceneContent
  |> addMissing c!"WordCount" (some (Str.ofNat s.wordCount))
  |> addMissing c!"LetterCount" (some (Str.ofNat s.letterCount))
  |> putFlag c!"Unused" unused
  |> putSceneType ty
  |> putExport s.doNotExport
  |> putCustom c!"Field_SceneArcs" ((s.kwVar.get? c!"Field_SceneArcs").join)
  |> putCustom c!"Field_SceneMode" ((s.kwVar.get? c!"Field_SceneMode").join)
  |> putAlways c!"Status" (s.status.map Str.ofInt)
  |> putText c!"Notes" s.notes
  |> putText c!"Tags" (s.tags.map (fun l => listToString (some l) c!";"))
  |> putText c!"Field1" s.field1
  |> putText c!"Field2" s.field2
  |> putText c!"Field3" s.field3
  |> putText c!"Field4" s.field4
  |> putFlag c!"AppendToPrev" (s.appendToPrev.getD false)

/-- Last part of `build_scene_subtree` (yw7_file.py 443-532). -/
def buildSceneB (s : Scene) (ks : List Elem) : List Elem :=
  ks
  |> putText c!"LastsDays" s.lastsDays
  |> putText c!"LastsHours" s.lastsHours
  |> putText c!"LastsMinutes" s.lastsMinutes
  |> putFlag c!"ReactionScene" (s.isReactionScene.getD false)
  |> putFlag c!"SubPlot" (s.isSubPlot.getD false)
  |> putText c!"Goal" s.goal
  |> putText c!"Conflict" s.conflict
  |> putText c!"Outcome" s.outcome
  |> putText c!"ImageFile" s.image
  |> putIds c!"Characters" c!"CharID" (s.characters.getD [])
  |> putIds c!"Locations" c!"LocID" (s.locations.getD [])
  |> putIds c!"Items" c!"ItmID" (s.items.getD [])

/-- `build_scene_subtree(xmlScene, prjScn)` (yw7_file.py 223-532) on the children of the element.
Simplification: that `prjScn.scType` is set to 0 in memory if it was `None` is not modelled. -/
def buildScene (s : Scene) (ks : List Elem) : Except Exc (List Elem) :=
  match scTypeEncoding[s.scType.getD 0]? with
  | none => .error .indexError
  | some (unused, ty) =>
    match putStart s.date s.time s.day (buildSceneA s unused ty ks) with
    | .error e => .error e
    | .ok ks => .ok (buildSceneB s ks)

/-- The last pass over a scene element (yw7_file.py 1073-1090). -/
def finishScene (content : Option Str) (ks : List Elem) : List Elem :=
  (match content with
   | none => ks
   | some c => modFirst c!"SceneContent" (setText (some c)) ks)
  |> removeFirst c!"WordCount"
  |> removeFirst c!"LetterCount"
  |> removeFirst c!"RTFFile"
  |> removeFirst c!"BelongsToChID"

/-- What saving makes of one scene element: `build_scene_subtree`, then the last pass
(yw7_file.py 1050, 1073-1090). -/
def sceneOut (s : Scene) (ks : List Elem) : Except Exc (List Elem) :=
  match buildScene s ks with
  | .error x => .error x
  | .ok k => .ok (finishScene s.sceneContent k)

/-! ### Chapters -/

/-- `chTypeEncoding` (yw7_file.py 544-549): `<Unused>`, `<Type>` and `<ChapterType>`. -/
def chTypeEncoding : List (Bool × Str × Str) :=
  [(false, c!"0", c!"0"), (true, c!"1", c!"1"), (true, c!"1", c!"2"), (true, c!"1", c!"0")]

/-- Write a chapter flag that is `1` or `0` (yw7_file.py 574-596). -/
def putChField (field : Str) (b : Bool) (i : Nat) (ks : List Elem) : List Elem :=
  if b then
    onFields (putAlways field (some c!"1"))
      (if hasTag c!"Fields" ks then ks else insertAt i (node c!"Fields" none none []) ks)
  else onFields (fun fs => if hasTag field fs then modFirst field (setText (some c!"0")) fs else fs) ks

/-- Write the trash flag, which is removed if false (yw7_file.py 598-609). -/
def putTrash (b : Bool) (i : Nat) (ks : List Elem) : List Elem :=
  if b then
    onFields (putAlways c!"Field_IsTrash" (some c!"1"))
      (if hasTag c!"Fields" ks then ks else insertAt i (node c!"Fields" none none []) ks)
  else onFields (removeFirst c!"Field_IsTrash") ks

/-- Write `<Unused>` of a chapter (yw7_file.py 558-566): children and next index. -/
def putChUnused (b : Bool) (p : List Elem × Nat) : List Elem × Nat :=
  let ks := if b then
      (if hasTag c!"Unused" p.1 then p.1 else insertAt p.2 (leaf c!"Unused" (some c!"-1")) p.1)
    else removeFirst c!"Unused" p.1
  (ks, if hasTag c!"Unused" ks then p.2 + 1 else p.2)

/-- Write `<SectionStart>` (yw7_file.py 630-638): children and next index. -/
def putSection (level : Option Nat) (p : List Elem × Nat) : List Elem × Nat :=
  let ks := if hasTag c!"SectionStart" p.1 then
      (if level = some 0 then removeFirst c!"SectionStart" p.1 else p.1)
    else (if level = some 1 then insertAt p.2 (leaf c!"SectionStart" (some c!"-1")) p.1 else p.1)
  (ks, if hasTag c!"SectionStart" ks then p.2 + 1 else p.2)

/-- The chapter's `Fields` (yw7_file.py 573-628); there are no custom chapter fields
(`CHP_KWVAR` is empty, yw7_file.py 84). -/
def putChFields (c : Chapter) (p : List Elem × Nat) : List Elem × Nat :=
  let ks := p.1
    |> putChField c!"Field_SuppressChapterTitle" (c.suppressChapterTitle.getD false) p.2
    |> putChField c!"Field_SuppressChapterBreak" (c.suppressChapterBreak.getD false) p.2
    |> putTrash (c.isTrash.getD false) p.2
  (ks, if hasTag c!"Fields" ks then p.2 + 1 else p.2)

/-- `build_chapter_subtree(xmlChapter, prjChp)` (yw7_file.py 534-652) on the children of the
element. -/
def buildChapter (c : Chapter) (ks : List Elem) : Except Exc (List Elem) :=
  match chTypeEncoding[c.chType.getD 0]? with
  | none => .error .indexError
  | some (unused, ty, chTy) =>
    let p := (ks, 1)
      |> setElement c!"Title" c.title
      |> setElement c!"Desc" c.desc
      |> putChUnused unused
    let p := (removeFirst c!"SortOrder" p.1, p.2)
      |> putChFields c
      |> putSection c.chLevel
      |> setElement c!"Type" (some ty)
      |> setElement c!"ChapterType" (some chTy)
    .ok (putIds c!"Scenes" c!"ScID" c.srtScenes p.1)

/-! ### World elements and project notes -/

/-- `build_location_subtree` (yw7_file.py 654-689) and `build_item_subtree` (yw7_file.py 710-745),
which do the same; `LOC_KWVAR = ITM_KWVAR = ['Field_Link']`. -/
def buildWorld (w : WorldElement) (ks : List Elem) : List Elem :=
  ks
  |> putNew c!"Title" w.title
  |> putNew c!"ImageFile" w.image
  |> putNew c!"Desc" w.desc
  |> putNew c!"AKA" w.aka
  |> putNew c!"Tags" (w.tags.map (fun l => listToString (some l) c!";"))
  |> putCustom c!"Field_Link" ((w.kwVar.get? c!"Field_Link").join)
  |> removeFirst c!"SortOrder"

/-- `build_character_subtree` (yw7_file.py 747-797). -/
def buildCharacter (c : Character) (ks : List Elem) : List Elem :=
  ks
  |> putNew c!"Title" c.title
  |> putNew c!"Desc" c.desc
  |> putNew c!"ImageFile" c.image
  |> putNew c!"Notes" c.notes
  |> putNew c!"AKA" c.aka
  |> putNew c!"Tags" (c.tags.map (fun l => listToString (some l) c!";"))
  |> putNew c!"Bio" c.bio
  |> putNew c!"Goals" c.goals
  |> putNew c!"FullName" c.fullName
  |> putNew c!"Major" (if c.isMajor.getD false then some c!"-1" else none)
  |> putCustom c!"Field_Link" ((c.kwVar.get? c!"Field_Link").join)
  |> putCustom c!"Field_BirthDate" ((c.kwVar.get? c!"Field_BirthDate").join)
  |> putCustom c!"Field_DeathDate" ((c.kwVar.get? c!"Field_DeathDate").join)
  |> removeFirst c!"SortOrder"

/-- `build_prjNote_subtree` (yw7_file.py 691-696). -/
def buildNote (b : BasicElement) (ks : List Elem) : List Elem :=
  ks |> putNew c!"Title" b.title |> putNew c!"Desc" b.desc

/-- `build_project_subtree` (yw7_file.py 799-896) on the children of `PROJECT`. The custom project
fields are set to `None` first, so they are removed. -/
def buildProject (n : Novel) (ks : List Elem) : List Elem :=
  ks
  |> putAlways c!"Ver" (some c!"7")
  |> putAlways c!"Title" n.title
  |> putAlways c!"Desc" n.desc
  |> putAlways c!"AuthorName" n.authorName
  |> putAlways c!"Bio" n.authorBio
  |> putAlways c!"FieldTitle1" n.fieldTitle1
  |> putAlways c!"FieldTitle2" n.fieldTitle2
  |> putAlways c!"FieldTitle3" n.fieldTitle3
  |> putAlways c!"FieldTitle4" n.fieldTitle4
  |> putAlways c!"WordCountStart" (n.wordCountStart.map Str.ofInt)
  |> putAlways c!"WordTarget" (n.wordTarget.map Str.ofInt)
  |> onFields (removeFirst c!"Field_LanguageCode")
  |> onFields (removeFirst c!"Field_CountryCode")
  |> removeFirst c!"SavedWith"
  |> removeFirst c!"SavedOn"

/-! ### Project variables -/

/-- The state of the loop over the project variables (yw7_file.py 989-1013). -/
structure PvState where
  ids : List Str := []
  languages : List Str
  hasLng : Bool := false
  hasCtr : Bool := false
  out : List Elem := []

/-- One project variable (yw7_file.py 994-1013). Missing `ID`, `Title`, `Desc` or an empty title
raise `AttributeError`. Children of another kind are skipped by `findall`. -/
def scanVar (lng ctr : Option Str) (st : PvState) (e : Elem) : Except Exc PvState :=
  if e.tag ≠ c!"PROJECTVAR" then .ok { st with out := st.out ++ [e] }
  else
    match find c!"ID" e.kids, find c!"Title" e.kids with
    | some idEl, some tEl =>
      let st := { st with ids := st.ids ++ idEl.text.toList }
      match tEl.text with
      | none => .error .attributeError
      | some title =>
        if Str.startsWith title c!"lang=" then
          let langs := match Str.split title c!"=" with
            | [_, code] => st.languages.erase code
            | _ => st.languages
          .ok { st with languages := langs, out := st.out ++ [e] }
        else if title = c!"Language" then
          if hasTag c!"Desc" e.kids then
            .ok { st with hasLng := true, out := st.out ++ [e.mapKids (modFirst c!"Desc" (setText lng))] }
          else .error .attributeError
        else if title = c!"Country" then
          if hasTag c!"Desc" e.kids then
            .ok { st with hasCtr := true, out := st.out ++ [e.mapKids (modFirst c!"Desc" (setText ctr))] }
          else .error .attributeError
        else .ok { st with out := st.out ++ [e] }
    | _, _ => .error .attributeError

/-- The loop (yw7_file.py 994-1013). -/
def scanVars (lng ctr : Option Str) : PvState → List Elem → Except Exc PvState
  | st, [] => .ok st
  | st, e :: r =>
    match scanVar lng ctr st e with
    | .error x => .error x
    | .ok st' => scanVars lng ctr st' r

/-- `add_projectvariable(title, desc, tags)` (yw7_file.py 698-708) on the ID list and the children. -/
def addVar (title : Str) (desc : Option Str) (p : List Str × List Elem) : List Str × List Elem :=
  let pvId := createId p.1
  (p.1 ++ [pvId],
   p.2 ++ [node c!"PROJECTVAR" none none
     [leaf c!"ID" (some pvId), leaf c!"Title" (some title), leaf c!"Desc" desc,
      leaf c!"Tags" (some c!"0")]])

/-- The two variables of a language (yw7_file.py 1027-1033). -/
def addLang (p : List Str × List Elem) (code : Str) : List Str × List Elem :=
  p |> addVar (c!"lang=" ++ code) (some (c!"<HTM <SPAN LANG=\"" ++ code ++ c!"\"> /HTM>"))
    |> addVar (c!"/lang=" ++ code) (some c!"<HTM </SPAN> /HTM>")

/-- Process the children of `PROJECTVARS` (yw7_file.py 989-1034). -/
def buildVars (languages : List Str) (lng ctr : Option Str) (ks : List Elem) :
    Except Exc (List Elem) :=
  match scanVars lng ctr { languages := languages } ks with
  | .error x => .error x
  | .ok st =>
    let p := (st.ids, st.out)
    let p := if st.hasLng then p else addVar c!"Language" lng p
    let p := if st.hasCtr then p else addVar c!"Country" ctr p
    .ok (st.languages.foldl addLang p).2

/-! ### The whole tree -/

/-- `[f(x) for x in list]` where `f` may raise. -/
def mapE {α β : Type} (f : α → Except Exc β) : List α → Except Exc (List β)
  | [] => .ok []
  | a :: r =>
    match f a with
    | .error e => .error e
    | .ok b =>
      match mapE f r with
      | .error e => .error e
      | .ok bs => .ok (b :: bs)

/-- Edit the children of the section `root.find(tag)`; a missing section raises `AttributeError`
(`xmlSection.findall` on `None`). -/
def onSection (t : Str) (f : List Elem → Except Exc (List Elem)) (rk : List Elem) :
    Except Exc (List Elem) :=
  match find t rk with
  | none => .error .attributeError
  | some e =>
    match f e.kids with
    | .error x => .error x
    | .ok ks => .ok (modFirst t (mapKids (fun _ => ks)) rk)

/-- Remove the entries of a list section and add new ones (yw7_file.py 930-963, 970-981). -/
def rebuildSection {α : Type} (tag : Str) (d : Dict α) (f : α → List Elem → List Elem)
    (ids : List Str) (ks : List Elem) : Except Exc (List Elem) :=
  match mapE (fun id => match d.get? id with
      | none => .error .keyError
      | some a => .ok (node tag none none (f a [leaf c!"ID" (some id)]))) ids with
  | .error e => .error e
  | .ok es => .ok (ks.filter (fun e => e.tag ≠ tag) ++ es)

/-- `xml.find('ID').text`; a missing ID raises `AttributeError`. Simplification: an empty ID (`None`
in Python, which would be used as a key) raises `TypeError`. -/
def idOf (e : Elem) : Except Exc Str :=
  match find c!"ID" e.kids with
  | none => .error .attributeError
  | some i => match i.text with
    | none => .error .typeError
    | some s => .ok s

/-- The dictionary of the previous subtrees (yw7_file.py 1040-1043, 1057-1060). -/
def prevDict : Dict Elem → List Elem → Except Exc (Dict Elem)
  | d, [] => .ok d
  | d, e :: r =>
    match idOf e with
    | .error x => .error x
    | .ok id => prevDict (d.set id e) r

/-- The scenes section (yw7_file.py 1040-1051). -/
def buildScenes (n : Novel) (ks : List Elem) : Except Exc (List Elem) :=
  match prevDict [] (sel c!"SCENE" ks) with
  | .error x => .error x
  | .ok prev =>
    match mapE (fun (p : Str × Scene) =>
        let e := (prev.get? p.1).getD (node c!"SCENE" none none [leaf c!"ID" (some p.1)])
        match buildScene p.2 e.kids with
        | .error x => .error x
        | .ok k => .ok (e.mapKids (fun _ => k))) n.scenes with
    | .error x => .error x
    | .ok es => .ok (ks.filter (fun e => e.tag ≠ c!"SCENE") ++ es)

/-- The chapters section (yw7_file.py 1057-1068). Simplification: the IDs in `srtChapters` are taken to be
distinct (a repeated ID would put the same, twice edited, element object into the tree twice). -/
def buildChapters (n : Novel) (ks : List Elem) : Except Exc (List Elem) :=
  match prevDict [] (sel c!"CHAPTER" ks) with
  | .error x => .error x
  | .ok prev =>
    match mapE (fun id =>
        match n.chapters.get? id with
        | none => .error .keyError
        | some c =>
          let e := (prev.get? id).getD (node c!"CHAPTER" none none [leaf c!"ID" (some id)])
          match buildChapter c e.kids with
          | .error x => .error x
          | .ok k => .ok (e.mapKids (fun _ => k))) n.srtChapters with
    | .error x => .error x
    | .ok es => .ok (ks.filter (fun e => e.tag ≠ c!"CHAPTER") ++ es)

/-- The last pass over the scenes section (yw7_file.py 1071-1090). -/
def finishScenes (n : Novel) (ks : List Elem) : Except Exc (List Elem) :=
  mapE (fun e =>
    match idOf e with
    | .error x => .error x
    | .ok id =>
      match n.scenes.get? id with
      | none => .error .keyError
      | some s =>
        if s.sceneContent ≠ none ∧ hasTag c!"SceneContent" e.kids = false then .error .attributeError
        else .ok (e.mapKids (finishScene s.sceneContent))) ks

/-- The project notes section (yw7_file.py 969-981). -/
def buildNotes (n : Novel) (rk : List Elem) : Except Exc (List Elem) :=
  if n.srtPrjNotes = [] then .ok (removeFirst c!"PROJECTNOTES" rk)
  else
    onSection c!"PROJECTNOTES" (rebuildSection c!"PROJECTNOTE" n.projectNotes buildNote n.srtPrjNotes)
      (if hasTag c!"PROJECTNOTES" rk then rk else rk ++ [node c!"PROJECTNOTES" none none []])

/-- The project variables section (yw7_file.py 984-1034). `languages` is a list here, because `write`
calls `get_languages` if it is `None` (yw7_file.py 190-191). -/
def buildProjectVars (sysLng sysCtr : Str) (n : Novel) (rk : List Elem) : Except Exc (List Elem) :=
  if (n.languages.getD []) = [] ∧ falsy n.languageCode ∧ falsy n.countryCode then .ok rk
  else
    let n' := n.checkLocale sysLng sysCtr
    onSection c!"PROJECTVARS" (buildVars (n.languages.getD []) n'.languageCode n'.countryCode)
      (if hasTag c!"PROJECTVARS" rk then rk else rk ++ [node c!"PROJECTVARS" none none []])

/-- The tree built if there is none (yw7_file.py 913-920). -/
def newRoot : Elem :=
  node c!"YWRITER7" none none
    [node c!"PROJECT" none none [], node c!"LOCATIONS" none none [], node c!"ITEMS" none none [],
     node c!"CHARACTERS" none none [], node c!"PROJECTNOTES" none none [],
     node c!"SCENES" none none [], node c!"CHAPTERS" none none []]

/-- `_build_element_tree` without the final `indent` (yw7_file.py 898-1090), on the children of the
root. -/
def buildRoot (sysLng sysCtr : Str) (n : Novel) (rk : List Elem) : Except Exc (List Elem) := do
  let rk ← onSection c!"PROJECT" (fun ks => .ok (buildProject n ks)) rk
  let rk ← onSection c!"LOCATIONS" (rebuildSection c!"LOCATION" n.locations buildWorld n.srtLocations) rk
  let rk ← onSection c!"ITEMS" (rebuildSection c!"ITEM" n.items buildWorld n.srtItems) rk
  let rk ← onSection c!"CHARACTERS" (rebuildSection c!"CHARACTER" n.characters buildCharacter n.srtCharacters) rk
  let rk ← buildNotes n rk
  let rk ← buildProjectVars sysLng sysCtr n rk
  let rk ← onSection c!"SCENES" (buildScenes n) rk
  let rk ← onSection c!"CHAPTERS" (buildChapters n) rk
  onSection c!"SCENES" (finishScenes n) rk

/-- The custom variables `write` sets before building the tree (yw7_file.py 193-203). -/
def syncScene (s : Scene) : Scene :=
  let kw := match s.scnArcs with
    | none => s.kwVar
    | some a => s.kwVar.set c!"Field_SceneArcs" (some a)
  let kw := match s.scnMode with
    | none => kw
    | some m => kw.set c!"Field_SceneMode" (if m = 0 then none else some (Str.ofInt m))
  { s with kwVar := kw.set c!"Field_SceneStyle" none }

/-- The preparation of the novel in `write` (yw7_file.py 190-203). -/
def prepareNovel (n : Novel) : Novel :=
  let n := if n.languages = none then n.getLanguages else n
  { n with scenes := n.scenes.map (fun p => (p.1, syncScene p.2)) }

/-- The element tree `write` produces (yw7_file.py 179-205), before the file is written. -/
def writeTree (sysLng sysCtr : Str) (n : Novel) (tree : Option Elem) : Except Exc Elem :=
  let root := tree.getD newRoot
  match buildRoot sysLng sysCtr (prepareNovel n) root.kids with
  | .error e => .error e
  | .ok rk => .ok (indent 0 (root.mapKids (fun _ => rk)))

end Verif
