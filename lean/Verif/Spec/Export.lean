/-
What an exported manuscript should contain, written without the exporter's loops: which scenes and
chapters are for export, the list of exported scenes, numbers and totals as functions of "what has
been exported so far".
-/
import Verif.Model.Export
import Verif.Spec.Novel

namespace Verif.Spec

/-- Unused, notes and todo material is marked by one of the types 1 (Notes), 2 (Todo), 3 (Unused). -/
def setAside (t : Option Nat) : Bool := t = some 1 || t = some 2 || t = some 3

/-- Scenes that contain raw HTML or TeX code for yWriter's own exports. -/
def rawCode (s : Scene) : Bool :=
  c!"<HTML>".isPrefixOf (s.sceneContent.getD []) || c!"<TEX>".isPrefixOf (s.sceneContent.getD [])

/-- A scene is for export if neither it nor its chapter is set aside, it is not marked "do not export", and it is no raw code. -/
def forExport (ch : Chapter) (s : Scene) : Bool :=
  !setAside ch.chType && !setAside s.scType && s.doNotExport != some true && !rawCode s

/-- Every scene listed in a chapter that is set aside is set aside, too (that is what reading a project ensures, see C39). -/
def Inherits (n : Novel) : Prop := ∀ chId ch scId s, chId ∈ n.srtChapters → n.chapters.get? chId = some ch → setAside ch.chType = true →
  scId ∈ ch.srtScenes → n.scenes.get? scId = some s → setAside s.scType = true

/-- The scenes of a chapter that are for export, in the order of the chapter, with their data. -/
def exportedIn (n : Novel) (ch : Chapter) : List (Str × Scene) :=
  (ch.srtScenes.filterMap (fun id => (n.scenes.get? id).map (fun s => (id, s)))).filter (fun p => forExport ch p.2)

/-- All exported scenes of the novel in narrative order. -/
def exported (n : Novel) (chIds : List Str) : List (Str × Scene) :=
  chIds.flatMap (fun id => match n.chapters.get? id with | some ch => exportedIn n ch | none => [])

/-- A chapter gets a heading unless it is set aside, or it has scenes and all are marked "do not export". -/
def chapterShown (n : Novel) (ch : Chapter) : Bool :=
  !setAside ch.chType &&
    !(ch.srtScenes ≠ [] && ch.srtScenes.all (fun id => (n.scenes.get? id).any (fun s => s.doNotExport == some true)))

/-- The exporter has a template for parts and the chapter begins a part. -/
def isPart (x : Templates) (ch : Chapter) : Bool := ch.chLevel = some 1 && x.part ≠ []

/-- The shown chapters (not parts) among the given ones: they are numbered. -/
def numberedChapters (x : Templates) (n : Novel) (chIds : List Str) : List Str :=
  chIds.filter (fun id => match n.chapters.get? id with | some ch => chapterShown n ch && !isPart x ch | none => false)

/-- The sum of a number over a list of scenes. -/
def total (f : Scene → Nat) (l : List (Str × Scene)) : Nat := (l.map (fun p => f p.2)).sum

/-- A manuscript exporter: nothing is defined for material that is not for export, and there is no special template for the first scene. -/
structure ManuscriptTemplates (x : Templates) : Prop where
  notesPart : x.notesPart = []
  todoPart : x.todoPart = []
  notesChapter : x.notesChapter = []
  todoChapter : x.todoChapter = []
  unusedChapter : x.unusedChapter = []
  notExportedChapter : x.notExportedChapter = []
  notesScene : x.notesScene = []
  todoScene : x.todoScene = []
  unusedScene : x.unusedScene = []
  notExportedScene : x.notExportedScene = []
  firstScene : x.firstScene = []
  unusedChapterEnd : x.unusedChapterEnd = []
  notExportedChapterEnd : x.notExportedChapterEnd = []
  notesChapterEnd : x.notesChapterEnd = []
  todoChapterEnd : x.todoChapterEnd = []

/-- The text made from a template and a mapping. -/
def filled (t : Str) (m : Except Exc Mapping) : Str :=
  match m with
  | .ok m => Template.subst t m
  | .error _ => []

/-- The text of an exported scene. `before` are the scenes exported before it in the whole document, `first` tells whether it is the first
exported scene of its chapter. Its number is one more than the number of scenes before it, the totals are the sums over all scenes
up to and including it; it is separated from the previous scene of the chapter by the divider unless it is appended. -/
def sceneText (x : Exporter) (n : Novel) (before : List (Str × Scene)) (first : Bool) (p : Str × Scene) : List Str :=
  let upTo := before ++ [p]
  let appended := p.2.appendToPrev == some true
  (if first || appended then [] else [x.sceneDivider]) ++
  [filled (if !first && appended && x.appendedScene ≠ [] then x.appendedScene else x.scene)
    (x.sceneMapping n p.1 upTo.length (total (·.wordCount) upTo) (total (·.letterCount) upTo))]

/-- The texts of the exported scenes of a chapter; `before` are the exported scenes of the previous chapters. -/
def scenesText (x : Exporter) (n : Novel) (before : List (Str × Scene)) : Bool → List (Str × Scene) → List Str
  | _, [] => []
  | first, p :: r => sceneText x n before first p ++ scenesText x n (before ++ [p]) false r

/-- The text of one chapter, given the chapters before it: heading, exported scenes, end. -/
def chapterText (x : Exporter) (n : Novel) (before : List Str) (chId : Str) : List Str :=
  match n.chapters.get? chId with
  | none => []
  | some ch =>
    let number := if isPart x.toTemplates ch then 0 else (numberedChapters x.toTemplates n before).length + 1
    let mapping := x.chapterMapping n chId number
    if chapterShown n ch then
      [filled (if isPart x.toTemplates ch then x.part else x.chapter) mapping] ++
      scenesText x n (exported n before) true (exportedIn n ch) ++
      (if x.chapterEnd = [] then [] else [filled x.chapterEnd mapping])
    else []

/-- The whole manuscript: every chapter with the chapters before it. -/
def manuscript (x : Exporter) (n : Novel) (before : List Str) : List Str → List Str
  | [] => []
  | chId :: r => chapterText x n before chId ++ manuscript x n (before ++ [chId]) r

end Verif.Spec
