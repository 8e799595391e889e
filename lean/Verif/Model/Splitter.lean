/-
Model of `model/splitter.py`.

Simplifications: the translation function `_()` is the identity; when an exception is
raised, the partly changed novel is not part of the result.
-/
import Verif.Model.Globals
import Verif.Model.Novel

namespace Verif

/-- Left fold of a step that may raise. -/
def foldE {σ α : Type} (f : σ → α → Except Exc σ) : σ → List α → Except Exc σ
  | s, [] => .ok s
  | s, a :: r => match f s a with
    | .ok s' => foldE f s' r
    | .error e => .error e

/-- Prefix a metadata text with the warning mark, once (splitter.py 90-97). -/
def markWarning (t : Option Str) : Option Str :=
  match t with
  | none => none
  | some [] => some []
  | some s => if Str.startsWith s c!"(!)" then some s else some (c!"(!)" ++ s)

/-- What `create_scene` does to the parent scene (splitter.py 90-101). -/
def markParent (p : Scene) : Scene :=
  { p with desc := markWarning p.desc, goal := markWarning p.goal,
           conflict := markWarning p.conflict, outcome := markWarning p.outcome,
           status := p.status.map (fun n => if n > 2 then 2 else n) }

/-- The scene that `create_scene` creates from the (already marked) parent
(splitter.py 77-89, 102-109). -/
def newSplitScene (p : Scene) (splitCount : Nat) (title desc : Str) : Scene :=
  { title :=
      if title ≠ [] then some title
      else match p.title with
        | none | some [] => some (c!"New Scene" ++ c!" Split: " ++ Str.ofNat splitCount)
        | some t =>
          let t := if t.length > 20 then t.take 20 ++ c!"..." else t
          some (t ++ c!" Split: " ++ Str.ofNat splitCount)
    desc := if desc ≠ [] then some desc else none
    status := p.status
    scType := p.scType
    date := p.date, time := p.time, day := p.day
    lastsDays := p.lastsDays, lastsHours := p.lastsHours, lastsMinutes := p.lastsMinutes }

/-- `create_scene(sceneId, parent, splitCount, title, desc)` (splitter.py 64-110).
`parent.status > 2` raises `TypeError` if the status is `None`. -/
def createScene (scenes : Dict Scene) (sceneId parentId : Str) (splitCount : Nat)
    (title desc : Str) : Except Exc (Dict Scene) :=
  match scenes.get? parentId with
  | none => .error .keyError
  | some p =>
    if p.status.isNone then .error .typeError
    else .ok ((scenes.modify parentId markParent).set sceneId
      (newSplitScene (markParent p) splitCount title desc))

/-- `create_chapter(chapterId, title, desc, level)` (splitter.py 48-62). -/
def createChapter (chapters : Dict Chapter) (chapterId title desc : Str) (level : Nat) :
    Dict Chapter :=
  chapters.set chapterId
    { title := some title, desc := some desc, chLevel := some level, chType := some 0 }

/-- The local variables of `split_scenes` together with the parts of the novel it changes. -/
structure SplitState where
  scenes : Dict Scene
  chapters : Dict Chapter
  srtChapters : List Str := []
  chapterId : Str := []
  srtScenes : List Str := []
  sceneId : Str := []
  newLines : List Str := []
  inScene : Bool := true
  splitCount : Nat := 0
  scenesSplit : Bool := false

/-- `file.novel.scenes[sceneId].sceneContent = '\n'.join(newLines)`. -/
def storeLines (st : SplitState) : Except Exc SplitState :=
  if st.scenes.has st.sceneId then
    .ok { st with scenes := st.scenes.modify st.sceneId
                    (fun s => s.setContent (Str.join c!"\n" st.newLines)) }
  else .error .keyError

/-- `file.novel.chapters[chapterId].srtScenes = srtScenes`. -/
def storeScenes (st : SplitState) : Except Exc SplitState :=
  if st.chapters.has st.chapterId then
    .ok { st with chapters := st.chapters.modify st.chapterId
                    (fun c => { c with srtScenes := st.srtScenes }) }
  else .error .keyError

/-- `heading = line.strip('# ').split('|')`, title and description (splitter.py 132-137). -/
def headingOf (line : Str) : Str × Str :=
  match Str.split (Str.stripBy (fun c => c = '#' || c = ' ') line) c!"|" with
  | [] => ([], [])
  | [t] => (t, [])
  | t :: d :: _ => (t, d)

/-- The `'###'` branch (splitter.py 138-147). -/
def splitAtScene (scId : Str) (st : SplitState) (title desc : Str) : Except Exc SplitState :=
  match storeLines st with
  | .error e => .error e
  | .ok st =>
    let count := st.splitCount + 1
    let sceneId := createId st.scenes.keys
    match createScene st.scenes sceneId scId count title desc with
    | .error e => .error e
    | .ok scenes =>
      .ok { st with newLines := [], splitCount := count, sceneId := sceneId, scenes := scenes,
                    srtScenes := st.srtScenes ++ [sceneId], scenesSplit := true, inScene := true }

/-- The common part of the `'##'` and `'#'` branches (splitter.py 148-161, 163-176). -/
def splitAtChapter (st : SplitState) (title desc : Str) (level : Nat) : Except Exc SplitState :=
  let flushed : Except Exc SplitState :=
    if st.inScene then
      match storeLines st with
      | .error e => .error e
      | .ok st => .ok { st with newLines := [], splitCount := 0, inScene := false }
    else .ok st
  match flushed with
  | .error e => .error e
  | .ok st =>
    match storeScenes st with
    | .error e => .error e
    | .ok st =>
      let chapterId := createId st.chapters.keys
      .ok { st with srtScenes := [], chapterId := chapterId,
                    chapters := createChapter st.chapters chapterId title desc level,
                    srtChapters := st.srtChapters ++ [chapterId] }

/-- The body of the loop over the lines (splitter.py 131-187); `scId` is the ID of the scene
being split. -/
def splitLine (scId : Str) (st : SplitState) (line : Str) : Except Exc SplitState :=
  let title := (headingOf line).1
  let desc := (headingOf line).2
  if Str.startsWith line c!"###" then
    splitAtScene scId st title desc
  else if Str.startsWith line c!"##" then
    match splitAtChapter st (if title = [] then c!"New Chapter" else title) desc 0 with
    | .error e => .error e
    | .ok st => .ok { st with scenesSplit := true }
  else if Str.startsWith line c!"#" then
    splitAtChapter st (if title = [] then c!"New Part" else title) desc 1
  else if st.inScene = false then
    let count := st.splitCount + 1
    let sceneId := createId st.scenes.keys
    match createScene st.scenes sceneId scId count [] [] with
    | .error e => .error e
    | .ok scenes =>
      .ok { st with newLines := st.newLines ++ [line], splitCount := count, sceneId := sceneId,
                    scenes := scenes, srtScenes := st.srtScenes ++ [sceneId],
                    scenesSplit := true, inScene := true }
  else
    .ok { st with newLines := st.newLines ++ [line] }

/-- The body of the loop over a chapter's scenes (splitter.py 119-189). -/
def splitScene (st : SplitState) (scId : Str) : Except Exc SplitState :=
  let st := { st with srtScenes := st.srtScenes ++ [scId] }
  match st.scenes.get? scId with
  | none => .error .keyError
  | some sc =>
    match sc.sceneContent with
    | none => .ok st
    | some [] => .ok st
    | some text =>
      match foldE (splitLine scId)
          { st with sceneId := scId, newLines := [], inScene := true, splitCount := 0 }
          (Str.split text c!"\n") with
      | .error e => .error e
      | .ok st => if st.inScene then storeLines st else .ok st

/-- The body of the loop over the chapters (splitter.py 115-190). The inner loop iterates over
the list object the chapter had when the loop was entered. -/
def splitChapter (st : SplitState) (chId : Str) : Except Exc SplitState :=
  let st := { st with srtChapters := st.srtChapters ++ [chId], chapterId := chId, srtScenes := [] }
  match st.chapters.get? chId with
  | none => .error .keyError
  | some ch =>
    match foldE splitScene st ch.srtScenes with
    | .error e => .error e
    | .ok st => storeScenes st

/-- `Splitter.split_scenes(file)` (splitter.py 35-192): the changed novel and the returned flag. -/
def splitScenes (n : Novel) : Except Exc (Novel × Bool) :=
  match foldE splitChapter { scenes := n.scenes, chapters := n.chapters } n.srtChapters with
  | .error e => .error e
  | .ok st =>
    .ok ({ n with scenes := st.scenes, chapters := st.chapters, srtChapters := st.srtChapters },
         st.scenesSplit)

end Verif
