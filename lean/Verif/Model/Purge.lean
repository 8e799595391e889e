/-
yw/yw7_purge.py: removing PyWriter specific data.
-/
import Verif.Model.Novel
import Verif.Py.Re

namespace Verif
open Re

/-- The names of the keyword variables of a `File` class (file/file.py 46-52). -/
structure KwVars where
  prj : List Str := []
  chp : List Str := []
  scn : List Str := []
  crt : List Str := []
  loc : List Str := []
  itm : List Str := []
  pnt : List Str := []

/-- yw/yw7_file.py 80-98: the keyword variables of `Yw7File`. -/
def yw7KwVars : KwVars where
  prj := [c!"Field_LanguageCode", c!"Field_CountryCode"]
  scn := [c!"Field_SceneArcs", c!"Field_SceneMode"]
  crt := [c!"Field_Link", c!"Field_BirthDate", c!"Field_DeathDate"]
  loc := [c!"Field_Link"]
  itm := [c!"Field_Link"]

/-- yw/yw7_purge.py 23-26 (and the inner loops of 29-57): one element's keyword variables, and
whether one of them has changed. -/
def resetVars : List Str → Dict (Option Str) → Dict (Option Str) × Bool
  | [], kw => (kw, false)
  | f :: r, kw =>
    match kw.get? f with
    | some (some (c :: s)) => ((resetVars r (kw.set f (some []))).1, true)
    | _ => resetVars r kw

/-- The loop over the elements of a dictionary. -/
def resetAll {α : Type} (kw : α → Dict (Option Str)) (put : α → Dict (Option Str) → α) (fields : List Str) : Dict α → Dict α × Bool
  | [] => ([], false)
  | (k, e) :: r =>
    ((k, put e (resetVars fields (kw e)).1) :: (resetAll kw put fields r).1,
     (resetVars fields (kw e)).2 || (resetAll kw put fields r).2)

/-- yw/yw7_purge.py 12-58, `reset_custom_variables`: the novel afterwards and the return value.  For
project notes the code accesses `novel.projectnotes`, which does not exist (56). -/
def resetCustomVariables (f : KwVars) (n : Novel) : Except Exc (Novel × Bool) :=
  let prj := resetVars f.prj n.kwVar
  let chp := resetAll Chapter.kwVar (fun e kw => { e with kwVar := kw }) f.chp n.chapters
  let scn := resetAll Scene.kwVar (fun e kw => { e with kwVar := kw }) f.scn n.scenes
  let crt := resetAll (fun e : Character => e.kwVar) (fun e kw => { e with kwVar := kw }) f.crt n.characters
  let loc := resetAll WorldElement.kwVar (fun e kw => { e with kwVar := kw }) f.loc n.locations
  let itm := resetAll WorldElement.kwVar (fun e kw => { e with kwVar := kw }) f.itm n.items
  if f.pnt ≠ [] ∧ n.projectNotes ≠ [] then .error .attributeError
  else .ok ({ n with kwVar := prj.1, chapters := chp.1, scenes := scn.1, characters := crt.1, locations := loc.1, items := itm.1 },
    prj.2 || chp.2 || scn.2 || crt.2 || loc.2 || itm.2)

/-- yw/yw7_purge.py 70: the regular expression `\[\/*?lang=.*?\]`.  The lazy run of slashes must be
followed by `l`, so it takes all slashes. -/
def languageTag : Matcher := fun _ s =>
  match s with
  | '[' :: r =>
    let k := (r.takeWhile (· = '/')).length
    if c!"lang=".isPrefixOf (r.drop k) then (lazyTo c!"]" (r.drop (k + 5))).map (· + (k + 6)) else none
  | _ => none

/-- yw/yw7_purge.py 73-81: one scene; `TypeError` for a scene without text is caught. -/
def purgeScene (s : Scene) : Scene × Bool :=
  match s.sceneContent with
  | none => (s, false)
  | some text =>
    let t := sub languageTag [] text
    if text ≠ t then (s.setContent t, true) else (s, false)

/-- yw/yw7_purge.py 61-82, `remove_language_tags`. -/
def removeLanguageTags (n : Novel) : Novel × Bool :=
  ({ n with scenes := n.scenes.map fun p => (p.1, (purgeScene p.2).1) }, n.scenes.any fun p => (purgeScene p.2).2)

end Verif
