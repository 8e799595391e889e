/-
Specification: which project is open after a history of actions, and what the window shows.
-/
import Verif.Model.MainTk
import Verif.Spec.Opening

namespace Verif.Spec

/-- The file to open: the given one if it exists, otherwise the choice of the user; nothing if the user cancels. -/
def chosen (fileName : Str) (w : World) : Option Str :=
  let f := if fileName ≠ [] ∧ (w.file fileName).isSome then fileName else w.answer
  if f = [] then none else some f

/-- The path of a project file, with slashes, if it has the extension of a project file. -/
def projectPath (f : Str) : Option Str := (mkDoc yw7Class f).filePath

/-- What the chosen file contains. -/
def contents (lib : PyLib) (xml : XmlLib) (w : World) (f : Str) : Except Exc (Elem × Novel) := readChosen lib xml w (projectPath f)

/-- The open project, with its path and its data. -/
structure Project where
  path : Str
  novel : Novel

/-- The project in a file, if it can be opened. -/
def projectIn (lib : PyLib) (xml : XmlLib) (w : World) (f : Str) : Option Project :=
  match contents lib xml w f with
  | .error _ => none
  | .ok (_, n) => (projectPath f).map fun p => ⟨p, n⟩

/-- Which project is open after an action, if `cur` is the one that is open before. Opening replaces the project, also if it
fails; cancelling changes nothing. -/
def afterAct (lib : PyLib) (xml : XmlLib) (cur : Option Project) : Act → Option Project
  | .open f w =>
    match chosen f w with
    | none => cur
    | some f => projectIn lib xml w f
  | .close => none
  | .clickClose => none
  | _ => cur

/-- Which project is open after a history of actions. -/
def current (lib : PyLib) (xml : XmlLib) (h : List Act) : Option Project := h.foldl (afterAct lib xml) none

/-- An action does not run into an exception that is not meant for the user. -/
def Reported (lib : PyLib) (xml : XmlLib) : Act → Prop
  | .open f w => ∀ g, chosen f w = some g → (∃ r, contents lib xml w g = .ok r) ∨ IsError (contents lib xml w g)
  | _ => True

/-- A text, or a substitute if there is none. -/
def orElse (v : Option Str) (substitute : Str) : Str :=
  match v with
  | none => substitute
  | some [] => substitute
  | some s => s

/-- The title of the window. -/
def captionOf (app : Str) : Option Project → Str
  | none => app
  | some p => orElse p.novel.title c!"Untitled project" ++ c!" by " ++ orElse p.novel.authorName c!"Unknown author" ++ c!" - " ++ app

/-- The window shows the project `cur`. -/
structure Shows (norm : Str → Str) (s : Window) (cur : Option Project) : Prop where
  file : s.prj = cur.map fun p => some p.path
  menu : s.closeOn = cur.isSome
  path : s.pathBar = (cur.map fun p => norm p.path).getD []
  caption : s.caption = captionOf s.app cur
  novel : ∀ p, cur = some p → s.novel = some p.novel

/-- The file that was chosen last in a history of actions; `before` is the one that is remembered from the last session. -/
def lastChosen (before : Option Str) (h : List Act) : Option Str :=
  h.foldl (fun last a =>
    match a with
    | .open f w => (chosen f w).orElse fun _ => last
    | _ => last) before

end Verif.Spec
