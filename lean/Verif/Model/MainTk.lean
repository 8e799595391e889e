/-
The main window (`ui/main_tk.py`), as a state machine.

Not modelled: the geometry of the window, the icons, message boxes, and the event loop. An exception that
is not caught ends the action; the event loop of Tk reports it and goes on.
-/
import Verif.Model.Opening
import Verif.Model.Converter

namespace Verif

/-- The colors of the status bar. -/
inductive Color where
  | plain
  | red
  | green
  deriving DecidableEq, Repr

/-- The instance variables of `MainTk` (main_tk.py 78-102) and what is visible in the window: `caption` is
the title of the root window, `bar` and `color` are the status bar, `closeOn` is the state of the menu
entry "Close". A project file object is represented by its `filePath`. -/
structure Window where
  app : Str
  lastOpen : Option Str := none
  prj : Option (Option Str) := none
  novel : Option Novel := none
  caption : Str
  pathBar : Str := []
  statusText : Str := []
  bar : Str := []
  color : Color := .plain
  closeOn : Bool := false
  infoHowText : Str := []

/-- `__init__` (main_tk.py 54-102): `lastOpen` is the keyword argument `yw_last_open`. -/
def Window.init (app : Str) (lastOpen : Option Str) : Window := { app := app, caption := app, lastOpen := lastOpen }

/-- `show_status` (main_tk.py 270-275). -/
def Window.showStatus (s : Window) (message : Str) : Window := { s with statusText := message, color := .plain, bar := message }

/-- `show_path` (main_tk.py 265-268). -/
def Window.showPath (s : Window) (message : Str) : Window := { s with pathBar := message }

/-- `restore_status` (main_tk.py 182-184). -/
def Window.restoreStatus (s : Window) : Window := s.showStatus s.statusText

/-- `disable_menu` (main_tk.py 130-135). -/
def Window.disableMenu (s : Window) : Window := { s with closeOn := false }

/-- `enable_menu` (main_tk.py 137-142). -/
def Window.enableMenu (s : Window) : Window := { s with closeOn := true }

/-- `close_project` (main_tk.py 119-128). -/
def Window.closeProject (s : Window) : Window :=
  let s := { s with prj := none }
  let s := { s with caption := s.app }
  ((s.showStatus []).showPath []).disableMenu

/-- `set_info_how` (main_tk.py 211-228); the same is in ui_tk.py 60-77. `message.split('!', maxsplit=1)[1]` of a
message that starts with the mark is the message without its first character. -/
def Window.setInfoHow (s : Window) (message : Str) : Window :=
  let s :=
    if Str.startsWith message c!"!" then { s with color := .red, infoHowText := Str.strip (message.drop 1) }
    else { s with color := .green, infoHowText := message }
  { s with bar := s.infoHowText }

/-- `set_title` (main_tk.py 230-243). -/
def Window.setTitle (s : Window) : Window :=
  match s.novel with
  | none => s
  | some n =>
    let titleView := if n.title.getD [] = [] then c!"Untitled project" else n.title.getD []
    let authorView := if n.authorName.getD [] = [] then c!"Unknown author" else n.authorName.getD []
    { s with caption := titleView ++ c!" by " ++ authorView ++ c!" - " ++ s.app }

/-- `os.path.dirname` (POSIX). -/
def dirname (p : Str) : Str :=
  let head := (p.reverse.dropWhile (· ≠ '/')).reverse
  if head.all (· = '/') then head else (head.reverse.dropWhile (· = '/')).reverse

/-- What is outside of the program while an action takes place: the files, lock files, and the answer of the user
in a file dialog (empty if the dialog is cancelled). -/
structure World where
  file : Str → Option Bytes
  locked : Str → Bool
  answer : Str

/-- The directory in which the file dialog of `select_project` starts (main_tk.py 201-203). -/
def Window.initDir (s : Window) : Str :=
  let d := dirname (s.lastOpen.getD [])
  if d = [] then c!"./" else d

/-- `select_project` (main_tk.py 186-209). -/
def selectProject (w : World) (fileName : Str) : Str :=
  if fileName = [] ∨ (w.file fileName).isNone then w.answer else fileName

/-- `self._YW_CLASS(fileName)` and `read()`; a file object without path looks for the lock file `None.lock`
and for a file that does not exist (`open(None)` and `ET.parse(None)` fail). -/
def readChosen (lib : PyLib) (xml : XmlLib) (w : World) (path : Option Str) : Except Exc (Elem × Novel) :=
  openYw7 lib xml (w.locked (path.getD c!"None" ++ c!".lock")) (path.bind w.file)

/-- `open_project` (main_tk.py 149-180): the result of the method (or the exception) and the window.
Simplification: the novel is empty after an exception, whatever has been read before. -/
def Window.openProject (lib : PyLib) (xml : XmlLib) (norm : Str → Str) (w : World) (s : Window) (fileName : Str) : Except Exc Bool × Window :=
  let s := s.restoreStatus
  let fileName := selectProject w fileName
  if fileName = [] then (.ok false, s)
  else
    let s := if s.prj.isSome then s.closeProject else s
    let path := (mkDoc yw7Class fileName).filePath
    let s := { s with lastOpen := some fileName, prj := some path, novel := some {} }
    match readChosen lib xml w path with
    | .error (.error msg) => (.ok false, s.closeProject.setInfoHow ('!' :: msg))
    | .error e => (.error e, s)
    | .ok (_, n) =>
      let s := { s with novel := some n }
      (.ok true, ((s.showPath (norm (path.getD []))).setTitle).enableMenu)

/-- The actions: calls of the public methods, and clicks on the menu entry "Close" (which do nothing if it is disabled). -/
inductive Act where
  | open (fileName : Str) (w : World)
  | close
  | clickClose
  | restore
  | status (message : Str)
  | how (message : Str)

/-- One action. -/
def Window.act (lib : PyLib) (xml : XmlLib) (norm : Str → Str) (s : Window) : Act → Window
  | .open f w => (s.openProject lib xml norm w f).2
  | .close => s.closeProject
  | .clickClose => if s.closeOn then s.closeProject else s
  | .restore => s.restoreStatus
  | .status m => s.showStatus m
  | .how m => s.setInfoHow m

/-- A sequence of actions. -/
def Window.acts (lib : PyLib) (xml : XmlLib) (norm : Str → Str) (s : Window) (h : List Act) : Window :=
  h.foldl (Window.act lib xml norm) s

end Verif
