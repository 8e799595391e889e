/-
The user interfaces (ui/ui.py, ui_cmd.py, ui_mb.py, ui_tk.py, and the methods of main_tk.py that a converter calls), and the
conversation of a converter with them (yw_cnv_ui.py, yw_cnv_ff.py).

Not modelled: the windows themselves, the event loop, and exceptions of the user interface (a closed console, Tk errors).
-/
import Verif.Model.MainTk
import Verif.Model.Converter

namespace Verif
open Prog Path

/-- The classes of user interfaces: `Ui`, `UiCmd`, `UiMb`, `UiTk`, `MainTk`. -/
inductive UiKind where
  | silent
  | console
  | boxes
  | window
  | main
  deriving DecidableEq, Repr

/-- The kinds of message boxes: `showinfo`, `showerror`, `showwarning`, `askyesno`. -/
inductive Icon where
  | info
  | error
  | warning
  | question
  deriving DecidableEq, Repr

/-- What the user sees one after the other: lines of the console (`print`, and the prompt of `input`), texts of the error
channel (`sys.stderr`), message boxes with their titles. -/
inductive Shown where
  | out (text : Str)
  | err (text : Str)
  | box (icon : Icon) (title text : Str)
  deriving DecidableEq, Repr

/-- A call of a method of the user interface. -/
inductive UiCall where
  | what (message : Str)
  | how (message : Str)
  | warn (message : Str)
  | ask (text : Str)
  deriving DecidableEq, Repr

/-- The instance variables and the visible parts of a user interface: the buffers, the console and the message boxes in the
order of their appearance, and the labels of the window (`_appInfo`, `_processInfo` and its color; the status bar of `MainTk`). -/
structure UiState where
  title : Str
  infoWhatText : Str := []
  infoHowText : Str := []
  shown : List Shown := []
  appInfo : Str := []
  processInfo : Str := []
  color : Color := .plain
  deriving DecidableEq, Repr

/-- The constructors (ui.py 28-35, ui_cmd.py 21-30, ui_mb.py 22-33, ui_tk.py 28-48). -/
def UiState.init (k : UiKind) (title : Str) : UiState :=
  match k with
  | .console => { title := title, shown := [.out title] }
  | _ => { title := title }

/-- What a user answers to a question: a line typed at the console, or a button of a message box. -/
structure User where
  types : Str → Str
  clicks : Str → Bool

/-- The text of a question at the console (ui_cmd.py 40). -/
def consolePrompt (text : Str) : Str := c!"WARNING: " ++ text ++ c!" (y/n)"

/-- The result of `ask_yes_no` (ui.py 37-46, ui_cmd.py 32-44, ui_mb.py 35-43, ui_tk.py 50-58, main_tk.py 104-118). -/
def UiKind.answer (k : UiKind) (user : User) (text : Str) : Bool :=
  match k with
  | .silent => true
  | .console => Str.lower (user.types (consolePrompt text)) == c!"y"
  | _ => user.clicks text

/-- What `ask_yes_no` shows (the same lines). -/
def UiState.ask (k : UiKind) (s : UiState) (text : Str) : UiState :=
  match k with
  | .silent => s
  | .console => { s with shown := s.shown ++ [.out (consolePrompt text)] }
  | .window => { s with shown := s.shown ++ [.box .question c!"WARNING" text] }
  | _ => { s with shown := s.shown ++ [.box .question s.title text] }

/-- A message without its error mark: `message.split('!', maxsplit=1)[1].strip()` of a message that starts with the mark. -/
def unmarked (message : Str) : Str := Str.strip (message.drop 1)

/-- `set_info_how` (ui.py 48-59, ui_cmd.py 46-58, ui_mb.py 45-57, ui_tk.py 60-77, main_tk.py 211-228). -/
def UiState.setInfoHow (k : UiKind) (s : UiState) (message : Str) : UiState :=
  match k with
  | .silent =>
    if Str.startsWith message c!"!" then
      let message := c!"FAIL: " ++ unmarked message
      { s with shown := s.shown ++ [.err message], infoHowText := message }
    else { s with infoHowText := message }
  | .console =>
    let message := if Str.startsWith message c!"!" then c!"FAIL: " ++ unmarked message else message
    { s with infoHowText := message, shown := s.shown ++ [.out message] }
  | .boxes =>
    if Str.startsWith message c!"!" then { s with shown := s.shown ++ [.box .error s.title (unmarked message)] }
    else { s with shown := s.shown ++ [.box .info s.title message] }
  | _ =>
    let s := if Str.startsWith message c!"!" then { s with color := .red, infoHowText := unmarked message } else { s with color := .green, infoHowText := message }
    { s with processInfo := s.infoHowText }

/-- `set_info_what` (ui.py 61-67, ui_cmd.py 60-69, ui_tk.py 79-89; `UiMb` and `MainTk` inherit it). -/
def UiState.setInfoWhat (k : UiKind) (s : UiState) (message : Str) : UiState :=
  match k with
  | .console => { s with shown := s.shown ++ [.out message] }
  | .window => { s with infoWhatText := message, appInfo := message }
  | _ => { s with infoWhatText := message }

/-- `show_warning` (ui.py 69-75, ui_cmd.py 71-73, ui_mb.py 59-61, ui_tk.py 101-103, main_tk.py 277-285). -/
def UiState.showWarning (k : UiKind) (s : UiState) (message : Str) : UiState :=
  match k with
  | .silent => s
  | .console => { s with shown := s.shown ++ [.out (c!"\nWARNING: " ++ message ++ c!"\n")] }
  | _ => { s with shown := s.shown ++ [.box .warning s.title message] }

/-- One call. -/
def UiState.call (k : UiKind) (s : UiState) : UiCall → UiState
  | .what m => s.setInfoWhat k m
  | .how m => s.setInfoHow k m
  | .warn m => s.showWarning k m
  | .ask m => s.ask k m

/-- A conversation: a program that also calls the user interface. The calls are recorded in their order. -/
def Talk (α : Type) := FS → List Fault → (Res α × FS × List Fault) × List UiCall

namespace Talk

protected def pure {α : Type} (a : α) : Talk α := fun fs fl => ((.ok a, fs, fl), [])

protected def bind {α β : Type} (p : Talk α) (f : α → Talk β) : Talk β := fun fs fl =>
  match p fs fl with
  | ((.ok a, fs', fl'), l) => let r := f a fs' fl'; (r.1, l ++ r.2)
  | ((.err e, fs', fl'), l) => ((.err e, fs', fl'), l)
  | ((.crashed, fs', fl'), l) => ((.crashed, fs', fl'), l)

instance : Monad Talk where
  pure := Talk.pure
  bind := Talk.bind

/-- A program that does not call the user interface. -/
def io {α : Type} (p : Prog α) : Talk α := fun fs fl => (p fs fl, [])

/-- A call of a method without result. -/
def say (c : UiCall) : Talk Unit := fun fs fl => ((.ok (), fs, fl), [c])

/-- `try` with a handler of all exceptions: what has happened. -/
def attempt {α : Type} (p : Talk α) : Talk (Except Exc α) := fun fs fl =>
  match p fs fl with
  | ((.ok a, fs', fl'), l) => ((.ok (.ok a), fs', fl'), l)
  | ((.err e, fs', fl'), l) => ((.ok (.error e), fs', fl'), l)
  | ((.crashed, fs', fl'), l) => ((.crashed, fs', fl'), l)

end Talk
open Talk

/-- The question of `_confirm_overwrite` (yw_cnv_ui.py 146-154). -/
def overwriteQuestion (name : Str) : Str := c!"Overwrite existing file \"" ++ name ++ c!"\"?"

/-- `ask_yes_no(text)`, where `answer` is the result. -/
def askYesNo (answer : Str → Bool) (text : Str) : Talk Bool := do
  say (.ask text)
  return answer text

/-- `check` (yw_cnv_ui.py 161-178). -/
def talkCheck {ν : Type} (env : Env ν) (answer : Str → Bool) (source target : Doc) : Talk Unit :=
  match source.filePath with
  | none => io (raise (.error c!"File type is not supported."))
  | some s => do
    if !(← io (isfile s)) then io (raise (.error (c!"File not found: \"" ++ env.norm s ++ c!"\".")))
    else match target.filePath with
      | none => io (raise (.error c!"File type is not supported."))
      | some t => do
        if ← io (isfile t) then
          if !(← askYesNo answer (overwriteQuestion (env.norm t))) then io (raise (.error c!"Action canceled by user."))
          else pure ()
        else pure ()

/-- The text of `set_info_what` before an export or an import (yw_cnv_ui.py 53-54, 125-126). `description` is the class
variable `DESCRIPTION`. -/
def inputOutput {ν : Type} (env : Env ν) (description : DocClass → Str) (source target : Doc) : Str :=
  c!"Input: " ++ description source.cls ++ c!" \"" ++ env.norm (source.filePath.getD []) ++ c!"\"\nOutput: " ++ description target.cls ++ c!" \"" ++ env.norm (target.filePath.getD []) ++ c!"\""

/-- The `except`, `else` and `finally` branches of the three conversions (yw_cnv_ui.py 61-68, 99-106, 136-144). The warning is
only shown by `import_to_yw`; `split` is false for the others. The result is `newFile`. -/
def talkConclude {ν : Type} (env : Env ν) (target : Doc) (body : Talk Bool) : Talk (Option Str) := do
  match ← attempt body with
  | .error e =>
    say (.how ('!' :: env.describe e))
    return none
  | .ok split =>
    if split then say (.warn c!"New scenes created during conversion.")
    say (.how (c!"File written: \"" ++ env.norm (target.filePath.getD []) ++ c!"\"."))
    return target.filePath

/-- `export_from_yw` (yw_cnv_ui.py 37-68). -/
def talkExport {ν : Type} (env : Env ν) (description : DocClass → Str) (answer : Str → Bool) (source target : Doc) : Talk (Option Str) := do
  say (.what (inputOutput env description source target))
  talkConclude env target do
    talkCheck env answer source target
    let n ← io (readDoc env source env.empty)
    io (writeDoc env target none n.1)
    return false

/-- `create_yw7` (yw_cnv_ui.py 70-106); `newFile` is the value of the instance variable before. -/
def talkCreate {ν : Type} (env : Env ν) (description : DocClass → Str) (answer : Str → Bool) (newFile : Option Str) (source target : Doc) : Talk (Option Str) := do
  say (.what (c!"Create a yWriter project file from " ++ description source.cls ++ c!"\nNew project: \"" ++ env.norm (target.filePath.getD []) ++ c!"\""))
  if ← io (isfile (target.filePath.getD [])) then
    say (.how (c!"!File already exists: \"" ++ env.norm (target.filePath.getD []) ++ c!"\"."))
    return newFile
  else
    talkConclude env target do
      talkCheck env answer source target
      let n ← io (readDoc env source env.empty)
      io (writeDoc env target none n.1)
      return false

/-- `import_to_yw` (yw_cnv_ui.py 108-144). -/
def talkImport {ν : Type} (env : Env ν) (description : DocClass → Str) (answer : Str → Bool) (source target : Doc) : Talk (Option Str) := do
  say (.what (inputOutput env description source target))
  talkConclude env target do
    talkCheck env answer source target
    let old ← io (readDoc env target env.empty)
    let n ← io (readDoc env source old.1)
    io (writeDoc env target (some old.1) n.1)
    return n.2

/-- `run` (yw_cnv_ff.py 54-100), with the calls of the user interface. -/
def talkRun {ν : Type} (env : Env ν) (description : DocClass → Str) (answer : Str → Bool) (cfg : Config) (path : Str) (suffix : Option Str) : Talk (Option Str) := fun fs fl =>
  if (fs path).isSome then
    match plan cfg env.contentXml env.norm fs path suffix with
    | .error e => ((.err e, fs, fl), [])
    | .ok (.refuse msg) => ((.ok none, fs, fl), [.how ('!' :: msg)])
    | .ok (.export s t) => talkExport env description answer s t fs fl
    | .ok (.update s t) => talkImport env description answer s t fs fl
    | .ok (.create s t) => talkCreate env description answer none s t fs fl
  else ((.ok none, fs, fl), [.how (c!"!File not found: \"" ++ env.norm path ++ c!"\".")])

/-- A conversion with the user interface `k`, which is in the state `s`, and the answers of the user: the result, the files, and the state of
the user interface afterwards. -/
def converse {ν : Type} (env : Env ν) (description : DocClass → Str) (cfg : Config) (k : UiKind) (user : User) (s : UiState) (path : Str) (suffix : Option Str) (fs : FS) (fl : List Fault) :
    (Res (Option Str) × FS × List Fault) × UiState :=
  let r := talkRun env description (k.answer user) cfg path suffix fs fl
  (r.1, r.2.foldl (UiState.call k) s)

end Verif
