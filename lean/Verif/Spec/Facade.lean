/-
What the user sees of a conversion, for each of the user interfaces.
-/
import Verif.Model.Facade

namespace Verif.Spec

/-- The text of a result in the buffers and at the console: failures are marked. -/
def resultText (failed : Bool) (text : Str) : Str := if failed then c!"FAIL: " ++ text else text

/-- The user (or the program that uses the buffers of the silent interface) learns that the conversion has failed or succeeded,
together with the text: in the buffer, in the last line of the console, in the last message box (with the icon of an error or of an information), or in
the label with a red or green background. -/
def ResultShown (k : UiKind) (s : UiState) (failed : Bool) (text : Str) : Prop :=
  match k with
  | .silent => s.infoHowText = resultText failed text ∧ (failed = true → s.shown.getLast? = some (.err (resultText failed text)))
  | .console => s.shown.getLast? = some (.out (resultText failed text)) ∧ s.infoHowText = resultText failed text
  | .boxes => s.shown.getLast? = some (.box (if failed then .error else .info) s.title text)
  | .window => s.processInfo = text ∧ s.color = (if failed then .red else .green) ∧ s.infoHowText = text
  | .main => s.processInfo = text ∧ s.color = (if failed then .red else .green) ∧ s.infoHowText = text

/-- The calls of a conversion that comes to its end: it may announce what it is going to do, it may ask one question, it may show a warning, and it shows
one result, at last. -/
def dialog (what question : Option Str) (warning : Bool) (result : Str) : List UiCall :=
  what.toList.map .what ++ question.toList.map .ask ++ (if warning then [.warn c!"New scenes created during conversion."] else []) ++ [.how result]

/-- Message boxes and lines that a call makes appear. -/
def appears (k : UiKind) (title : Str) : UiCall → List Shown
  | .what m => if k = .console then [.out m] else []
  | .ask m => match k with
    | .silent => []
    | .console => [.out (c!"WARNING: " ++ m ++ c!" (y/n)")]
    | .boxes => [.box .question title m]
    | .main => [.box .question title m]
    | .window => [.box .question c!"WARNING" m]
  | .warn m => match k with
    | .silent => []
    | .console => [.out (c!"\nWARNING: " ++ m ++ c!"\n")]
    | .boxes => [.box .warning title m]
    | .main => [.box .warning title m]
    | .window => [.box .warning title m]
  | .how ('!' :: m) => match k with
    | .silent => [.err (c!"FAIL: " ++ Str.strip m)]
    | .console => [.out (c!"FAIL: " ++ Str.strip m)]
    | .boxes => [.box .error title (Str.strip m)]
    | .main => []
    | .window => []
  | .how m => match k with
    | .silent => []
    | .console => [.out m]
    | .boxes => [.box .info title m]
    | .main => []
    | .window => []

/-- The user agrees to a question: the silent interface has no user and always agrees, at the console the user types `y` or `Y`, otherwise the user clicks on
the button "Yes". -/
def Agrees (k : UiKind) (user : User) (question : Str) : Prop :=
  match k with
  | .silent => True
  | .console => user.types (c!"WARNING: " ++ question ++ c!" (y/n)") = c!"y" ∨ user.types (c!"WARNING: " ++ question ++ c!" (y/n)") = c!"Y"
  | .boxes => user.clicks question = true
  | .window => user.clicks question = true
  | .main => user.clicks question = true

/-- A result without its value. -/
def Res.onOk {α β : Type} (f : α → β) : Res α → Res β
  | .ok a => .ok (f a)
  | .err e => .err e
  | .crashed => .crashed

end Verif.Spec
