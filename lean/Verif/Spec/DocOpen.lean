/-
Specification: where a path leads, and which commands a shell finds in a text.
-/
import Verif.Py.Str

namespace Verif.Spec

/-- One step from a directory (innermost name first): `.` stays, `..` goes up (the root has no parent), a name goes down. Links are not considered. -/
def step (dir : List Str) (name : Str) : List Str :=
  if name = [] ∨ name = c!"." then dir else if name = c!".." then dir.tail else name :: dir

/-- The place a path leads to, seen from a directory. -/
def place (dir : List Str) (p : Str) : List Str :=
  (Str.split p c!"/").foldl step (if p.head? = some '/' then [] else dir)

/-- The commands in a text for the shell, each one a list of words; `word` is the word that is not complete. `none`: an incomplete
text, or one in which the shell replaces something or combines commands in other ways. -/
def shellRun : List (List Str) → List Str → Option Str → Bool → Str → Option (List (List Str))
  | cmds, cur, word, quotes, [] =>
    if quotes then none
    else
      let cur := cur ++ word.toList
      some (if cur = [] then cmds else cmds ++ [cur])
  | cmds, cur, word, true, '\\' :: c :: r =>
    if c ∈ c!"$`\"\\" then shellRun cmds cur (some (word.getD [] ++ [c])) true r
    else if c = '\n' then shellRun cmds cur word true r
    else shellRun cmds cur (some (word.getD [] ++ ['\\', c])) true r
  | cmds, cur, word, true, c :: r =>
    if c = '"' then shellRun cmds cur word false r
    else if c ∈ c!"$`\\" then none
    else shellRun cmds cur (some (word.getD [] ++ [c])) true r
  | cmds, cur, word, false, c :: r =>
    if c = '"' then shellRun cmds cur (some (word.getD [])) true r
    else if c = ' ' ∨ c = '\t' then shellRun cmds (cur ++ word.toList) none false r
    else if c = ';' ∨ c = '\n' then
      shellRun (if cur ++ word.toList = [] then cmds else cmds ++ [cur ++ word.toList]) [] none false r
    else if c ∈ c!"|&<>()$`\\'*?[#~=%!{}" then none
    else shellRun cmds cur (some (word.getD [] ++ [c])) false r

/-- The commands in a text. -/
def shellCommands (text : Str) : Option (List (List Str)) := shellRun [] [] none false text

end Verif.Spec
