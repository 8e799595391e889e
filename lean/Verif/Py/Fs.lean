/-
The file system and programs that access it, with failures and crashes at every step.

Nothing in this file models a particular source file; it models the operations of the Python
library that the cited functions of the other files call.
-/
import Verif.Py.Dict

namespace Verif

/-- The regular files: path and contents. Directories and permissions are not modelled (a missing
permission shows as a failing step). Paths are compared as strings. -/
abbrev FS := Str → Option Str

namespace FS

/-- Set or remove (`none`) a file. -/
def upd (fs : FS) (p : Str) (c : Option Str) : FS := fun q => if q = p then c else fs q

end FS

/-- What happens at a step that accesses the file system: it succeeds, it raises an exception, or the
process ends (power failure, kill). A step that writes data may have written the first `k` characters
before it fails or before the process ends. -/
inductive Fault where
  | none
  | fail (k : Nat)
  | crash (k : Nat)
  deriving DecidableEq, Repr

/-- The end of a program: a value, an exception, or a crash (which no `except` catches). -/
inductive Res (α : Type) where
  | ok (a : α)
  | err (e : Exc)
  | crashed
  deriving DecidableEq, Repr

/-- A program: started with files and the list of what will happen at its steps, it ends with a result,
the files and the rest of the list (an exhausted list means that no further faults happen). Each
possible execution is obtained for some list.
Simplification: the effects of the steps reach the disk in program order. -/
def Prog (α : Type) := FS → List Fault → Res α × FS × List Fault

namespace Prog

/-- No access to the file system. -/
protected def pure {α : Type} (a : α) : Prog α := fun fs fl => (.ok a, fs, fl)

/-- Sequencing: an exception or a crash ends the program. -/
protected def bind {α β : Type} (p : Prog α) (f : α → Prog β) : Prog β := fun fs fl =>
  match p fs fl with
  | (.ok a, fs', fl') => f a fs' fl'
  | (.err e, fs', fl') => (.err e, fs', fl')
  | (.crashed, fs', fl') => (.crashed, fs', fl')

instance : Monad Prog where
  pure := Prog.pure
  bind := Prog.bind

/-- `raise` -/
def raise {α : Type} (e : Exc) : Prog α := fun fs fl => (.err e, fs, fl)

/-- `try: p except: h` (all exceptions are caught; a crash is not an exception). -/
def tryExcept {α : Type} (p : Prog α) (h : Exc → Prog α) : Prog α := fun fs fl =>
  match p fs fl with
  | (.ok a, fs', fl') => (.ok a, fs', fl')
  | (.err e, fs', fl') => h e fs' fl'
  | (.crashed, fs', fl') => (.crashed, fs', fl')

/-- A computation without file access that may raise an exception. -/
def lift {α : Type} : Except Exc α → Prog α
  | .ok a => Prog.pure a
  | .error e => raise e

/-- `os.path.isfile(p)` -/
def isfile (p : Str) : Prog Bool := fun fs fl => (.ok (fs p).isSome, fs, fl)

/-- An atomic step that may fail or be interrupted before it has an effect; `eff` is its effect
(`none`: it raises an `OSError`). -/
def step {α : Type} (eff : FS → Option (α × FS)) : Prog α := fun fs fl =>
  match fl with
  | .fail _ :: fl' => (.err .osError, fs, fl')
  | .crash _ :: fl' => (.crashed, fs, fl')
  | fl => match eff fs with
    | some (a, fs') => (.ok a, fs', fl.tail)
    | none => (.err .osError, fs, fl.tail)

/-- `os.replace(a, b)`: atomic. -/
def replace (a b : Str) : Prog Unit := step fun fs =>
  match fs a with
  | some c => some ((), (fs.upd a none).upd b (some c))
  | none => none

/-- `open(p, 'w')`: creates the file or truncates it. -/
def openW (p : Str) : Prog Unit := step fun fs => some ((), fs.upd p (some []))

/-- Reading a whole file. -/
def readFile (p : Str) : Prog Str := step fun fs => (fs p).map fun c => (c, fs)

/-- A step that concerns nothing that is modelled (`os.mkdir`, `os.chdir`). -/
def other : Prog Unit := step fun fs => some ((), fs)

/-- `rmtree(dir)`: removes the files in a directory. Simplification: if it fails, it has no effect. -/
def rmtree (dir : Str) : Prog Unit := step fun fs => some ((), fun q => if (dir ++ ['/']).isPrefixOf q then none else fs q)

/-- Writing data to an open file (including flushing and closing it): if it fails or is interrupted, a
part of the data has been written. -/
def append (p data : Str) : Prog Unit := fun fs fl =>
  match fl with
  | .fail k :: fl' => (.err .osError, fs.upd p (some ((fs p).getD [] ++ data.take k)), fl')
  | .crash k :: fl' => (.crashed, fs.upd p (some ((fs p).getD [] ++ data.take k)), fl')
  | fl => (.ok (), fs.upd p (some ((fs p).getD [] ++ data)), fl.tail)

/-- `with open(p, 'w') as f: f.write(data)` -/
def writeFile (p data : Str) : Prog Unit := do
  openW p
  append p data

end Prog
end Verif
