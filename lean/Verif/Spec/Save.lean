/-
Specification of safe saving.
-/
import Verif.Py.Fs

namespace Verif.Spec
open Verif

/-- The contents `c` of the file `p` exist under the name of the file or under that of its backup. -/
def Intact (p c : Str) (fs : FS) : Prop := fs p = some c ∨ fs (p ++ c!".bak") = some c

/-- No file other than `p` and its backup differs; the temporary files `T` do not count. -/
def OnlyTouches (T : Str → Prop) (p : Str) (fs fs' : FS) : Prop :=
  ∀ q, ¬ T q → q ≠ p → q ≠ p ++ c!".bak" → fs' q = fs q

/-- At most one step fails or is interrupted. -/
def AtMostOneFault (fl : List Fault) : Prop := (fl.filter (fun f => f ≠ .none)).length ≤ 1

end Verif.Spec

namespace Verif.Spec

/-- The paths in the directory `dir`. -/
def InDir (dir q : Str) : Prop := dir ++ ['/'] <+: q

/-- The archive that consists of the given entries and a directory of the components. -/
def Archive (entry : Str → Str → Str) (files : List (Str × Str)) : List Str → Str → Prop
  | [], s => s = []
  | n :: r, s => ∃ c s', (n, c) ∈ files ∧ s = entry n c ++ s' ∧ Archive entry files r s'

end Verif.Spec
