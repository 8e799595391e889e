/-
File paths: the functions of `os.path` (POSIX) that PyWriter uses.
-/
import Verif.Py.Str

namespace Verif
namespace Path

/-- `os.path.splitext(p)`: the extension starts at the last dot of the file name, unless all characters of
the file name before it are dots. -/
def splitext (p : Str) : Str × Str :=
  let e := p.reverse.takeWhile (fun c => c ≠ '.' && c ≠ '/')
  match p.reverse.drop e.length with
  | '.' :: r => if (r.takeWhile (fun c => c ≠ '/')).any (fun c => c ≠ '.') then (r.reverse, '.' :: e.reverse) else (p, [])
  | _ => (p, [])

/-- `p.replace('\\', '/')` -/
def slashes (p : Str) : Str := p.map (fun c => if c = '\\' then '/' else c)

end Path
end Verif
