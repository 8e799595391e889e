/-
config/configuration.py: the `Configuration` class.
-/
import Verif.Py.Ini

namespace Verif
open Verif.Str

/-- config/configuration.py 10-38: the settings and options of an application.  Simplification:
the values of settings are strings (`write` converts them with `str`). -/
structure Configuration where
  settings : Dict Str
  options : Dict Bool
  deriving DecidableEq

namespace Configuration

/-- config/configuration.py 61-71, `set`; a missing argument is `none`. -/
def set (c : Configuration) (settings : Option (Dict Str)) (options : Option (Dict Bool)) : Configuration :=
  { settings := settings.getD c.settings, options := options.getD c.options }

/-- config/configuration.py 52-54 and 57-59: the loop over the keys of a dictionary, replacing each
value in place; the first exception leaves the remaining values as they are. -/
def readLoop {α : Type} (f : Str → α → Except Exc α) : Dict α → Dict α × Option Exc
  | [] => ([], none)
  | (k, v) :: r =>
    match f k v with
    | .error e => ((k, v) :: r, some e)
    | .ok v' => ((k, v') :: (readLoop f r).1, (readLoop f r).2)

/-- config/configuration.py 50-54 -/
def readSettings (ini : Dict (Dict Str)) (d : Dict Str) : Dict Str × Option Exc :=
  if ini.has c!"SETTINGS" then readLoop (fun k v => Ini.get ini c!"SETTINGS" k v) d else (d, none)

/-- config/configuration.py 55-59 -/
def readOptions (ini : Dict (Dict Str)) (d : Dict Bool) : Dict Bool × Option Exc :=
  if ini.has c!"OPTIONS" then readLoop (fun k v => Ini.getBool ini c!"OPTIONS" k v) d else (d, none)

/-- config/configuration.py 48-59, after the file has been parsed. -/
def readIni (c : Configuration) (ini : Dict (Dict Str)) : Configuration × Option Exc :=
  match (readSettings ini c.settings).2 with
  | some e => ({ c with settings := (readSettings ini c.settings).1 }, some e)
  | none => ({ settings := (readSettings ini c.settings).1, options := (readOptions ini c.options).1 }, (readOptions ini c.options).2)

/-- config/configuration.py 40-59, `read`: the configuration afterwards, and the exception that
escapes, if any.  `none` is a file that cannot be opened, which `ConfigParser.read` ignores. -/
def read (c : Configuration) : Option Str → Configuration × Option Exc
  | none => c.readIni []
  | some text =>
    match Ini.parse text with
    | .error e => (c, some e)
    | .ok ini => c.readIni ini

/-- config/configuration.py 82-83: `config.set` for all settings. -/
def setAll : Dict Str → Dict Str → Except Exc (Dict Str)
  | d, [] => .ok d
  | d, (k, v) :: r => if Ini.acceptable v then setAll (d.set (lower k) v) r else .error .valueError

/-- config/configuration.py 87-90 -/
def yesNo (b : Bool) : Str := if b then c!"Yes" else c!"No"

/-- config/configuration.py 79-92, `write`: the text of the file, or the exception that is raised
before the file is opened. -/
def write (c : Configuration) : Except Exc Str := do
  let s ← setAll [] c.settings
  let o ← setAll [] (c.options.map fun p => (p.1, yesNo p.2))
  .ok ((if c.settings = [] then [] else Ini.writeSection c!"SETTINGS" s) ++
       (if c.options = [] then [] else Ini.writeSection c!"OPTIONS" o))

end Configuration
end Verif
