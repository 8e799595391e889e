/-
Python's `configparser.ConfigParser` with default arguments (CPython 3.11, Lib/configparser.py),
as far as `pywriter.config.configuration` uses it: reading and writing the text of an INI file,
`set` and `get` with basic interpolation, `getboolean`.

Nothing in this file models a particular source file of PyWriter.  Simplifications: `str.lower` is
modelled for ASCII letters; all exceptions of `configparser` other than `ValueError` are
`Exc.parseError`.
-/
import Verif.Py.Dict
import Verif.Py.Re
import Verif.Model.Yw7Text

namespace Verif.Ini
open Verif Verif.Str Verif.Re

/-- The lines of a file opened in text mode, without their newline characters. -/
def fileLines (t : Str) : List Str :=
  let l := split (universalNewlines t) c!"\n"
  if l.getLast? = some [] then l.dropLast else l

/-- The name in `SECTCRE.match(value)` (`\[(.+)\]`, greedy): everything up to the last closing
bracket, at least one character. -/
def header (v : Str) : Option Str :=
  match v with
  | '[' :: r =>
    match r.reverse.dropWhile (fun c => c ≠ ']') with
    | _ :: h => if h = [] then none else some h.reverse
    | [] => none
  | _ => none

/-- The delimiters of an option line. -/
def isDelim (c : Char) : Bool := c = '=' || c = ':'

/-- `OPTCRE.match(value)` (`(.*?)\s*(=|:)\s*(.*)$`): the option and its value, cut at the first
delimiter and stripped. -/
def optionLine (v : Str) : Option (Str × Str) :=
  match v.dropWhile (fun c => !isDelim c) with
  | _ :: r => some (rstrip (v.takeWhile (fun c => !isDelim c)), strip r)
  | [] => none

/-- The local variables of `RawConfigParser._read`.  `sects` holds the sections, including
`DEFAULT`; `cur` is the name of the current section; `opt` is `optname`, with the empty string for
`None` (both are false, and nothing else is asked of it). -/
structure State where
  sects : Dict (Dict (List Str)) := []
  cur : Option Str := none
  opt : Str := []
  indent : Nat := 0
  bad : Bool := false

/-- `cursect[optname].append(v)` -/
def State.append (st : State) (s v : Str) : State :=
  { st with sects := st.sects.modify s (fun d => d.modify st.opt (fun l => l ++ [v])) }

/-- A full-line comment. -/
def isComment (line : Str) : Bool := startsWith (strip line) c!"#" || startsWith (strip line) c!";"

/-- The section header branch of `_read`. -/
def State.section_ (st : State) (lvl : Nat) (h : Str) : Except Exc State :=
  if h = c!"DEFAULT" then
    .ok { st with sects := if st.sects.has h then st.sects else st.sects.set h [], cur := some h, opt := [], indent := lvl }
  else if st.sects.has h then .error .parseError
  else .ok { st with sects := st.sects.set h [], cur := some h, opt := [], indent := lvl }

/-- The option line branch of `_read`. -/
def State.option (st : State) (lvl : Nat) (s : Str) (v : Str) : Except Exc State :=
  match optionLine v with
  | none => .ok { st with indent := lvl, bad := true }
  | some ov =>
    let o := lower ov.1
    if ((st.sects.get? s).getD []).has o then .error .parseError
    else .ok { st with sects := st.sects.modify s (fun d => d.set o [ov.2]), opt := o, indent := lvl, bad := st.bad || ov.1.isEmpty }

/-- One line of the loop in `RawConfigParser._read`. -/
def State.line (st : State) (line : Str) : Except Exc State :=
  if isComment line then .ok st
  else
    let v := strip line
    if v = [] then
      match st.cur with
      | some s => if st.opt = [] then .ok st else .ok (st.append s [])
      | none => .ok st
    else
      let lvl := (line.takeWhile isWs).length
      match st.cur with
      | some s =>
        if st.opt ≠ [] ∧ lvl > st.indent then .ok (st.append s v)
        else match header v with
          | some h => st.section_ lvl h
          | none => st.option lvl s v
      | none =>
        match header v with
        | some h => st.section_ lvl h
        | none => .error .parseError

/-- The loop over the lines of the file. -/
def State.lines : State → List Str → Except Exc State
  | st, [] => .ok st
  | st, l :: r => match st.line l with
    | .ok st' => State.lines st' r
    | .error e => .error e

/-- `_join_multiline_values` -/
def joined (d : Dict (List Str)) : Dict Str := d.map fun p => (p.1, rstrip (join c!"\n" p.2))

/-- `ConfigParser().read(iniFile, encoding='utf-8')`: the sections of the file. -/
def parse (text : Str) : Except Exc (Dict (Dict Str)) :=
  match ({} : State).lines (fileLines text) with
  | .error e => .error e
  | .ok st => if st.bad then .error .parseError else .ok (st.sects.map fun p => (p.1, joined p.2))

/-- `BasicInterpolation._KEYCRE.match`: `%\(([^)]+)\)s`; the length of the variable's name. -/
def reference (s : Str) : Option Nat :=
  if c!"%(".isPrefixOf s then
    let r := s.drop 2
    let n := (r.takeWhile (fun c => c ≠ ')')).length
    if n ≠ 0 ∧ c!")s".isPrefixOf (r.drop n) then some n else none
  else none

/-- The same as a matcher, for `_KEYCRE.sub`. -/
def referenceMatcher : Matcher := fun _ s => (reference s).map (· + 4)

/-- `BasicInterpolation.before_set` accepts the value. -/
def acceptable (v : Str) : Bool := !decide ('%' ∈ sub referenceMatcher [] (replace v c!"%%" []))

/-- The loop of `BasicInterpolation._interpolate_some`; `rec` expands the value of a variable,
`skip` characters of a reference are still to be dropped. -/
def interpolateGo (m : Str → Option Str) (rec : Str → Except Exc Str) : Nat → Str → Except Exc Str
  | _, [] => .ok []
  | n + 1, _ :: r => interpolateGo m rec n r
  | 0, c :: r =>
    if c ≠ '%' then (interpolateGo m rec 0 r).map (c :: ·)
    else if r.head? = some '%' then (interpolateGo m rec 1 r).map ('%' :: ·)
    else match reference (c :: r) with
      | none => .error .parseError
      | some n =>
        match m (lower ((r.drop 1).take n)) with
        | none => .error .parseError
        | some v =>
          match (if '%' ∈ v then rec v else .ok v) with
          | .error e => .error e
          | .ok x => (interpolateGo m rec (n + 3) r).map (x ++ ·)

/-- `BasicInterpolation._interpolate_some` with `depth` levels of nesting left. -/
def interpolate (m : Str → Option Str) : Nat → Str → Except Exc Str
  | 0, _ => .error .parseError
  | d + 1, s => interpolateGo m (interpolate m d) 0 s

/-- `section.get(option, fallback)`: the section, then the default section; interpolation of at
most `MAX_INTERPOLATION_DEPTH` = 10 levels. -/
def lookup (ini : Dict (Dict Str)) (section_ option : Str) : Option Str :=
  (((ini.get? section_).getD []).get? option).or (((ini.get? c!"DEFAULT").getD []).get? option)

/-- `section.get(option, fallback)` -/
def get (ini : Dict (Dict Str)) (section_ option fallback : Str) : Except Exc Str :=
  match lookup ini section_ (lower option) with
  | none => .ok fallback
  | some v => interpolate (lookup ini section_) 10 v

/-- `_convert_to_boolean` -/
def toBool (v : Str) : Except Exc Bool :=
  if lower v ∈ [c!"1", c!"yes", c!"true", c!"on"] then .ok true
  else if lower v ∈ [c!"0", c!"no", c!"false", c!"off"] then .ok false
  else .error .valueError

/-- `section.getboolean(option, fallback)` -/
def getBool (ini : Dict (Dict Str)) (section_ option : Str) (fallback : Bool) : Except Exc Bool :=
  match lookup ini section_ (lower option) with
  | none => .ok fallback
  | some v => (interpolate (lookup ini section_) 10 v).bind toBool

/-- `_write_section` -/
def writeSection (name : Str) (items : Dict Str) : Str :=
  c!"[" ++ name ++ c!"]\n" ++
  items.flatMap (fun p => p.1 ++ c!" = " ++ replace p.2 c!"\n" c!"\n\t" ++ c!"\n") ++ c!"\n"

end Verif.Ini
