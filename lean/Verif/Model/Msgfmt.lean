/-
The compiler for translation files: /repo/src/msgfmt.py. Command line handling and console output are not modelled.
-/
import Verif.Py.Str

namespace Verif

abbrev Bytes := List UInt8

/-- `MESSAGES[id] = str` (msgfmt.py 52-55). -/
def setMsg (k v : Bytes) : List (Bytes × Bytes) → List (Bytes × Bytes)
  | [] => [(k, v)]
  | (k', v') :: r => if k' = k then (k, v) :: r else (k', v') :: setMsg k v r

/-- `add` (msgfmt.py 48-55). -/
def addMsg (ctxt : Option Bytes) (id str : Bytes) (fuzzy : Bool) (messages : List (Bytes × Bytes)) : List (Bytes × Bytes) :=
  if !fuzzy && str ≠ [] then
    match ctxt with
    | none => setMsg id str messages
    | some c => setMsg (c ++ [4] ++ id) str messages
  else messages

/-- The order of byte strings. -/
def bytesLe : Bytes → Bytes → Bool
  | [], _ => true
  | _ :: _, [] => false
  | a :: as, b :: bs => if a < b then true else if a = b then bytesLe as bs else false

/-- The loop over the sorted keys (msgfmt.py 66-71): `ids`, `strs`; the result is `offsets`, `ids`, `strs`. -/
def layoutLoop (messages : List (Bytes × Bytes)) : Bytes → Bytes → List Bytes → List (Nat × Nat × Nat × Nat) × Bytes × Bytes
  | ids, strs, [] => ([], ids, strs)
  | ids, strs, id :: r =>
    let v := (messages.lookup id).getD []
    let rest := layoutLoop messages (ids ++ id ++ [0]) (strs ++ v ++ [0]) r
    ((ids.length, id.length, strs.length, v.length) :: rest.1, rest.2)

/-- Four bytes, the lowest first (`struct.pack`, `array.tobytes` on a machine of this kind). -/
def le32 (n : Nat) : Bytes := [UInt8.ofNat n, UInt8.ofNat (n / 256), UInt8.ofNat (n / 65536), UInt8.ofNat (n / 16777216)]

/-- `generate` (msgfmt.py 58-96). `none`: a number does not fit (`struct.error`, `OverflowError`). -/
def generate (messages : List (Bytes × Bytes)) : Option Bytes :=
  let keys := (messages.map (·.1)).mergeSort bytesLe
  let (offsets, ids, strs) := layoutLoop messages [] [] keys
  let keystart := 7 * 4 + 16 * keys.length
  let valuestart := keystart + ids.length
  let koffsets := offsets.flatMap fun (o1, l1, _, _) => [l1, o1 + keystart]
  let voffsets := offsets.flatMap fun (_, _, o2, l2) => [l2, o2 + valuestart]
  let numbers := [keys.length, 7 * 4, 7 * 4 + keys.length * 8] ++ (koffsets ++ voffsets)
  if numbers.any (fun n => n ≥ 2147483648) then none
  else some ((le32 0x950412de ++ le32 0 ++ le32 keys.length ++ le32 (7 * 4) ++ le32 (7 * 4 + keys.length * 8) ++ le32 0 ++ le32 0) ++
    (koffsets ++ voffsets).flatMap le32 ++ ids ++ strs)

/-- The encodings (a charset of another name is `other`, which is not modelled: lines cannot be decoded). -/
inductive Enc where
  | latin1
  | utf8
  | other
  deriving DecidableEq

/-- `s.encode('utf-8')`. -/
def utf8 (s : Str) : Bytes := s.flatMap String.utf8EncodeChar

/-- `b.decode(encoding)`. -/
def Enc.decode : Enc → Bytes → Option Str
  | .latin1, b => some (b.map fun x => Char.ofNat x.toNat)
  | .utf8, b => b.toByteArray.utf8Decode?.map Array.toList
  | .other, _ => none

/-- `s.encode(encoding)`. -/
def Enc.encode : Enc → Str → Option Bytes
  | .latin1, s => if s.all (fun c => c.toNat < 256) then some (s.map fun c => UInt8.ofNat c.toNat) else none
  | .utf8, s => some (Verif.utf8 s)
  | .other, _ => none

/-- The value of an escape sequence of one character in a Python string. -/
def escapeValue (c : Char) : Option Char :=
  (([('n', 10), ('t', 9), ('r', 13), ('"', 34), ('\'', 39), ('\\', 92), ('a', 7), ('b', 8), ('f', 12), ('v', 11)] : List (Char × Nat)).lookup c).map Char.ofNat

/-- The rest of a Python string in double quotation marks. Numeric and named characters (`\x`, `\N`, ...) are not modelled (`none`). -/
def literalBody : Str → Option Str
  | [] => none
  | '"' :: r => if r = [] then some [] else none
  | '\\' :: c :: r =>
    match escapeValue c with
    | some d => (literalBody r).map (d :: ·)
    | none =>
      if c ∈ c!"01234567xNuU\n\r" ∨ c = Char.ofNat 0 then none
      else (literalBody r).map ('\\' :: c :: ·)
  | c :: r => if c = '\\' ∨ c = '\n' ∨ c = '\r' ∨ c = Char.ofNat 0 then none else (literalBody r).map (c :: ·)

/-- `ast.literal_eval(l)` (msgfmt.py 187) for a string in double quotation marks; any other expression is not modelled (`none`). -/
def pyLiteral : Str → Option Str
  | '"' :: r => literalBody r
  | _ => none

inductive Section where
  | id
  | str
  | ctxt
  deriving DecidableEq

/-- The variables of the loop in `make` (msgfmt.py 119-129). `plural` is `none` as long as `is_plural`, `msgid` and `msgstr` are not defined. -/
structure MoState where
  sect : Option Section
  ctxt : Option Bytes
  id : Bytes
  str : Bytes
  fuzzy : Bool
  plural : Option Bool
  enc : Enc
  messages : List (Bytes × Bytes)

/-- The state at the beginning: `MESSAGES` is global and keeps what earlier calls have put into it. -/
def MoState.start (messages : List (Bytes × Bytes)) : MoState := ⟨none, none, [], [], false, none, .latin1, messages⟩

/-- A keyword at the beginning of a line (msgfmt.py 144-183): the state and the rest of the line. `charset` stands for
`HeaderParser().parsestr(header).get_content_charset()`. -/
def keyword (charset : Str → Option Enc) (s : MoState) (l : Str) : Option (MoState × Str) :=
  if Str.startsWith l c!"msgctxt" then
    let messages := if s.sect = some .str then addMsg s.ctxt s.id s.str s.fuzzy s.messages else s.messages
    some ({ s with sect := some .ctxt, ctxt := some [], messages }, l.drop 7)
  else if Str.startsWith l c!"msgid" && !Str.startsWith l c!"msgid_plural" then
    if s.sect = some .str then
      let messages := addMsg s.ctxt s.id s.str s.fuzzy s.messages
      if s.id = [] then
        match s.enc.decode s.str with
        | none => none
        | some header =>
          some ({ s with sect := some .id, id := [], str := [], plural := some false, messages, enc := (charset header).getD s.enc }, l.drop 5)
      else some ({ s with sect := some .id, id := [], str := [], plural := some false, messages }, l.drop 5)
    else some ({ s with sect := some .id, id := [], str := [], plural := some false }, l.drop 5)
  else if Str.startsWith l c!"msgid_plural" then
    if s.sect ≠ some .id then none
    else some ({ s with id := s.id ++ [0], plural := some true }, l.drop 12)
  else if Str.startsWith l c!"msgstr" then
    if Str.startsWith l c!"msgstr[" then
      if s.plural ≠ some true then none
      else match l.dropWhile (· ≠ ']') with
        | [] => none
        | _ :: r => some ({ s with sect := some .str, str := if s.str ≠ [] then s.str ++ [0] else s.str }, r)
    else if s.plural ≠ some false then none
    else some ({ s with sect := some .str }, l.drop 6)
  else some (s, l)

/-- The string in a line (msgfmt.py 184-200). -/
def addString (s : MoState) (l : Str) : Option MoState :=
  let l := Str.strip l
  if l = [] then some s
  else do
    let text ← pyLiteral l
    let b ← s.enc.encode text
    match s.sect with
    | some .ctxt => some { s with ctxt := some (s.ctxt.getD [] ++ b) }
    | some .id => some { s with id := s.id ++ b }
    | some .str => some { s with str := s.str ++ b }
    | none => none

/-- One line (msgfmt.py 131-200). -/
def moLine (charset : Str → Option Enc) (s : MoState) (line : Bytes) : Option MoState := do
  let l ← s.enc.decode line
  if l.head? = some '#' then
    let s := if s.sect = some .str then
        { s with messages := addMsg s.ctxt s.id s.str s.fuzzy s.messages, sect := none, ctxt := none, fuzzy := false } else s
    some (if Str.startsWith l c!"#," && Str.contains l c!"fuzzy" then { s with fuzzy := true } else s)
  else do
    let (s, l) ← keyword charset s l
    addString s l

/-- `f.readlines()` of a binary file (msgfmt.py 112). -/
def byteLines : Bytes → List Bytes
  | [] => []
  | c :: r => if c = 10 then [c] :: byteLines r
    else match byteLines r with
      | [] => [[c]]
      | l :: ls => (c :: l) :: ls

/-- The loop over the lines. -/
def moLoop (charset : Str → Option Enc) : MoState → List Bytes → Option MoState
  | s, [] => some s
  | s, l :: r => do moLoop charset (← moLine charset s l) r

/-- `make` (msgfmt.py 99-212): the contents of the `.mo` file, or `none` if the program ends before it writes it; `messages` are those of earlier
calls. -/
def makeMo (charset : Str → Option Enc) (messages : List (Bytes × Bytes)) (file : Bytes) : Option Bytes := do
  let s ← moLoop charset (.start messages) (byteLines file)
  generate (if s.sect = some .str then addMsg s.ctxt s.id s.str s.fuzzy s.messages else s.messages)

end Verif
