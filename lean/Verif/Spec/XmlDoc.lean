/-
A small specification of an XML parser with a tree builder, independent of the model (XML 1.0 without
attributes, comments, document types and character references, none of which occur in yw7 files; a
document that has them is rejected). It is a function, so that its result is unique.
-/
import Verif.Py.Xml
import Verif.Spec.Xml

namespace Verif.Spec
open Elem

/-- What a tokeniser reports. -/
inductive Tok
  | start (t : Str)
  | stop (t : Str)
  | chars (s : Str)
  deriving DecidableEq

/-- The states of the tokeniser; accumulated characters are in reverse order. -/
inductive Lx
  | text (acc : Str)
  | entity (acc name : Str)
  | lt
  | tag (name : Str)
  | tagBlank (name : Str)
  | tagSlash (name : Str)
  | close (name : Str)
  | bang (seen : Str)
  | cdata (acc : Str)
  | instr (acc : Str)
  | bad
  deriving DecidableEq

/-- The characters of names (ASCII only; a restriction of XML's productions [4] and [4a]). -/
def nameChar (c : Char) : Bool := c.isAlphanum || c = '_' || c = '-' || c = '.'

/-- A name. -/
def IsName (t : Str) : Prop := t ≠ [] ∧ ∀ c ∈ t, nameChar c = true

/-- Report character data, if there is any. -/
def pend (acc : Str) : List Tok := if acc = [] then [] else [.chars acc.reverse]

/-- One character. -/
def lexStep : Lx → Char → Lx × List Tok
  | .text acc, c =>
    if c = '<' then (.lt, pend acc)
    else if c = '&' then (.entity acc [], [])
    else if c = '>' ∧ [']', ']'] <+: acc then (.bad, [])
    else if xmlLegal c then (.text (c :: acc), []) else (.bad, [])
  | .entity acc name, c =>
    if c = ';' then
      match entities.lookup ('&' :: name.reverse ++ [';']) with
      | some x => (.text (x :: acc), [])
      | none => (.bad, [])
    else (.entity acc (c :: name), [])
  | .lt, c =>
    if c = '/' then (.close [], [])
    else if c = '!' then (.bang [], [])
    else if c = '?' then (.instr [], [])
    else if nameChar c then (.tag [c], []) else (.bad, [])
  | .tag n, c =>
    if c = '>' then (.text [], [.start n.reverse])
    else if c = '/' then (.tagSlash n, [])
    else if c = ' ' then (.tagBlank n, [])
    else if nameChar c then (.tag (c :: n), []) else (.bad, [])
  | .tagBlank n, c =>
    if c = '>' then (.text [], [.start n.reverse])
    else if c = '/' then (.tagSlash n, [])
    else if c = ' ' then (.tagBlank n, []) else (.bad, [])
  | .tagSlash n, c => if c = '>' then (.text [], [.start n.reverse, .stop n.reverse]) else (.bad, [])
  | .close n, c =>
    if c = '>' then (.text [], [.stop n.reverse])
    else if nameChar c then (.close (c :: n), []) else (.bad, [])
  | .bang s, c =>
    if c :: s = (c!"[CDATA[").reverse then (.cdata [], [])
    else if (c :: s).reverse <+: c!"[CDATA[" then (.bang (c :: s), []) else (.bad, [])
  | .cdata acc, c =>
    if c = '>' ∧ [']', ']'] <+: acc then (.text [], pend (acc.drop 2))
    else if xmlLegal c then (.cdata (c :: acc), []) else (.bad, [])
  | .instr acc, c =>
    if c = '>' ∧ ['?'] <+: acc then (.text [], []) else (.instr (c :: acc), [])
  | .bad, _ => (.bad, [])

/-- All characters: the final state and the tokens. -/
def lexRun : Lx → Str → Lx × List Tok
  | st, [] => (st, [])
  | st, c :: cs =>
    let p := lexStep st c
    let q := lexRun p.1 cs
    (q.1, p.2 ++ q.2)

/-- The tokens of a document. -/
def lex (s : Str) : Option (List Tok) :=
  match lexRun (.text []) s with
  | (.text acc, ts) => some (ts ++ pend acc)
  | _ => none

/-- An element under construction: tag, text, children in reverse order. -/
structure Frame where
  tag : Str
  text : Option Str := none
  kids : List Elem := []

/-- Append characters. -/
def glue (v : Option Str) (s : Str) : Option Str := some (v.getD [] ++ s)

/-- Characters belong to the tail of the last child or, before the first one, to the text. -/
def Frame.addChars (f : Frame) (s : Str) : Frame :=
  match f.kids with
  | [] => { f with text := glue f.text s }
  | node t x y ks :: r => { f with kids := node t x (glue y s) ks :: r }

/-- The finished element. -/
def Frame.elem (f : Frame) : Elem := node f.tag f.text none f.kids.reverse

/-- The state of the tree builder: the open elements, innermost first, and the finished root. -/
structure Bld where
  frames : List Frame := []
  root : Option Elem := none

/-- One token. -/
def Bld.step (b : Bld) : Tok → Option Bld
  | .start t =>
    match b.frames, b.root with
    | [], some _ => none
    | fs, r => some ⟨{ tag := t } :: fs, r⟩
  | .stop t =>
    match b.frames with
    | [] => none
    | f :: fs =>
      if f.tag = t then
        match fs with
        | [] => some ⟨[], some f.elem⟩
        | g :: gs => some ⟨{ g with kids := f.elem :: g.kids } :: gs, b.root⟩
      else none
  | .chars s =>
    match b.frames with
    | [] => if s.all (fun c => c = ' ' || c = '\t' || c = '\n') then some b else none
    | f :: fs => some ⟨f.addChars s :: fs, b.root⟩

/-- All tokens. -/
def Bld.run : Bld → List Tok → Option Bld
  | b, [] => some b
  | b, t :: ts => (b.step t).bind (fun b' => b'.run ts)

/-- The root element of a document, `none` if it is not well-formed. -/
def parseXml (s : Str) : Option Elem :=
  match (lex s).bind (Bld.run {}) with
  | some ⟨[], some e⟩ => some e
  | _ => none

end Verif.Spec
