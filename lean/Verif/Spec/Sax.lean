/-
A small specification of an XML parser for documents with attributes, independent of the model: a tokeniser that reports what a SAX parser
reports (with the character data between two tags in one piece; the events are defined in `Py/XTree`) and a tree builder (XML 1.0 without comments, CDATA sections, document
types and character references, none of which PyWriter's ODF writers produce; a document that has them is rejected). Both are functions,
so that the result is unique.
-/
import Verif.Py.XTree
import Verif.Spec.XmlDoc

namespace Verif.Spec

/-- The states of the tokeniser; accumulated characters are in reverse order, `n` is the name of the element, `as` its attributes. -/
inductive Sx
  | text (acc : Str)
  | entity (acc name : Str)
  | lt
  | instr (acc : Str)
  | tag (n : Str)
  | inTag (n : Str) (as : Dict Str)
  | attr (n : Str) (as : Dict Str) (a : Str)
  | eq (n : Str) (as : Dict Str) (a : Str)
  | val (n : Str) (as : Dict Str) (a : Str) (quote : Char) (acc : Str)
  | valEntity (n : Str) (as : Dict Str) (a : Str) (quote : Char) (acc name : Str)
  | valEnd (n : Str) (as : Dict Str)
  | slash (n : Str) (as : Dict Str)
  | close (n : Str)
  | bad
  deriving DecidableEq, Repr

/-- The characters of names with a prefix. -/
def qnameChar (c : Char) : Bool := nameChar c || c = ':'

/-- White space of the markup. -/
def xmlBlank (c : Char) : Bool := c = ' ' || c = '\t' || c = '\n'

/-- Report character data, if there is any. -/
def saxPend (acc : Str) : List Ev := if acc = [] then [] else [.chars acc.reverse]

/-- The rest of a start tag after its attributes. -/
def saxTagEnd (n : Str) (as : Dict Str) (c : Char) : Sx × List Ev :=
  if c = '>' then (.text [], [.start n.reverse as])
  else if c = '/' then (.slash n as, [])
  else if xmlBlank c then (.inTag n as, [])
  else (.bad, [])

/-- One character. -/
def saxStep : Sx → Char → Sx × List Ev
  | .text acc, c =>
    if c = '<' then (.lt, saxPend acc)
    else if c = '&' then (.entity acc [], [])
    else if c = '>' ∧ [']', ']'] <+: acc then (.bad, [])
    else if xmlLegal c then (.text (c :: acc), []) else (.bad, [])
  | .entity acc name, c =>
    if c = ';' then
      match entities.lookup ('&' :: name.reverse ++ [';']) with
      | some x => (.text (x :: acc), [])
      | none => (.bad, [])
    else (.entity acc (c :: name), [])
  | .lt, c =>
    if c = '/' then (.close [], [])
    else if c = '?' then (.instr [], [])
    else if qnameChar c then (.tag [c], []) else (.bad, [])
  | .instr acc, c => if c = '>' ∧ ['?'] <+: acc then (.text [], []) else (.instr (c :: acc), [])
  | .tag n, c => if qnameChar c then (.tag (c :: n), []) else saxTagEnd n [] c
  | .inTag n as, c => if qnameChar c then (.attr n as [c], []) else saxTagEnd n as c
  | .attr n as a, c =>
    if c = '=' then (.eq n as a, [])
    else if qnameChar c then (.attr n as (c :: a), []) else (.bad, [])
  | .eq n as a, c => if c = '"' ∨ c = '\'' then (.val n as a c [], []) else (.bad, [])
  | .val n as a q acc, c =>
    if c = q then
      match as.get? a.reverse with
      | some _ => (.bad, [])
      | none => (.valEnd n (as ++ [(a.reverse, acc.reverse)]), [])
    else if c = '&' then (.valEntity n as a q acc [], [])
    else if c = '<' then (.bad, [])
    else if xmlBlank c then (.val n as a q (' ' :: acc), [])
    else if xmlLegal c then (.val n as a q (c :: acc), []) else (.bad, [])
  | .valEntity n as a q acc name, c =>
    if c = ';' then
      match entities.lookup ('&' :: name.reverse ++ [';']) with
      | some x => (.val n as a q (x :: acc), [])
      | none => (.bad, [])
    else (.valEntity n as a q acc (c :: name), [])
  | .valEnd n as, c => saxTagEnd n as c
  | .slash n as, c => if c = '>' then (.text [], [.start n.reverse as, .stop n.reverse]) else (.bad, [])
  | .close n, c =>
    if c = '>' then (.text [], [.stop n.reverse])
    else if qnameChar c then (.close (c :: n), []) else (.bad, [])
  | .bad, _ => (.bad, [])

/-- All characters: the final state and the events. -/
def saxRun : Sx → Str → Sx × List Ev
  | st, [] => (st, [])
  | st, c :: cs =>
    let p := saxStep st c
    let q := saxRun p.1 cs
    (q.1, p.2 ++ q.2)

/-- Line ends are normalised before anything else (XML 1.0, 2.11). -/
def normEol : Str → Str
  | [] => []
  | '\r' :: '\n' :: cs => '\n' :: normEol cs
  | '\r' :: cs => '\n' :: normEol cs
  | c :: cs => c :: normEol cs

/-- The events of a document, `none` if its markup is not lexically correct. -/
def saxEvents (s : Str) : Option (List Ev) :=
  match saxRun (.text []) (normEol s) with
  | (.text acc, es) => some (es ++ saxPend acc)
  | _ => none

/-- Whether every element is closed in proper nesting: the open elements afterwards (innermost first), `none` if an end tag does not
match. -/
def nest : List Str → List Ev → Option (List Str)
  | st, [] => some st
  | st, .start t _ :: es => nest (t :: st) es
  | [], .stop _ :: _ => none
  | t' :: st, .stop t :: es => if t = t' then nest st es else none
  | st, .chars _ :: es => nest st es

/-- An element under construction: name, attributes, content in reverse order. -/
structure XFrame where
  tag : Str
  attrs : Dict Str
  kids : List XNode := []

/-- The state of the tree builder: the open elements, innermost first, and the finished root. -/
structure XBld where
  frames : List XFrame := []
  root : Option XNode := none

/-- One event. -/
def XBld.step (b : XBld) : Ev → Option XBld
  | .start t as =>
    match b.frames, b.root with
    | [], some _ => none
    | fs, r => some ⟨⟨t, as, []⟩ :: fs, r⟩
  | .stop t =>
    match b.frames with
    | [] => none
    | f :: fs =>
      if f.tag = t then
        match fs with
        | [] => some ⟨[], some (.elem f.tag f.attrs f.kids.reverse)⟩
        | g :: gs => some ⟨{ g with kids := .elem f.tag f.attrs f.kids.reverse :: g.kids } :: gs, b.root⟩
      else none
  | .chars s =>
    match b.frames with
    | [] => if s.all xmlBlank then some b else none
    | f :: fs => some ⟨{ f with kids := .text s :: f.kids } :: fs, b.root⟩

/-- All events. -/
def XBld.run : XBld → List Ev → Option XBld
  | b, [] => some b
  | b, e :: es => (b.step e).bind (fun b' => b'.run es)

/-- The root element of a document, `none` if it is not well-formed. -/
def parseDoc (s : Str) : Option XNode :=
  match (saxEvents s).bind (XBld.run {}) with
  | some ⟨[], some e⟩ => some e
  | _ => none

end Verif.Spec
