/-
Specification: a parsed project file carries the data of an element tree.
-/
import Verif.Py.Xml
import Verif.Spec.Xml
import Verif.Model.Yw7Tree

namespace Verif
open Elem

namespace Spec

/-- A missing text and an empty text are the same to a reader, who gets `None`. -/
def readText (v : Option Str) : Option Str :=
  match v with
  | some [] => none
  | v => v

/-- How the text of an element with the tag `t` comes back from a project file. Text of the tags in
`_CDATA_TAGS` is put literally into a CDATA section. All other text is put literally into the file as
well, without CDATA section, so that the parser sees it as XML character data; if it is no well-formed
character data, nothing comes back. (When the file really has this form is the subject of C21.) -/
inductive Carried (t : Str) : Option Str → Option Str → Prop
  | none : Carried t none none
  | empty : Carried t (some []) none
  | cdata (x : Str) : t ∈ cdataTags → x ≠ [] → Carried t (some x) (some x)
  | plain (x x' : Str) : t ∉ cdataTags → x ≠ [] → CharData x x' → Carried t (some x) (some x')

/-- Text that is the same as XML character data: nothing to decode. -/
def PlainStr (s : Str) : Prop := ∀ c ∈ s, xmlLegal c = true ∧ c ≠ '\r' ∧ c ≠ '<' ∧ c ≠ '>' ∧ c ≠ '&'

/-- Text of an element comes back literally if the element has a CDATA section or the text is plain. -/
def Literal (t : Str) (v : Option Str) : Prop := t ∈ cdataTags ∨ ∀ s, v = some s → PlainStr s

mutual
/-- `Reloaded e e'`: `e'` is what a parser returns for a project file that carries `e`, with any
pretty-printing: same tags, nesting and order; the text of elements without children is carried;
the text inside elements with children and between elements is free. -/
inductive Reloaded : Elem → Elem → Prop
  | leaf (t : Str) (x x' y y' : Option Str) :
      Carried t x x' → Reloaded (node t x y []) (node t x' y' [])
  | inner (t : Str) (x y x' y' : Option Str) (k : Elem) (ks ks' : List Elem) :
      ReloadedL (k :: ks) ks' → Reloaded (node t x y (k :: ks)) (node t x' y' ks')
/-- The same for lists of elements, pointwise. -/
inductive ReloadedL : List Elem → List Elem → Prop
  | nil : ReloadedL [] []
  | cons (e e' : Elem) (r r' : List Elem) : Reloaded e e' → ReloadedL r r' → ReloadedL (e :: r) (e' :: r')
end

/-- What a parser makes of the text of an element with the tag `t`, which is written literally, in a CDATA section or not. An empty text is no text. -/
def ParsedText (t : Str) (x x' : Option Str) : Prop :=
  x' ≠ some [] ∧ if t ∈ cdataTags then x'.getD [] = x.getD [] else CharData (x.getD []) (x'.getD [])

mutual
/-- Like `Reloaded`, but with the text inside elements with children and between elements. The text after the element itself is not considered. -/
inductive Parsed : Elem → Elem → Prop
  | node (t : Str) (x x' y y' : Option Str) (ks ks' : List Elem) : ParsedText t x x' → ParsedL ks ks' → Parsed (node t x y ks) (node t x' y' ks')
/-- The same for lists of elements, pointwise, with the text between the elements. -/
inductive ParsedL : List Elem → List Elem → Prop
  | nil : ParsedL [] []
  | cons (e e' : Elem) (r r' : List Elem) : Parsed e e' → CharData (e.tail.getD []) (e'.tail.getD []) → e'.tail ≠ some [] → ParsedL r r' → ParsedL (e :: r) (e' :: r')
end

end Spec
end Verif

namespace Verif.Spec
open Elem

/-- Nothing but whitespace. -/
def WsOnly (v : Option Str) : Prop := ∀ c ∈ v.getD [], Str.isWs c = true

mutual
/-- Two trees differ in layout only: same tags, nesting and order, same texts of elements without
children; text inside elements with children and text between elements is the same, unless it is
whitespace in both. -/
inductive LayoutOnly : Elem → Elem → Prop
  | node (t : Str) (x x' y y' : Option Str) (ks ks' : List Elem) :
      (x' = x ∨ (ks ≠ [] ∧ WsOnly x ∧ WsOnly x')) → (y' = y ∨ (WsOnly y ∧ WsOnly y')) →
      LayoutOnlyL ks ks' → LayoutOnly (node t x y ks) (node t x' y' ks')
/-- The same for lists. -/
inductive LayoutOnlyL : List Elem → List Elem → Prop
  | nil : LayoutOnlyL [] []
  | cons (e e' : Elem) (r r' : List Elem) :
      LayoutOnly e e' → LayoutOnlyL r r' → LayoutOnlyL (e :: r) (e' :: r')
end

end Verif.Spec
