/-
The elementary steps by which `Yw7File._build_element_tree` (yw/yw7_file.py 207-1093) edits the
children of an XML element, and `indent` (yw/xml_indent.py).
-/
import Verif.Py.Xml
import Verif.Model.Escape
import Verif.Model.Globals

namespace Verif
open Xml Elem

/-- `_CDATA_TAGS` (yw7_file.py 43-76). A comma is missing after `'Conflict'`, so that Python
concatenates two literals. -/
def cdataTags : List Str :=
  [c!"Title", c!"AuthorName", c!"Bio", c!"Desc", c!"FieldTitle1", c!"FieldTitle2", c!"FieldTitle3",
   c!"FieldTitle4", c!"LaTeXHeaderFile", c!"Tags", c!"AKA", c!"ImageFile", c!"FullName", c!"Goals",
   c!"Notes", c!"RTFFile", c!"SceneContent", c!"Outcome", c!"Goal",
   c!"ConflictField_ChapterHeadingPrefix", c!"Field_ChapterHeadingSuffix",
   c!"Field_PartHeadingPrefix", c!"Field_PartHeadingSuffix", c!"Field_CustomGoal",
   c!"Field_CustomConflict", c!"Field_CustomOutcome", c!"Field_CustomChrBio",
   c!"Field_CustomChrGoals", c!"Field_ArcDefinition", c!"Field_SceneArcs", c!"Field_CustomAR"]

/-- `parent.find(tag) is not None`. -/
def hasTag (t : Str) (ks : List Elem) : Bool := (find t ks).isSome

/-- `parent.find(tag).text` where the element exists, `None` otherwise. -/
def textOf (t : Str) (ks : List Elem) : Option Str := (find t ks).bind Elem.text

/-- The pattern `if v is not None: try: parent.find(tag).text = v; except AttributeError: if v: SubElement`
(yw7_file.py 245-250, 341-381, 444-463, 478-504). -/
def putText (t : Str) (v : Option Str) (ks : List Elem) : List Elem :=
  match v with
  | none => ks
  | some v =>
    if hasTag t ks then modFirst t (setText (some v)) ks
    else if v = [] then ks else ks ++ [leaf t (some v)]

/-- The same pattern without the test for the empty string (yw7_file.py 335-339, 425-441, 801-865). -/
def putAlways (t : Str) (v : Option Str) (ks : List Elem) : List Elem :=
  match v with
  | none => ks
  | some v => if hasTag t ks then modFirst t (setText (some v)) ks else ks ++ [leaf t (some v)]

/-- The pattern `if v is not None: SubElement(parent, tag).text = v` (yw7_file.py 655-660 etc.). -/
def putNew (t : Str) (v : Option Str) (ks : List Elem) : List Elem :=
  match v with
  | none => ks
  | some v => ks ++ [leaf t (some v)]

/-- The pattern `if parent.find(tag) is None: SubElement(parent, tag).text = v`
(yw7_file.py 252-259). -/
def addMissing (t : Str) (v : Option Str) (ks : List Elem) : List Elem :=
  if hasTag t ks then ks else ks ++ [leaf t v]

/-- `set_element(parent, tag, text, index)` (yw7_file.py 210-221): children and next index. -/
def setElement (t : Str) (v : Option Str) (p : List Elem × Nat) : List Elem × Nat :=
  match v with
  | none => p
  | some v =>
    if hasTag t p.1 then (modFirst t (setText (some v)) p.1, p.2 + 1)
    else (insertAt p.2 (leaf t (some v)) p.1, p.2 + 1)

/-- The pattern for flags: `<tag>-1</tag>` if true, removed otherwise (yw7_file.py 283-287, 383-387,
466-476). -/
def putFlag (t : Str) (b : Bool) (ks : List Elem) : List Elem :=
  if b then (if hasTag t ks then ks else ks ++ [leaf t (some c!"-1")]) else removeFirst t ks

/-- The pattern for ID lists: remove the old element, add a new one if the list is not empty
(yw7_file.py 506-532, 644-652). -/
def putIds (t sub : Str) (ids : List Str) (ks : List Elem) : List Elem :=
  if ids = [] then removeFirst t ks
  else removeFirst t ks ++ [node t none none (ids.map (fun i => leaf sub (some i)))]

/-- Edit the children of the first `Fields` element, which is the one the code holds on to. -/
def onFields (f : List Elem → List Elem) (ks : List Elem) : List Elem :=
  modFirst c!"Fields" (mapKids f) ks

/-- Create a `Fields` element if there is none. -/
def ensureFields (ks : List Elem) : List Elem :=
  if hasTag c!"Fields" ks then ks else ks ++ [node c!"Fields" none none []]

/-- The pattern for custom keyword variables (yw7_file.py 319-333, 670-685, 726-741, 778-793,
873-888): a non-empty value is written into `Fields`, otherwise the entry is removed. -/
def putCustom (field : Str) (v : Option Str) (ks : List Elem) : List Elem :=
  match v with
  | none => onFields (removeFirst field) ks
  | some [] => onFields (removeFirst field) ks
  | some v => onFields (putAlways field (some (ywConvert (some v)))) (ensureFields ks)

/-! ### Pretty printing -/

/-- `not s or not s.strip()` (xml_indent.py 17). -/
def blank (s : Option Str) : Bool :=
  match s with
  | none => true
  | some s => (Str.strip s).isEmpty

/-- `f'\n{level * "  "}'` (xml_indent.py 15). -/
def indentStr (level : Nat) : Str := '\n' :: List.replicate (2 * level) ' '

/-- `if not elem.tail or not elem.tail.strip(): elem.tail = i` (xml_indent.py 19-20, 23-24). -/
def fixTail (level : Nat) : Elem → Elem
  | node t x y k => node t x (if blank y then some (indentStr level) else y) k

mutual
/-- `indent(elem, level)` (xml_indent.py 9-27). -/
def indent (level : Nat) : Elem → Elem
  | node t x y [] => node t x (if level ≠ 0 ∧ blank y then some (indentStr level) else y) []
  | node t x y (k :: ks) =>
    node t (if blank x then some (indentStr level ++ c!"  ") else x)
      (if blank y then some (indentStr level) else y) (indentKids level (k :: ks))
/-- The loop over the children (xml_indent.py 21-24); after the loop the variable `elem` is the last
child, whose tail is shortened. -/
def indentKids (level : Nat) : List Elem → List Elem
  | [] => []
  | [e] => [fixTail level (indent (level + 1) e)]
  | e :: f :: r => indent (level + 1) e :: indentKids level (f :: r)
end

mutual
/-- `list(e.iter(tag))`: the element itself and all descendants, in document order. -/
def iterTag (t : Str) : Elem → List Elem
  | node u x y ks => (if u = t then [node u x y ks] else []) ++ iterTagKids t ks
/-- `iterTag` for the children. -/
def iterTagKids (t : Str) : List Elem → List Elem
  | [] => []
  | e :: r => iterTag t e ++ iterTagKids t r
end

end Verif
