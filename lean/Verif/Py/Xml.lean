/-
XML element trees as `xml.etree.ElementTree` has them, and the operations PyWriter uses.
Attributes, comments and processing instructions are not modelled (yw7 files have none).
-/
import Verif.Py.Dict

namespace Verif

/-- `ET.Element`: tag, text before the first child, text after the element, children. -/
inductive Elem where
  | node (tag : Str) (text tail : Option Str) (kids : List Elem)
  deriving Repr

namespace Elem

def tag : Elem → Str | node t _ _ _ => t
def text : Elem → Option Str | node _ x _ _ => x
def tail : Elem → Option Str | node _ _ y _ => y
def kids : Elem → List Elem | node _ _ _ k => k

/-- `e.text = v`. -/
def setText (v : Option Str) : Elem → Elem | node t _ y k => node t v y k

/-- Change the children. -/
def mapKids (f : List Elem → List Elem) : Elem → Elem | node t x y k => node t x y (f k)

/-- `ET.Element(tag)` with a text. -/
def leaf (t : Str) (v : Option Str) : Elem := node t v none []

@[simp] theorem tag_node (t x y k) : (node t x y k).tag = t := rfl
@[simp] theorem text_node (t x y k) : (node t x y k).text = x := rfl
@[simp] theorem kids_node (t x y k) : (node t x y k).kids = k := rfl
@[simp] theorem tag_setText (v e) : (setText v e).tag = e.tag := by cases e; rfl
@[simp] theorem text_setText (v e) : (setText v e).text = v := by cases e; rfl
@[simp] theorem kids_setText (v e) : (setText v e).kids = e.kids := by cases e; rfl
@[simp] theorem tag_mapKids (f e) : (mapKids f e).tag = e.tag := by cases e; rfl
@[simp] theorem text_mapKids (f e) : (mapKids f e).text = e.text := by cases e; rfl
@[simp] theorem kids_mapKids (f e) : (mapKids f e).kids = f e.kids := by cases e; rfl
@[simp] theorem tag_leaf (t v) : (leaf t v).tag = t := rfl
@[simp] theorem text_leaf (t v) : (leaf t v).text = v := rfl
@[simp] theorem kids_leaf (t v) : (leaf t v).kids = [] := rfl

end Elem

namespace Xml

/-- `parent.findall(tag)`. -/
def sel (t : Str) (ks : List Elem) : List Elem := ks.filter (fun e => e.tag = t)

/-- `parent.find(tag)`. -/
def find (t : Str) (ks : List Elem) : Option Elem := ks.find? (fun e => e.tag = t)

/-- Change the first child with the tag (the one `parent.find(tag)` returns). -/
def modFirst (t : Str) (f : Elem → Elem) : List Elem → List Elem
  | [] => []
  | e :: r => if e.tag = t then f e :: r else e :: modFirst t f r

/-- `parent.remove(parent.find(tag))`, no effect if there is none. -/
def removeFirst (t : Str) : List Elem → List Elem
  | [] => []
  | e :: r => if e.tag = t then r else e :: removeFirst t r

/-- `parent.insert(i, e)`. -/
def insertAt (i : Nat) (e : Elem) (ks : List Elem) : List Elem := ks.take i ++ e :: ks.drop i

/-! ### Lemmas -/

theorem find_eq (t : Str) (ks : List Elem) : find t ks = (sel t ks).head? := by
  unfold find sel
  rw [List.head?_filter]

/-- What is selected by a property of tags does not change if only a tag without the property is
touched. -/
theorem filter_modFirst {p : Str → Bool} {t : Str} (hp : p t = false) {f : Elem → Elem}
    (hf : ∀ e, (f e).tag = e.tag) (ks : List Elem) :
    (modFirst t f ks).filter (fun e => p e.tag) = ks.filter (fun e => p e.tag) := by
  induction ks with
  | nil => rfl
  | cons e r ih =>
    unfold modFirst
    by_cases h : e.tag = t
    · rw [if_pos h]
      simp [List.filter_cons, hf, h, hp]
    · rw [if_neg h]
      simp only [List.filter_cons, ih]

theorem filter_removeFirst {p : Str → Bool} {t : Str} (hp : p t = false) (ks : List Elem) :
    (removeFirst t ks).filter (fun e => p e.tag) = ks.filter (fun e => p e.tag) := by
  induction ks with
  | nil => rfl
  | cons e r ih =>
    unfold removeFirst
    by_cases h : e.tag = t
    · rw [if_pos h]
      simp [List.filter_cons, h, hp]
    · rw [if_neg h]
      simp only [List.filter_cons, ih]

theorem filter_append_one {p : Str → Bool} {e : Elem} (hp : p e.tag = false) (ks : List Elem) :
    (ks ++ [e]).filter (fun e => p e.tag) = ks.filter (fun e => p e.tag) := by
  simp [List.filter_append, hp]

theorem filter_insertAt {p : Str → Bool} {e : Elem} (hp : p e.tag = false) (i : Nat) (ks : List Elem) :
    (insertAt i e ks).filter (fun e => p e.tag) = ks.filter (fun e => p e.tag) := by
  unfold insertAt
  rw [List.filter_append, List.filter_cons]
  simp only [hp, Bool.false_eq_true, if_false]
  rw [← List.filter_append, List.take_append_drop]

theorem sel_modFirst_self (t : Str) {f : Elem → Elem} (hf : ∀ e, (f e).tag = e.tag) (ks : List Elem) :
    sel t (modFirst t f ks) = match sel t ks with | [] => [] | e :: r => f e :: r := by
  induction ks with
  | nil => rfl
  | cons e r ih =>
    unfold modFirst
    by_cases h : e.tag = t
    · rw [if_pos h]
      simp [sel, hf, h]
    · rw [if_neg h]
      simp only [sel, List.filter_cons, h, decide_false, Bool.false_eq_true, if_false] at ih ⊢
      exact ih

theorem sel_removeFirst_self (t : Str) (ks : List Elem) :
    sel t (removeFirst t ks) = (sel t ks).tail := by
  induction ks with
  | nil => rfl
  | cons e r ih =>
    unfold removeFirst
    by_cases h : e.tag = t
    · rw [if_pos h]; simp [sel, h]
    · rw [if_neg h]
      simp only [sel, List.filter_cons, h, decide_false, Bool.false_eq_true, if_false] at ih ⊢
      exact ih

theorem sel_append_self (ks : List Elem) (e : Elem) : sel e.tag (ks ++ [e]) = sel e.tag ks ++ [e] := by
  simp [sel]

theorem sel_insertAt_self (i : Nat) (e : Elem) (ks : List Elem) (h : sel e.tag ks = []) :
    sel e.tag (insertAt i e ks) = [e] := by
  unfold insertAt
  have h1 : sel e.tag (ks.take i ++ ks.drop i) = [] := by rw [List.take_append_drop]; exact h
  unfold sel at h1 ⊢
  rw [List.filter_append] at h1 ⊢
  have := List.append_eq_nil_iff.1 h1
  rw [List.filter_cons]
  simp [this.1, this.2]

theorem removeFirst_of_none {t : Str} {ks : List Elem} (h : sel t ks = []) : removeFirst t ks = ks := by
  induction ks with
  | nil => rfl
  | cons e r ih =>
    unfold sel at h
    by_cases ht : e.tag = t
    · simp [ht] at h
    · simp only [List.filter_cons, ht, decide_false, Bool.false_eq_true, if_false] at h
      unfold removeFirst
      rw [if_neg ht, ih h]

end Xml
end Verif
