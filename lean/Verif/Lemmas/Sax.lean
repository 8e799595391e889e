/-
Lemmas about the XML parser specification with attributes.
-/
import Verif.Spec.Sax
import Verif.Lemmas.Escape

namespace Verif
open Spec

/-- `(a, x) ⊕ (b, y)` : running further. -/
theorem saxRun_append (st : Sx) (a b : Str) :
    saxRun st (a ++ b) = ((saxRun (saxRun st a).1 b).1, (saxRun st a).2 ++ (saxRun (saxRun st a).1 b).2) := by
  induction a generalizing st with
  | nil => simp [saxRun]
  | cons c a ih => simp only [List.cons_append, saxRun, ih, List.append_assoc]

theorem saxRun_comp {st st1 st2 : Sx} {a b : Str} {x y : List Ev} (h1 : saxRun st a = (st1, x)) (h2 : saxRun st1 b = (st2, y)) :
    saxRun st (a ++ b) = (st2, x ++ y) := by
  rw [saxRun_append, h1]
  simp only [h2]

/-- Characters that stand for themselves in text. -/
def plainChar (c : Char) : Bool := xmlLegal c && c != '<' && c != '&' && c != '>' && c != '\r'

theorem saxRun_plain {s : Str} (h : s.all plainChar = true) (acc : Str) : saxRun (.text acc) s = (.text (s.reverse ++ acc), []) := by
  induction s generalizing acc with
  | nil => rfl
  | cons c s ih =>
    rw [List.all_cons, Bool.and_eq_true] at h
    have hc := h.1
    simp only [plainChar, Bool.and_eq_true, bne_iff_ne, ne_eq] at hc
    obtain ⟨⟨⟨⟨h1, h2⟩, h3⟩, h4⟩, _⟩ := hc
    simp only [saxRun, saxStep, h2, h3, h4, h1, if_true, if_false, false_and, List.nil_append, ih h.2]
    simp

theorem saxRun_escChar {c : Char} (h : xmlLegal c = true) (acc : Str) : saxRun (.text acc) (escChar c) = (.text (c :: acc), []) := by
  unfold escChar
  split
  · rename_i e; subst e; rfl
  split
  · rename_i e; subst e; rfl
  split
  · rename_i e; subst e; rfl
  split
  · rename_i e; subst e; rfl
  split
  · rename_i e; subst e; rfl
  rename_i h1 h2 h3 h4 h5
  simp only [saxRun, saxStep, h1, h2, h3, h, if_true, if_false, false_and, List.nil_append]

/-- Escaped text is reported as it was. -/
theorem saxRun_esc {t : Str} (h : Carriable t) (acc : Str) : saxRun (.text acc) (t.flatMap escChar) = (.text (t.reverse ++ acc), []) := by
  induction t generalizing acc with
  | nil => rfl
  | cons c t ih =>
    rw [List.flatMap_cons, saxRun_comp (saxRun_escChar (h c (by simp)).1 acc) (ih (fun d hd => h d (by simp [hd])) (c :: acc))]
    simp

theorem saxRun_valEscChar {c : Char} (h : xmlLegal c = true) (hb : xmlBlank c = true → c = ' ') (n : Str) (as : Dict Str) (a : Str) (q : Char)
    (hq : q = '"' ∨ q = '\'') (acc : Str) :
    saxRun (.val n as a q acc) (escChar c) = (.val n as a q (c :: acc), []) := by
  unfold escChar
  have e1 : ∀ x, saxRun (.val n as a q acc) (c!"&amp;" ++ x) = saxRun (.val n as a q ('&' :: acc)) x := by
    intro x; rcases hq with rfl | rfl <;> rfl
  split
  · rename_i e; subst e; rcases hq with rfl | rfl <;> rfl
  split
  · rename_i e; subst e; rcases hq with rfl | rfl <;> rfl
  split
  · rename_i e; subst e; rcases hq with rfl | rfl <;> rfl
  split
  · rename_i e; subst e; rcases hq with rfl | rfl <;> rfl
  split
  · rename_i e; subst e; rcases hq with rfl | rfl <;> rfl
  rename_i h1 h2 h3 h4 h5
  have hcq : c ≠ q := by rcases hq with rfl | rfl <;> assumption
  simp only [saxRun, saxStep, hcq, h1, h3, if_false]
  by_cases hbl : xmlBlank c = true
  · have := hb hbl
    subst this
    rfl
  · rw [if_neg hbl, if_pos h]; rfl

/-- Escaped text in an attribute. -/
theorem saxRun_valEsc {t : Str} (h : ∀ c ∈ t, xmlLegal c = true ∧ (xmlBlank c = true → c = ' ')) (n : Str) (as : Dict Str) (a : Str)
    (acc : Str) : saxRun (.val n as a '"' acc) (t.flatMap escChar) = (.val n as a '"' (t.reverse ++ acc), []) := by
  induction t generalizing acc with
  | nil => rfl
  | cons c t ih =>
    rw [List.flatMap_cons, saxRun_comp (saxRun_valEscChar (h c (by simp)).1 (h c (by simp)).2 n as a '"' (.inl rfl) acc)
      (ih (fun d hd => h d (by simp [hd])) (c :: acc))]
    simp

/-- Characters that stand for themselves in attributes. -/
def plainAttr (c : Char) : Bool := xmlLegal c && c != '<' && c != '&' && c != '"' && !(xmlBlank c) && c != '\r'

theorem saxRun_valPlain {s : Str} (h : s.all plainAttr = true) (n : Str) (as : Dict Str) (a acc : Str) :
    saxRun (.val n as a '"' acc) s = (.val n as a '"' (s.reverse ++ acc), []) := by
  induction s generalizing acc with
  | nil => rfl
  | cons c s ih =>
    rw [List.all_cons, Bool.and_eq_true] at h
    have hc := h.1
    simp only [plainAttr, Bool.and_eq_true, bne_iff_ne, ne_eq, Bool.not_eq_true'] at hc
    obtain ⟨⟨⟨⟨⟨h1, h2⟩, h3⟩, h4⟩, h5⟩, _⟩ := hc
    simp only [saxRun, saxStep, h2, h3, h4, h1, h5, if_true, if_false, Bool.false_eq_true, List.nil_append, ih h.2]
    simp

/-! ### Trees -/

mutual
/-- The events of a node. -/
def nodeEvs : XNode → List Ev
  | .elem t as ks => .start t as :: nodesEvs ks ++ [.stop t]
  | .text s => [.chars s]

/-- The events of a list of nodes. -/
def nodesEvs : List XNode → List Ev
  | [] => []
  | k :: ks => nodeEvs k ++ nodesEvs ks
end

theorem nodesEvs_append (a b : List XNode) : nodesEvs (a ++ b) = nodesEvs a ++ nodesEvs b := by
  induction a with
  | nil => rfl
  | cons k a ih => simp only [List.cons_append, nodesEvs, ih, List.append_assoc]

theorem nodesEvs_single (k : XNode) : nodesEvs [k] = nodeEvs k := by simp [nodesEvs]

theorem XBld_run_append (b : XBld) (x y : List Ev) : b.run (x ++ y) = (b.run x).bind (fun b' => b'.run y) := by
  induction x generalizing b with
  | nil => rfl
  | cons e x ih =>
    simp only [List.cons_append, XBld.run, Option.bind_assoc]
    congr 1
    funext b'
    exact ih b'

mutual
theorem run_node : (k : XNode) → (f : XFrame) → (fs : List XFrame) → (r : Option XNode) → (es : List Ev) →
    XBld.run ⟨f :: fs, r⟩ (nodeEvs k ++ es) = XBld.run ⟨{ f with kids := k :: f.kids } :: fs, r⟩ es
  | .elem t as ks, f, fs, r, es => by
    rw [nodeEvs]
    simp only [List.cons_append, XBld.run, XBld.step, Option.bind_some, List.append_assoc]
    rw [run_nodes ks ⟨t, as, []⟩ (f :: fs) r]
    simp only [List.nil_append, XBld.run, XBld.step, if_true, Option.bind_some, List.append_nil,
      List.reverse_reverse]
  | .text s, f, fs, r, es => by
    rw [nodeEvs]
    simp only [List.cons_append, List.nil_append, XBld.run, XBld.step, Option.bind_some]

theorem run_nodes : (ks : List XNode) → (f : XFrame) → (fs : List XFrame) → (r : Option XNode) → (es : List Ev) →
    XBld.run ⟨f :: fs, r⟩ (nodesEvs ks ++ es) = XBld.run ⟨{ f with kids := ks.reverse ++ f.kids } :: fs, r⟩ es
  | [], f, fs, r, es => rfl
  | k :: ks, f, fs, r, es => by
    rw [nodesEvs, List.append_assoc, run_node k f fs r, run_nodes ks _ fs r]
    simp
end

/-- `s` is the text of complete nodes: reading it after the character data `acc` reports the nodes and leaves the character data `acc'`
(both in reverse order). -/
def Renders (s acc : Str) (ns : List XNode) (acc' : Str) : Prop := saxRun (.text acc) s = (.text acc', nodesEvs ns)

theorem Renders.append {s1 s2 a0 a1 a2 : Str} {n1 n2 : List XNode} (h1 : Renders s1 a0 n1 a1) (h2 : Renders s2 a1 n2 a2) :
    Renders (s1 ++ s2) a0 (n1 ++ n2) a2 := by
  unfold Renders
  rw [saxRun_comp h1 h2, nodesEvs_append]

theorem Renders.nil (a : Str) : Renders [] a [] a := rfl

theorem Renders.plain {s : Str} (h : s.all plainChar = true) (a : Str) : Renders s a [] (s.reverse ++ a) := saxRun_plain h a

/-- The text node for character data. -/
def textNode (acc : Str) : List XNode := if acc = [] then [] else [.text acc.reverse]

theorem nodesEvs_textNode (acc : Str) : nodesEvs (textNode acc) = saxPend acc := by
  unfold textNode saxPend
  split
  · rfl
  · rfl

/-- A `<` after character data reports them. -/
theorem saxRun_lt (acc : Str) (s : Str) : saxRun (.text acc) ('<' :: s) = ((saxRun .lt s).1, saxPend acc ++ (saxRun .lt s).2) := rfl

/-- An element: its start tag, its content and its end tag. -/
theorem Renders.elem {start inner stop a0 a1 a2 t : Str} {as : Dict Str} {ks : List XNode}
    (h1 : saxRun .lt start = (.text [], [.start t as]))
    (h2 : Renders inner [] ks a1) (h3 : saxRun .lt stop = (.text a2, [.stop t])) :
    Renders ('<' :: start ++ (inner ++ '<' :: stop)) a0 (textNode a0 ++ [.elem t as (ks ++ textNode a1)]) a2 := by
  unfold Renders at h2 ⊢
  have e1 : saxRun (.text a0) ('<' :: start) = (.text [], saxPend a0 ++ [.start t as]) := by rw [saxRun_lt, h1]
  have e3 : saxRun (.text a1) ('<' :: stop) = (.text a2, saxPend a1 ++ [.stop t]) := by rw [saxRun_lt, h3]
  rw [saxRun_comp e1 (saxRun_comp h2 e3), nodesEvs_append, nodesEvs_single, nodesEvs_textNode, nodeEvs, nodesEvs_append,
    nodesEvs_textNode]
  simp

/-- An empty element. -/
theorem Renders.empty {tag a0 a1 t : Str} {as : Dict Str} (h : saxRun .lt tag = (.text a1, [.start t as, .stop t])) :
    Renders ('<' :: tag) a0 (textNode a0 ++ [.elem t as []]) a1 := by
  unfold Renders
  rw [saxRun_lt, h, nodesEvs_append, nodesEvs_single, nodesEvs_textNode]
  rfl

end Verif
