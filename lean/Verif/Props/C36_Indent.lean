/-
C36: pretty-printing changes layout only.
-/
import Verif.Lemmas.Yw7Tree

namespace Verif
open Xml Elem Spec

theorem blank_iff (v : Option Str) : blank v = true ↔ WsOnly v := by
  cases v with
  | none => simp [blank, WsOnly]
  | some s =>
    unfold blank WsOnly
    rw [List.isEmpty_iff, Option.getD_some]
    exact Str.strip_eq_nil_iff s

theorem blank_indentStr (l : Nat) : blank (some (indentStr l)) = true := by
  rw [blank_iff]
  intro c hc
  simp only [indentStr, Option.getD_some, List.mem_cons, List.mem_replicate] at hc
  rcases hc with rfl | ⟨_, rfl⟩ <;> decide

theorem blank_indentStr2 (l : Nat) : blank (some (indentStr l ++ c!"  ")) = true := by
  rw [blank_iff]
  intro c hc
  simp only [indentStr, Option.getD_some, List.mem_cons, List.mem_append, List.mem_replicate,
    List.not_mem_nil, or_false] at hc
  rcases hc with (rfl | ⟨_, rfl⟩) | rfl | rfl <;> decide

theorem Spec.LayoutOnly.fixTail {e e' : Elem} (h : LayoutOnly e e') (l : Nat) : LayoutOnly e (fixTail l e') := by
  cases h with
  | node t x x' y y' ks ks' hx hy hk =>
    unfold Verif.fixTail
    refine .node _ _ _ _ _ _ _ hx ?_ hk
    split
    · rename_i hb
      right
      have hb' := (blank_iff _).1 hb
      refine ⟨?_, (blank_iff _).1 (blank_indentStr l)⟩
      rcases hy with rfl | ⟨h1, _⟩
      · exact hb'
      · exact h1
    · exact hy

mutual
/-- **C36**: indenting changes layout only. -/
theorem C36_layout_only (l : Nat) : (e : Elem) → LayoutOnly e (indent l e)
  | node t x y [] => by
    rw [indent]
    refine .node _ _ _ _ _ _ _ (Or.inl rfl) ?_ .nil
    split
    · rename_i h
      exact Or.inr ⟨(blank_iff _).1 h.2, (blank_iff _).1 (blank_indentStr l)⟩
    · exact Or.inl rfl
  | node t x y (k :: ks) => by
    rw [indent]
    refine .node _ _ _ _ _ _ _ ?_ ?_ (C36_layout_onlyL l (k :: ks))
    · split
      · rename_i h
        exact Or.inr ⟨by simp, (blank_iff _).1 h, (blank_iff _).1 (blank_indentStr2 l)⟩
      · exact Or.inl rfl
    · split
      · rename_i h
        exact Or.inr ⟨(blank_iff _).1 h, (blank_iff _).1 (blank_indentStr l)⟩
      · exact Or.inl rfl
theorem C36_layout_onlyL (l : Nat) : (ks : List Elem) → LayoutOnlyL ks (indentKids l ks)
  | [] => by rw [indentKids]; exact .nil
  | [e] => by rw [indentKids]; exact .cons _ _ _ _ ((C36_layout_only (l + 1) e).fixTail l) .nil
  | e :: f :: r => by
    rw [indentKids]
    exact .cons _ _ _ _ (C36_layout_only (l + 1) e) (C36_layout_onlyL l (f :: r))
end

theorem blank_ite (v : Option Str) (s : Option Str) (hs : blank s = true) :
    (if blank (if blank v then s else v) then s else if blank v then s else v) = if blank v then s else v := by
  by_cases h : blank v = true
  · simp [h, hs]
  · simp [h]

theorem indentKids_ne (l : Nat) (k : Elem) (ks : List Elem) : ∃ k' ks', indentKids l (k :: ks) = k' :: ks' := by
  cases ks with
  | nil => exact ⟨_, _, by rw [indentKids]⟩
  | cons f r => exact ⟨_, _, by rw [indentKids]⟩

/-- Re-indenting after the tail was shortened. -/
theorem indent_tail (l m : Nat) (t : Str) (x : Option Str) (y : Option Str) (ks : List Elem) :
    fixTail m (indent (l + 1) (node t x y ks)) = fixTail m (indent (l + 1) (fixTail m (node t x y ks))) := by
  have hb := blank_indentStr m
  have hb2 := blank_indentStr (l + 1)
  cases ks with
  | nil =>
    by_cases h : blank y = true
    · simp [indent, fixTail, h, hb, hb2]
    · simp [indent, fixTail, h]
  | cons k ks =>
    by_cases h : blank y = true
    · simp [indent, fixTail, h, hb, hb2]
    · simp [indent, fixTail, h]

mutual
/-- **C36**: indenting twice is the same as indenting once. -/
theorem C36_idempotent (l : Nat) : (e : Elem) → indent l (indent l e) = indent l e
  | node t x y [] => by
    rw [indent, indent]
    by_cases h : l ≠ 0 ∧ blank y = true
    · simp [h.1, h.2, blank_indentStr l]
    · simp [h]
  | node t x y (k :: ks) => by
    have hk := C36_idempotentL l (k :: ks)
    rw [indent]
    obtain ⟨k', ks', he⟩ := indentKids_ne l k ks
    rw [he] at hk ⊢
    rw [indent, hk, blank_ite _ _ (blank_indentStr2 l), blank_ite _ _ (blank_indentStr l)]
theorem C36_idempotentL (l : Nat) : (ks : List Elem) → indentKids l (indentKids l ks) = indentKids l ks
  | [] => by rw [indentKids]; rw [indentKids]
  | [e] => by
    have h := C36_idempotent (l + 1) e
    rw [indentKids, indentKids]
    cases he : indent (l + 1) e with
    | node t x y ks =>
      rw [he] at h
      rw [← indent_tail, h]
  | e :: f :: r => by
    have h := C36_idempotent (l + 1) e
    have hr := C36_idempotentL l (f :: r)
    rw [indentKids]
    obtain ⟨k', ks', he⟩ := indentKids_ne l f r
    rw [he] at hr ⊢
    rw [indentKids, h, hr]
end

/-- Nothing the reader looks at depends on the layout: a reload of the indented tree is a reload of the
tree. -/
theorem C36_reload (l : Nat) (e m : Elem) (h : Reloaded (indent l e) m) : Reloaded e m :=
  reloaded_indent l e m h

example : indent 0 (node c!"A" none none [leaf c!"B" (some c!" x"), node c!"C" none none [leaf c!"D" none]])
    = node c!"A" (some c!"\n  ") (some c!"\n") [node c!"B" (some c!" x") (some c!"\n  ") [],
        node c!"C" (some c!"\n    ") (some c!"\n") [node c!"D" none (some c!"\n  ") []]] := by rfl

end Verif
