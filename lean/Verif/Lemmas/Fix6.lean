/-
Trees that differ only in their layout are written alike; what is parsed of an indented tree differs from it only in its layout.
-/
import Verif.Lemmas.Fix5
import Verif.Props.C36_Indent

namespace Verif
open Xml Spec Elem

/-! ### Writing -/

/-- The text after an element below the root, once it is indented. -/
def tailAt (l : Nat) (y : Option Str) : Option Str := if blank y then some (indentStr l) else y

/-- The text in an element, once it is indented. -/
def textAt (l : Nat) (ks : List Elem) (x : Option Str) : Option Str := if ks = [] then x else if blank x then some (indentStr l ++ c!"  ") else x

theorem indent_eq (l : Nat) (t : Str) (x y : Option Str) (ks : List Elem) (h : l ≠ 0 ∨ ks ≠ []) : indent l (node t x y ks) = node t (textAt l ks x) (tailAt l y) (indentKids l ks) := by
  cases ks with
  | nil =>
    have hl : l ≠ 0 := by
      rcases h with h | h
      · exact h
      · exact absurd rfl h
    rw [indent, indentKids]
    unfold textAt tailAt
    rw [if_pos rfl]
    by_cases hb : blank y = true
    · rw [if_pos ⟨hl, hb⟩, if_pos hb]
    · rw [if_neg (fun h => hb h.2), if_neg hb]
  | cons k r =>
    rw [indent]
    unfold textAt tailAt
    rw [if_neg (List.cons_ne_nil _ _)]

theorem TailAlike.at {y y' : Option Str} (h : TailAlike y y') (l : Nat) : (tailAt l y').getD [] = (tailAt l y).getD [] := by
  unfold tailAt
  rcases h with h | ⟨h1, h2⟩
  · rw [blank_getD h]
    split
    · rfl
    · exact h
  · rw [if_pos h1, if_pos h2]

theorem TextAlike.at {ks ks' : List Elem} {x x' : Option Str} (h : TextAlike ks x x') (hk : ks' = [] ↔ ks = []) (l : Nat) : (textAt l ks' x').getD [] = (textAt l ks x).getD [] := by
  unfold textAt
  by_cases h0 : ks = []
  · rw [if_pos h0, if_pos (hk.2 h0)]
    rcases h with h | h
    · exact h
    · exact absurd h0 h.1
  · rw [if_neg h0, if_neg (fun h => h0 (hk.1 h))]
    rcases h with h | ⟨_, h1, h2⟩
    · rw [blank_getD h]
      split
      · rfl
      · exact h
    · rw [if_pos h1, if_pos h2]

theorem etWrite_congr {t : Str} {x x' y y' : Option Str} {ks ks' : List Elem} (hx : x'.getD [] = x.getD []) (hy : y'.getD [] = y.getD []) (hk : etWriteL ks' = etWriteL ks)
    (he : ks' = [] ↔ ks = []) : etWrite (node t x' y' ks') = etWrite (node t x y ks) := by
  rw [etWrite, etWrite, hx, hy, hk]
  have : ks'.isEmpty = ks.isEmpty := by
    cases ks <;> cases ks' <;> simp_all
  rw [this]

theorem indentKids_nil_iff (l : Nat) (ks : List Elem) : indentKids l ks = [] ↔ ks = [] := by
  match ks with
  | [] => rw [indentKids]
  | [e] => rw [indentKids]; simp
  | e :: f :: r => rw [indentKids]; simp

theorem fixTail_node (l : Nat) (t : Str) (x y : Option Str) (ks : List Elem) : fixTail l (node t x y ks) = node t x (tailAt l y) ks := rfl

theorem tailAt_twice (l m : Nat) {y y' : Option Str} (h : (tailAt m y').getD [] = (tailAt m y).getD []) : (tailAt l (tailAt m y')).getD [] = (tailAt l (tailAt m y)).getD [] :=
  TailAlike.at (.inl h) l

mutual
/-- Elements that differ only in their layout are written alike. -/
theorem write_alike : ∀ (e e' : Elem) (l : Nat), Alike e e' → (l ≠ 0 ∨ e.kids ≠ []) → etWrite (indent l e') = etWrite (indent l e) ∧
    ∀ m, etWrite (fixTail m (indent l e')) = etWrite (fixTail m (indent l e))
  | node t x y ks, node t' x' y' ks', l, h, hl => by
    rw [Alike] at h
    obtain ⟨h1, h2, h3, h4⟩ := h
    dsimp only [Elem.tag, Elem.text, Elem.tail, Elem.kids] at h1 h2 h3 h4 hl
    subst h1
    have hn := alikeL_nil_iff h4
    rw [indent_eq l t' x y ks hl, indent_eq l t' x' y' ks' (hl.imp id (fun h hk => h (hn.1 hk)))]
    have hk := writeL_alike ks ks' l h4
    have he : indentKids l ks' = [] ↔ indentKids l ks = [] := by rw [indentKids_nil_iff, indentKids_nil_iff, hn]
    refine ⟨etWrite_congr (h2.at hn l) (h3.at l) hk he, fun m => ?_⟩
    rw [fixTail_node, fixTail_node]
    exact etWrite_congr (h2.at hn l) (tailAt_twice m l (h3.at l)) hk he
/-- The same for lists. -/
theorem writeL_alike : ∀ (ks ks' : List Elem) (l : Nat), AlikeL ks ks' → etWriteL (indentKids l ks') = etWriteL (indentKids l ks)
  | [], ks', l, h => by
    rw [AlikeL] at h
    subst h
    rfl
  | _ :: _, [], _, h => h.elim
  | [e], [e'], l, h => by
    rw [indentKids, indentKids, etWriteL, etWriteL, (write_alike e e' (l + 1) h.1 (.inl (by omega))).2 l]
    rfl
  | e :: f :: r, [e'], l, h => h.2.elim
  | [e], e' :: f' :: r', l, h => by
    have := h.2
    rw [AlikeL] at this
    cases this
  | e :: f :: r, e' :: f' :: r', l, h => by
    rw [indentKids, indentKids, etWriteL, etWriteL, (write_alike e e' (l + 1) h.1 (.inl (by omega))).1, writeL_alike (f :: r) (f' :: r') l h.2]
end

/-! ### Parsing -/

theorem tail_parsed {l : Nat} {y y' : Option Str} (hs : SafePlain (y.getD [])) (h : CharData ((tailAt l y).getD []) (y'.getD [])) : TailAlike y y' := by
  unfold tailAt at h
  split at h
  · rename_i hb
    have := (indentStr_safe l).1.parsed h
    exact .inr ⟨hb, (blank_getD (x := some (indentStr l)) this).trans (blank_indentStr l)⟩
  · exact .inl (hs.parsed h)

theorem tail_parsed2 {l m : Nat} {y y' : Option Str} (hs : SafePlain (y.getD [])) (h : CharData ((tailAt l (tailAt m y)).getD []) (y'.getD [])) : TailAlike y y' := by
  have hs' : SafePlain ((tailAt m y).getD []) := by
    unfold tailAt
    split
    · exact (indentStr_safe m).1
    · exact hs
  refine TailAlike.trans ?_ (tail_parsed hs' h)
  unfold tailAt
  split
  · rename_i hb
    exact .inr ⟨hb, blank_indentStr m⟩
  · exact .refl _

theorem text_parsed {l : Nat} {t : Str} {x x' : Option Str} {ks : List Elem} (ht : t ∈ cdataTags → ks = []) (hs : t ∉ cdataTags → SafePlain (x.getD [])) (h : ParsedText t (textAt l ks x) x') :
    TextAlike ks x x' := by
  have h := h.2
  by_cases hc : t ∈ cdataTags
  · rw [if_pos hc] at h
    unfold textAt at h
    rw [if_pos (ht hc)] at h
    exact .inl h
  · rw [if_neg hc] at h
    unfold textAt at h
    split at h
    · exact .inl ((hs hc).parsed h)
    · rename_i hk
      split at h
      · rename_i hb
        have := (indentStr_safe l).2.parsed h
        exact .inr ⟨hk, hb, (blank_getD (x := some (indentStr l ++ c!"  ")) this).trans (blank_indentStr2 l)⟩
      · exact .inl ((hs hc).parsed h)

theorem good_text {t : Str} {x y : Option Str} {ks : List Elem} (h : GoodTree SafePlain (node t x y ks)) : (t ∈ cdataTags → ks = []) ∧ (t ∉ cdataTags → SafePlain (x.getD [])) := by
  rw [GoodTree] at h
  constructor
  · intro ht
    have := h.2.1
    rw [if_pos ht] at this
    exact this.2
  · intro ht
    have := h.2.1
    rw [if_neg ht] at this
    exact this

mutual
/-- What is parsed of an indented element differs from it only in its layout. -/
theorem parsed_alike : ∀ (e e' : Elem) (l : Nat), GoodTree SafePlain e → Parsed (indent (l + 1) e) e' → TailAlike e.tail e'.tail → Alike e e'
  | node t x y ks, e', l, hg, hp, ht => by
    rw [indent_eq (l + 1) t x y ks (.inl (by omega))] at hp
    cases hp with
    | node _ _ x' _ y' _ ks' h1 h2 =>
      rw [alike_iff]
      refine ⟨rfl, text_parsed (good_text hg).1 (good_text hg).2 h1, ht, ?_⟩
      rw [GoodTree] at hg
      exact parsedL_alike ks ks' (l + 1) hg.2.2.2 h2
/-- The same for lists. -/
theorem parsedL_alike : ∀ (ks ks' : List Elem) (l : Nat), GoodTreeL SafePlain ks → ParsedL (indentKids l ks) ks' → AlikeL ks ks'
  | [], ks', l, _, h => by
    rw [indentKids] at h
    cases h
    rfl
  | [node t x y ks], ks', l, hg, h => by
    rw [indentKids] at h
    cases h with
    | cons _ e' _ r' p1 p2 p3 p4 =>
      cases p4
      rw [GoodTreeL] at hg
      have hy : SafePlain (y.getD []) := by
        have := hg.1
        rw [GoodTree] at this
        exact this.2.2.1
      refine ⟨?_, rfl⟩
      rw [indent_eq (l + 1) t x y ks (.inl (by omega)), fixTail_node] at p1 p2
      refine parsed_alike (node t x y ks) e' l hg.1 ?_ (tail_parsed2 hy p2)
      rw [indent_eq (l + 1) t x y ks (.inl (by omega))]
      cases p1 with
      | node _ _ x' _ y' _ ks' h1 h2 => exact .node _ _ _ _ _ _ _ h1 h2
  | node t x y ks :: f :: r, ks', l, hg, h => by
    rw [indentKids] at h
    cases h with
    | cons _ e' _ r' p1 p2 p3 p4 =>
      rw [GoodTreeL] at hg
      have hy : SafePlain (y.getD []) := by
        have := hg.1
        rw [GoodTree] at this
        exact this.2.2.1
      refine ⟨parsed_alike (node t x y ks) e' l hg.1 p1 ?_, parsedL_alike (f :: r) r' l hg.2 p4⟩
      rw [indent_eq (l + 1) t x y ks (.inl (by omega))] at p2
      exact tail_parsed hy p2
end

end Verif
