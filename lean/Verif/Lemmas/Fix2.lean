/-
Saving a scene a second time has no effect on its element, apart from the layout.
-/
import Verif.Lemmas.Fix1

namespace Verif
open Xml Spec Elem

/-! ### What is there after saving -/

theorem find_sel_cons {t : Str} {o : List Elem} {e : Elem} {r : List Elem} (h : sel t o = e :: r) : find t o = some e := by
  rw [find_eq, h]
  rfl

theorem hasTag_sel_nil {t : Str} {o : List Elem} (h : sel t o = []) : hasTag t o = false := by
  rw [hasTag_eq, h]
  rfl

theorem text_fact {t : Str} {v : Option Str} {o l : List Elem} (h : sel t o = textSel t v l) : ∀ w, v = some w → HasText t w o ∨ (hasTag t o = false ∧ w = []) := by
  intro w hw
  subst hw
  cases l with
  | nil =>
    by_cases h0 : w = []
    · right
      subst h0
      exact ⟨hasTag_sel_nil h, rfl⟩
    · left
      have : textSel t (some w) [] = [leaf t (some w)] := if_neg h0
      rw [this] at h
      exact ⟨_, find_sel_cons h, .inl rfl⟩
  | cons e r =>
    left
    refine ⟨_, find_sel_cons h, ?_⟩
    rw [text_setText]
    exact .refl _ _

theorem always_fact {t : Str} {v : Option Str} {o l : List Elem} (h : sel t o = alwaysSel t v l) : ∀ w, v = some w → HasText t w o := by
  intro w hw
  subst hw
  cases l with
  | nil => exact ⟨_, find_sel_cons h, .inl rfl⟩
  | cons e r =>
    refine ⟨_, find_sel_cons h, ?_⟩
    rw [text_setText]
    exact .refl _ _

theorem missSel_ne {t : Str} {v : Option Str} {l : List Elem} : missSel t v l ≠ [] := by
  cases l <;> simp [missSel]

theorem miss_fact {t : Str} {v : Option Str} {o l : List Elem} (h : sel t o = missSel t v l) : hasTag t o = true := by
  rw [hasTag_iff, h]
  exact missSel_ne

theorem tail_once {l : List Elem} (h : l.length ≤ 1) : l.tail = [] := by
  match l with
  | [] => rfl
  | [_] => rfl
  | _ :: _ :: _ => simp at h

theorem flag_fact {t : Str} {b : Bool} {o l : List Elem} (h : sel t o = flagSel t b l) (hl : l.length ≤ 1) : hasTag t o = b := by
  cases b with
  | true => exact miss_fact h
  | false =>
    apply hasTag_sel_nil
    rw [h]
    exact tail_once hl

theorem custom_fact {field : Str} {v : Option Str} {o : List Elem} {fk : List Elem} (h : sel field (headKids (sel c!"Fields" o)) = sel field (customKids field v fk))
    (hF : v.getD [] ≠ [] → sel c!"Fields" o ≠ []) (ho : (sel field fk).length ≤ 1) : HasCustom field v o := by
  unfold HasCustom
  have hh : ∀ F, find c!"Fields" o = some F → headKids (sel c!"Fields" o) = F.kids := by
    intro F hF
    rw [find_eq] at hF
    cases hs : sel c!"Fields" o with
    | nil => rw [hs] at hF; cases hF
    | cons e r =>
      rw [hs] at hF
      cases hF
      rfl
  split
  · rename_i h0
    intro F hF
    rw [hh F hF] at h
    apply hasTag_sel_nil
    rw [h]
    have : customKids field v fk = removeFirst field fk := by
      cases v with
      | none => rfl
      | some w =>
        dsimp only [Option.getD] at h0
        subst h0
        rfl
    rw [this, sel_removeFirst_self]
    exact tail_once ho
  · rename_i h0
    cases hs : sel c!"Fields" o with
    | nil => exact absurd hs (hF h0)
    | cons F r =>
      refine ⟨F, find_sel_cons hs, ?_⟩
      rw [hs] at h
      have : customKids field v fk = putAlways field (some (ywConvert v)) fk := by
        cases v with
        | none => exact absurd rfl h0
        | some w =>
          cases w with
          | nil => exact absurd rfl h0
          | cons => rfl
      rw [this, sel_putAlways] at h
      exact always_fact h _ rfl

/-! ### Lists -/

theorem removeFirst_append_left {t : Str} {a b : List Elem} (h : sel t a = []) : removeFirst t (a ++ b) = a ++ removeFirst t b := by
  induction a with
  | nil => rfl
  | cons e r ih =>
    unfold sel at h ih
    rw [List.filter_cons] at h
    split at h
    · cases h
    · rename_i he
      rw [List.cons_append, removeFirst, if_neg (by simpa using he), ih h]
      rfl

theorem removeFirst_append_right {t : Str} {a b : List Elem} (h : sel t b = []) : removeFirst t (a ++ b) = removeFirst t a ++ b := by
  induction a with
  | nil => exact removeFirst_of_none h
  | cons e r ih =>
    rw [List.cons_append, removeFirst, removeFirst]
    split
    · rfl
    · rw [ih]; rfl

theorem modFirst_none {t : Str} {f : Elem → Elem} {a : List Elem} (h : sel t a = []) : modFirst t f a = a := by
  induction a with
  | nil => rfl
  | cons e r ih =>
    unfold sel at h ih
    rw [List.filter_cons] at h
    split at h
    · cases h
    · rename_i he
      rw [modFirst, if_neg (by simpa using he), ih h]

theorem modFirst_append_right {t : Str} {f : Elem → Elem} {a b : List Elem} (h : sel t b = []) : modFirst t f (a ++ b) = modFirst t f a ++ b := by
  induction a with
  | nil => exact modFirst_none h
  | cons e r ih =>
    rw [List.cons_append, modFirst, modFirst]
    split
    · rfl
    · rw [ih]; rfl

theorem modFirst_setText_twice (t : Str) (v : Option Str) (a : List Elem) : modFirst t (setText v) (modFirst t (setText v) a) = modFirst t (setText v) a := by
  induction a with
  | nil => rfl
  | cons e r ih =>
    rw [modFirst]
    split
    · rename_i h
      rw [modFirst, if_pos (by rw [tag_setText]; exact h)]
      cases e
      rfl
    · rename_i h
      rw [modFirst, if_neg h, ih]

/-- The element for a list of IDs. -/
def idList (t sub : Str) (ids : List Str) : List Elem := if ids = [] then [] else [node t none none (ids.map (fun i => leaf sub (some i)))]

theorem putIds_eq (t sub : Str) (ids : List Str) (ks : List Elem) : putIds t sub ids ks = removeFirst t ks ++ idList t sub ids := by
  unfold putIds idList
  split
  · simp
  · rfl

theorem sel_idList_ne {t u sub : Str} {ids : List Str} (h : u ≠ t) : sel u (idList t sub ids) = [] := by
  unfold idList
  split
  · rfl
  · unfold sel
    rw [List.filter_cons, if_neg (by rw [decide_eq_true_eq]; exact Ne.symm h)]
    rfl

theorem removeFirst_idList (t sub : Str) (ids : List Str) {b : List Elem} (h : sel t b = []) : removeFirst t (idList t sub ids ++ b) = b := by
  unfold idList
  split
  · exact removeFirst_of_none h
  · rw [List.cons_append, removeFirst, if_pos (by rfl)]
    rfl

theorem sel_app (t : Str) (a b : List Elem) : sel t (a ++ b) = sel t a ++ sel t b := List.filter_append ..

theorem AlikeL.putIds {o k : List Elem} (h : AlikeL o k) (t sub : Str) (ids : List Str) : AlikeL (Verif.putIds t sub ids o) (Verif.putIds t sub ids k) := by
  rw [putIds_eq, putIds_eq]
  exact (h.removeFirst t).append (.refl _)

theorem AlikeL.setTextBoth {o k : List Elem} (h : AlikeL o k) (t : Str) (v : Option Str) : AlikeL (Xml.modFirst t (Elem.setText v) o) (Xml.modFirst t (Elem.setText v) k) := by
  induction o generalizing k with
  | nil => rw [AlikeL] at h; subst h; exact rfl
  | cons e r ih => cases k with
    | nil => exact h.elim
    | cons g s =>
      rw [Xml.modFirst, Xml.modFirst, h.1.tag]
      split
      · refine ⟨?_, h.2⟩
        have := h.1
        rw [alike_iff] at this ⊢
        cases e
        cases g
        exact ⟨this.1, .refl _ _, this.2.2⟩
      · exact ⟨h.1, ih h.2⟩

theorem AlikeL.finishScene {o k : List Elem} (h : AlikeL o k) (c : Option Str) : AlikeL (Verif.finishScene c o) (Verif.finishScene c k) := by
  unfold Verif.finishScene
  refine AlikeL.removeFirst (AlikeL.removeFirst (AlikeL.removeFirst (AlikeL.removeFirst ?_ _) _) _) _
  cases c with
  | none => exact h
  | some c => exact h.setTextBoth _ _

/-- The elements that are removed from every scene. -/
def droppedScene : List Str := [c!"WordCount", c!"LetterCount", c!"RTFFile", c!"BelongsToChID"]

/-- The content is set at the end. -/
def putContent (c : Option Str) (a : List Elem) : List Elem := match c with | none => a | some c => modFirst c!"SceneContent" (setText (some c)) a

theorem finishScene_eq (c : Option Str) (a : List Elem) : finishScene c a = removeFirst c!"BelongsToChID" (removeFirst c!"RTFFile" (removeFirst c!"LetterCount" (removeFirst c!"WordCount" (putContent c a)))) := by
  cases c <;> rfl

theorem finishScene_append (c : Option Str) {a b : List Elem} (h : ∀ t ∈ c!"SceneContent" :: droppedScene, sel t b = []) : finishScene c (a ++ b) = finishScene c a ++ b := by
  have e : putContent c (a ++ b) = putContent c a ++ b := by
    cases c with
    | none => rfl
    | some c => exact modFirst_append_right (h _ (by decide))
  rw [finishScene_eq, finishScene_eq, e, removeFirst_append_right (h c!"WordCount" (by decide)), removeFirst_append_right (h c!"LetterCount" (by decide)),
    removeFirst_append_right (h c!"RTFFile" (by decide)), removeFirst_append_right (h c!"BelongsToChID" (by decide))]

/-- A list to which the last pass has been applied. -/
theorem finishScene_twice (c : Option Str) {a : List Elem} (h : ∀ t ∈ droppedScene, (sel t a).length ≤ 1) :
    (∀ t ∈ droppedScene, sel t (finishScene c a) = []) ∧ finishScene c (finishScene c a) = finishScene c a := by
  have h1 : ∀ t ∈ droppedScene, sel t (finishScene c a) = [] := by
    have hs : ∀ t ∈ droppedScene, sel t (putContent c a) = sel t a := by
      intro t ht
      cases c with
      | none => rfl
      | some c =>
        refine sel_setText_ne ?_ _ _
        revert t
        decide
    intro t ht
    have hl := tail_once (h t ht)
    have hs := hs t ht
    rw [finishScene_eq]
    revert hs hl
    generalize putContent c a = b
    intro hl hs
    simp only [droppedScene, List.mem_cons, List.not_mem_nil, or_false] at ht
    rcases ht with rfl | rfl | rfl | rfl
    · rw [sel_removeFirst_ne (by decide), sel_removeFirst_ne (by decide), sel_removeFirst_ne (by decide), sel_removeFirst_self, hs, hl]
    · rw [sel_removeFirst_ne (by decide), sel_removeFirst_ne (by decide), sel_removeFirst_self, sel_removeFirst_ne (by decide), hs, hl]
    · rw [sel_removeFirst_ne (by decide), sel_removeFirst_self, sel_removeFirst_ne (by decide), sel_removeFirst_ne (by decide), hs, hl]
    · rw [sel_removeFirst_self, sel_removeFirst_ne (by decide), sel_removeFirst_ne (by decide), sel_removeFirst_ne (by decide), hs, hl]
  refine ⟨h1, ?_⟩
  have hm : putContent c (finishScene c a) = finishScene c a := by
    cases c with
    | none => rfl
    | some c' =>
      show modFirst c!"SceneContent" (setText (some c')) (finishScene (some c') a) = finishScene (some c') a
      have hcomm : ∀ (t : Str), t ≠ c!"SceneContent" → ∀ l, modFirst c!"SceneContent" (setText (some c')) (removeFirst t l) = removeFirst t (modFirst c!"SceneContent" (setText (some c')) l) := by
        intro t ht l
        induction l with
        | nil => rfl
        | cons e r ih =>
          rw [removeFirst, modFirst]
          split
          · rename_i he
            rw [if_neg (by rw [he]; exact ht), removeFirst, if_pos he]
          · rename_i he
            rw [modFirst]
            split
            · rw [removeFirst, if_neg (by rw [tag_setText]; exact he)]
            · rw [removeFirst, if_neg he, ih]
      unfold finishScene
      dsimp only
      rw [hcomm _ (by decide), hcomm _ (by decide), hcomm _ (by decide), hcomm _ (by decide), modFirst_setText_twice]
  rw [finishScene_eq c (finishScene c a), hm, removeFirst_of_none (h1 c!"WordCount" (by decide)), removeFirst_of_none (h1 c!"LetterCount" (by decide)),
    removeFirst_of_none (h1 c!"RTFFile" (by decide)), removeFirst_of_none (h1 c!"BelongsToChID" (by decide))]

end Verif
