/-
The edits of element trees keep the texts of the tree carriable.
-/
import Verif.Spec.Disk
import Verif.Lemmas.Text4
import Verif.Lemmas.Yw7Root

namespace Verif
open Xml Elem Spec

theorem goodTreeL_iff (R : Str → Prop) (ks : List Elem) : GoodTreeL R ks ↔ ∀ e ∈ ks, GoodTree R e := by
  induction ks with
  | nil => simp [GoodTreeL]
  | cons e r ih => simp [GoodTreeL, ih]

mutual
theorem goodTree_mono {R Q : Str → Prop} (h : ∀ s, R s → Q s) : (e : Elem) → GoodTree R e → GoodTree Q e
  | node t x y ks, he => by
    rw [GoodTree] at he ⊢
    refine ⟨he.1, ?_, h _ he.2.2.1, goodTreeL_mono h ks he.2.2.2⟩
    have := he.2.1
    split
    · rename_i ht; rw [if_pos ht] at this; exact this
    · rename_i ht; rw [if_neg ht] at this; exact h _ this
theorem goodTreeL_mono {R Q : Str → Prop} (h : ∀ s, R s → Q s) : (ks : List Elem) → GoodTreeL R ks → GoodTreeL Q ks
  | [], _ => by rw [GoodTreeL]; trivial
  | e :: r, he => by
    rw [GoodTreeL] at he ⊢
    exact ⟨goodTree_mono h e he.1, goodTreeL_mono h r he.2⟩
end

mutual
theorem safeTree_of_good : (e : Elem) → GoodTree SafeRaw e → SafeTree e
  | node t x y ks, he => by
    rw [GoodTree] at he
    rw [SafeTree]
    exact ⟨he.1, he.2.1, he.2.2.1, safeTreeL_of_good ks he.2.2.2⟩
theorem safeTreeL_of_good : (ks : List Elem) → GoodTreeL SafeRaw ks → SafeTreeL ks
  | [], _ => by rw [SafeTreeL]; trivial
  | e :: r, he => by
    rw [GoodTreeL] at he
    rw [SafeTreeL]
    exact ⟨safeTree_of_good e he.1, safeTreeL_of_good r he.2⟩
end

theorem charData_plain' {s : Str} (h : ∀ c ∈ s, safeChar c ∧ c ≠ '<' ∧ c ≠ '>' ∧ c ≠ '&') : CharData s s := by
  induction s with
  | nil => exact .nil
  | cons c s ih =>
    have hc := h c (by simp)
    exact .char c hc.1.1 hc.2.1 hc.2.2.1 hc.2.2.2 hc.1.2.1 (ih (fun d hd => h d (by simp [hd])))

theorem Spec.SafePlain.raw {s : Str} (h : SafePlain s) : SafeRaw s :=
  ⟨fun c hc => (h.chars c hc).1, ⟨s, charData_plain' h.chars⟩, h.noOpen, h.noClose⟩

theorem not_infix_of_char {p s : Str} {c : Char} (hp : c ∈ p) (hs : c ∉ s) : ¬ p <:+: s := fun h => hs (h.mem hp)

theorem Spec.Simple.safePlain {s : Str} (h : Simple s) : SafePlain s := by
  refine ⟨?_, ?_, ?_⟩
  · intro c hc
    have := h c hc
    refine ⟨this.1, ?_, ?_, ?_⟩ <;> (rintro rfl; exact this.2 (by simp))
  · exact not_infix_of_char (c := '\n') (by decide) (fun hc => (h _ hc).2 (by simp))
  · exact not_infix_of_char (c := '\n') (by decide) (fun hc => (h _ hc).2 (by simp))

theorem safePlain_nil : SafePlain [] := Simple.safePlain (s := []) (by intro c hc; cases hc)

/-- A text without brackets and newlines is safe in a CDATA section. -/
theorem safeCdata_of_chars {s : Str} (h : ∀ c ∈ s, safeChar c ∧ c ≠ ']' ∧ c ≠ '\n') : SafeCdata s := by
  refine ⟨fun c hc => (h c hc).1, ?_, ?_, ?_⟩
  · exact not_infix_of_char (c := ']') (by decide) (fun hc => (h _ hc).2.1 rfl)
  · refine not_infix_of_char (c := '\n') (by decide) ?_
    intro hc
    rcases List.mem_append.1 hc with hc | hc
    · exact absurd hc (by decide)
    · exact (h _ hc).2.2 rfl
  · refine not_infix_of_char (c := '\n') (by decide) ?_
    intro hc
    rcases List.mem_append.1 hc with hc | hc
    · exact (h _ hc).2.2 rfl
    · exact absurd hc (by decide)

theorem Spec.Simple.safeCdata {s : Str} (h : Simple s) : SafeCdata s :=
  safeCdata_of_chars (fun c hc => ⟨(h c hc).1, fun e => (h c hc).2 (by simp [e]), fun e => (h c hc).2 (by simp [e])⟩)

theorem safeCdata_nil : SafeCdata [] := safeCdata_of_chars (by intro c hc; cases hc)

theorem Spec.Simple.append {a b : Str} (h : Simple a) (h' : Simple b) : Simple (a ++ b) := by
  intro c hc
  rcases List.mem_append.1 hc with hc | hc
  · exact h c hc
  · exact h' c hc

theorem Spec.Simple.cons {a : Char} {b : Str} (h : simpleChar a) (h' : Simple b) : Simple (a :: b) := by
  intro c hc
  rcases List.mem_cons.1 hc with rfl | hc
  · exact h
  · exact h' c hc

theorem Spec.Simple.sub {a b : Str} (h : Simple b) (hs : ∀ c ∈ a, c ∈ b) : Simple a := fun c hc => h c (hs c hc)

/-- Simple texts, decidable. -/
def simpleB (s : Str) : Bool := s.all (fun c => xmlLegal c && c != '\r' && c != '|' && !(['<', '>', '&', '[', ']', '\n'] : List Char).contains c)

theorem simple_of {s : Str} (h : simpleB s = true) : Simple s := by
  intro c hc
  have := List.all_eq_true.1 h c hc
  simp only [Bool.and_eq_true, bne_iff_ne, ne_eq, Bool.not_eq_true', List.contains_eq_mem, decide_eq_false_iff_not] at this
  exact ⟨⟨this.1.1.1, this.1.1.2, this.1.2⟩, this.2⟩

/-! ### Closure of good lists of elements -/

/-- The raw property: it holds for plain texts. -/
abbrev Raws (R : Str → Prop) : Prop := ∀ s, SafePlain s → R s

/-- The text `v` may stand in an element with the tag `t`. -/
def TextOk (R : Str → Prop) (t : Str) (v : Option Str) : Prop := IsName t ∧ if t ∈ cdataTags then SafeCdata (v.getD []) else R (v.getD [])

abbrev GoodL (R : Str → Prop) (ks : List Elem) : Prop := ∀ e ∈ ks, GoodTree R e

theorem GoodL.append {R : Str → Prop} {a b : List Elem} (h : GoodL R a) (h' : GoodL R b) : GoodL R (a ++ b) := by
  intro e he
  rcases List.mem_append.1 he with he | he
  · exact h e he
  · exact h' e he

theorem goodTree_leaf {R : Str → Prop} (hR : Raws R) {t : Str} {v : Option Str} (h : TextOk R t v) : GoodTree R (leaf t v) := by
  unfold leaf
  rw [GoodTree]
  refine ⟨h.1, ?_, hR _ safePlain_nil, trivial⟩
  have := h.2
  split
  · rename_i ht; rw [if_pos ht] at this; exact ⟨this, rfl⟩
  · rename_i ht; rw [if_neg ht] at this; exact this

theorem goodTree_node {R : Str → Prop} (hR : Raws R) {t : Str} {ks : List Elem} (ht : IsName t ∧ t ∉ cdataTags) (hk : GoodL R ks) : GoodTree R (node t none none ks) := by
  rw [GoodTree, if_neg ht.2]
  exact ⟨ht.1, hR _ safePlain_nil, hR _ safePlain_nil, (goodTreeL_iff R ks).2 hk⟩

theorem GoodL.one {R : Str → Prop} {e : Elem} (h : GoodTree R e) : GoodL R [e] := by
  intro x hx; rw [List.mem_singleton] at hx; exact hx ▸ h

theorem goodTree_setText {R : Str → Prop} {e : Elem} {v : Option Str} (he : GoodTree R e) (h : TextOk R e.tag v) : GoodTree R (setText v e) := by
  cases e with
  | node t x y ks =>
    rw [setText, GoodTree]
    rw [GoodTree] at he
    refine ⟨he.1, ?_, he.2.2⟩
    have h2 := h.2
    have h3 := he.2.1
    rw [tag_node] at h2
    split
    · rename_i ht
      rw [if_pos ht] at h2 h3
      exact ⟨h2, h3.2⟩
    · rename_i ht
      rw [if_neg ht] at h2
      exact h2

theorem goodTree_kids {R : Str → Prop} {e : Elem} (he : GoodTree R e) : GoodL R e.kids := by
  cases e with
  | node t x y ks =>
    rw [GoodTree] at he
    exact (goodTreeL_iff R ks).1 he.2.2.2

theorem goodTree_mapKids {R : Str → Prop} {e : Elem} {f : List Elem → List Elem} (he : GoodTree R e) (ht : e.tag ∉ cdataTags) (h : GoodL R (f e.kids)) : GoodTree R (mapKids f e) := by
  cases e with
  | node t x y ks =>
    rw [mapKids, GoodTree]
    rw [GoodTree] at he
    have h2 := he.2.1
    rw [tag_node] at ht
    rw [if_neg ht] at h2 ⊢
    exact ⟨he.1, h2, he.2.2.1, (goodTreeL_iff R _).2 h⟩

theorem mem_modFirst {t : Str} {f : Elem → Elem} {ks : List Elem} {e : Elem} (h : e ∈ modFirst t f ks) : e ∈ ks ∨ ∃ k ∈ ks, k.tag = t ∧ e = f k := by
  induction ks with
  | nil => cases h
  | cons k r ih =>
    rw [modFirst] at h
    split at h
    · rename_i hk
      rcases List.mem_cons.1 h with rfl | h
      · exact Or.inr ⟨k, by simp, hk, rfl⟩
      · exact Or.inl (by simp [h])
    · rcases List.mem_cons.1 h with rfl | h
      · exact Or.inl (by simp)
      · rcases ih h with h | ⟨k', h1, h2⟩
        · exact Or.inl (by simp [h])
        · exact Or.inr ⟨k', by simp [h1], h2⟩

theorem mem_removeFirst {t : Str} {ks : List Elem} {e : Elem} (h : e ∈ removeFirst t ks) : e ∈ ks := by
  induction ks with
  | nil => cases h
  | cons k r ih =>
    rw [removeFirst] at h
    split at h
    · simp [h]
    · rcases List.mem_cons.1 h with rfl | h
      · simp
      · simp [ih h]

theorem GoodL.removeFirst {R : Str → Prop} {ks : List Elem} (t : Str) (h : GoodL R ks) : GoodL R (removeFirst t ks) := fun e he => h e (mem_removeFirst he)

theorem GoodL.filter {R : Str → Prop} {ks : List Elem} (p : Elem → Bool) (h : GoodL R ks) : GoodL R (ks.filter p) := fun e he => h e (List.mem_filter.1 he).1

theorem GoodL.insertAt {R : Str → Prop} {ks : List Elem} {e : Elem} (i : Nat) (h : GoodL R ks) (he : GoodTree R e) : GoodL R (insertAt i e ks) := by
  intro x hx
  unfold Xml.insertAt at hx
  rcases List.mem_append.1 hx with hx | hx
  · exact h x (List.mem_of_mem_take hx)
  · rcases List.mem_cons.1 hx with rfl | hx
    · exact he
    · exact h x (List.mem_of_mem_drop hx)

theorem GoodL.setText {R : Str → Prop} {ks : List Elem} {t : Str} {v : Option Str} (h : GoodL R ks) (hv : TextOk R t v) : GoodL R (modFirst t (setText v) ks) := by
  intro e he
  rcases mem_modFirst he with he | ⟨k, h1, h2, rfl⟩
  · exact h e he
  · exact goodTree_setText (h k h1) (h2 ▸ hv)

theorem GoodL.onTag {R : Str → Prop} {ks : List Elem} {t : Str} {f : List Elem → List Elem} (ht : t ∉ cdataTags) (h : GoodL R ks) (hf : ∀ l, GoodL R l → GoodL R (f l)) :
    GoodL R (modFirst t (mapKids f) ks) := by
  intro e he
  rcases mem_modFirst he with he | ⟨k, h1, h2, rfl⟩
  · exact h e he
  · exact goodTree_mapKids (h k h1) (h2 ▸ ht) (hf _ (goodTree_kids (h k h1)))

theorem GoodL.leaf {R : Str → Prop} (hR : Raws R) {ks : List Elem} {t : Str} {v : Option Str} (h : GoodL R ks) (hv : TextOk R t v) : GoodL R (ks ++ [Elem.leaf t v]) :=
  h.append (.one (goodTree_leaf hR hv))

theorem GoodL.putText {R : Str → Prop} (hR : Raws R) {ks : List Elem} {t : Str} {v : Option Str} (hv : TextOk R t v) (h : GoodL R ks) : GoodL R (putText t v ks) := by
  unfold Verif.putText
  split
  · exact h
  · split
    · exact h.setText hv
    · split
      · exact h
      · exact h.leaf hR hv

theorem GoodL.putAlways {R : Str → Prop} (hR : Raws R) {ks : List Elem} {t : Str} {v : Option Str} (hv : TextOk R t v) (h : GoodL R ks) : GoodL R (putAlways t v ks) := by
  unfold Verif.putAlways
  split
  · exact h
  · split
    · exact h.setText hv
    · exact h.leaf hR hv

theorem GoodL.putNew {R : Str → Prop} (hR : Raws R) {ks : List Elem} {t : Str} {v : Option Str} (hv : TextOk R t v) (h : GoodL R ks) : GoodL R (putNew t v ks) := by
  unfold Verif.putNew
  split
  · exact h
  · exact h.leaf hR hv

theorem GoodL.addMissing {R : Str → Prop} (hR : Raws R) {ks : List Elem} {t : Str} {v : Option Str} (hv : TextOk R t v) (h : GoodL R ks) : GoodL R (addMissing t v ks) := by
  unfold Verif.addMissing
  split
  · exact h
  · exact h.leaf hR hv

theorem GoodL.setElement {R : Str → Prop} (hR : Raws R) {p : List Elem × Nat} {t : Str} {v : Option Str} (hv : TextOk R t v) (h : GoodL R p.1) : GoodL R (setElement t v p).1 := by
  unfold Verif.setElement
  split
  · exact h
  · split
    · exact h.setText hv
    · exact h.insertAt _ (goodTree_leaf hR hv)

theorem GoodL.putFlag {R : Str → Prop} (hR : Raws R) {ks : List Elem} {t : Str} (b : Bool) (hv : TextOk R t (some c!"-1")) (h : GoodL R ks) : GoodL R (putFlag t b ks) := by
  unfold Verif.putFlag
  split
  · split
    · exact h
    · exact h.leaf hR hv
  · exact h.removeFirst t

theorem GoodL.putIds {R : Str → Prop} (hR : Raws R) {ks : List Elem} {t sub : Str} {ids : List Str} (ht : IsName t ∧ t ∉ cdataTags) (hs : IsName sub ∧ sub ∉ cdataTags)
    (hi : ∀ i ∈ ids, Simple i) (h : GoodL R ks) : GoodL R (putIds t sub ids ks) := by
  unfold Verif.putIds
  split
  · exact h.removeFirst t
  · refine (h.removeFirst t).append (.one (goodTree_node hR ht ?_))
    intro e he
    obtain ⟨i, h1, rfl⟩ := List.mem_map.1 he
    exact goodTree_leaf hR ⟨hs.1, by rw [if_neg hs.2]; exact hR _ (hi i h1).safePlain⟩

theorem fields_ok : IsName c!"Fields" ∧ c!"Fields" ∉ cdataTags := by
  refine ⟨⟨by decide, ?_⟩, by decide⟩
  decide

theorem GoodL.onFields {R : Str → Prop} {ks : List Elem} {f : List Elem → List Elem} (hf : ∀ l, GoodL R l → GoodL R (f l)) (h : GoodL R ks) : GoodL R (onFields f ks) :=
  h.onTag fields_ok.2 hf

theorem GoodL.ensureFields {R : Str → Prop} (hR : Raws R) {ks : List Elem} (h : GoodL R ks) : GoodL R (ensureFields ks) := by
  unfold Verif.ensureFields
  split
  · exact h
  · exact h.append (.one (goodTree_node hR fields_ok (by intro e he; cases he)))

theorem GoodL.putCustom {R : Str → Prop} (hR : Raws R) {ks : List Elem} {t : Str} {v : Option Str} (hv : ∀ s, v = some s → TextOk R t (some (ywConvert (some s)))) (h : GoodL R ks) :
    GoodL R (putCustom t v ks) := by
  unfold Verif.putCustom
  split
  · exact h.onFields (fun l hl => hl.removeFirst t)
  · exact h.onFields (fun l hl => hl.removeFirst t)
  · exact (h.ensureFields hR).onFields (fun l hl => hl.putAlways hR (hv _ rfl))

/-! ### Pretty printing -/

theorem indentStr_safe (l : Nat) : SafePlain (indentStr l) ∧ SafePlain (indentStr l ++ c!"  ") := by
  have key : ∀ n, SafePlain ('\n' :: List.replicate n ' ') := by
    intro n
    refine ⟨?_, ?_, ?_⟩
    · intro c hc
      rcases List.mem_cons.1 hc with rfl | hc
      · refine ⟨⟨by decide, by decide, by decide⟩, by decide, by decide, by decide⟩
      · rw [(List.mem_replicate.1 hc).2]
        refine ⟨⟨by decide, by decide, by decide⟩, by decide, by decide, by decide⟩
    · refine not_infix_of_char (c := '[') (by decide) ?_
      intro hc
      rcases List.mem_cons.1 hc with hc | hc
      · exact absurd hc (by decide)
      · exact absurd (List.mem_replicate.1 hc).2 (by decide)
    · refine not_infix_of_char (c := ']') (by decide) ?_
      intro hc
      rcases List.mem_cons.1 hc with hc | hc
      · exact absurd hc (by decide)
      · exact absurd (List.mem_replicate.1 hc).2 (by decide)
  refine ⟨key _, ?_⟩
  have : indentStr l ++ c!"  " = '\n' :: List.replicate (2 * l + 2) ' ' := by
    unfold indentStr
    rw [List.cons_append, show (c!"  " : Str) = List.replicate 2 ' ' from rfl, ← List.replicate_append_replicate]
  rw [this]
  exact key _

theorem goodTree_fixTail {R : Str → Prop} (hR : Raws R) (l : Nat) {e : Elem} (h : GoodTree R e) : GoodTree R (fixTail l e) := by
  cases e with
  | node t x y ks =>
    rw [fixTail, GoodTree]
    rw [GoodTree] at h
    refine ⟨h.1, h.2.1, ?_, h.2.2.2⟩
    split
    · exact hR _ (indentStr_safe l).1
    · exact h.2.2.1

mutual
theorem goodTree_indent {R : Str → Prop} (hR : Raws R) (l : Nat) : (e : Elem) → GoodTree R e → GoodTree R (indent l e)
  | node t x y [], h => by
    rw [indent, GoodTree]
    rw [GoodTree] at h
    refine ⟨h.1, h.2.1, ?_, h.2.2.2⟩
    split
    · exact hR _ (indentStr_safe l).1
    · exact h.2.2.1
  | node t x y (k :: ks), h => by
    rw [indent, GoodTree]
    rw [GoodTree] at h
    have h2 := h.2.1
    by_cases ht : t ∈ cdataTags
    · rw [if_pos ht] at h2
      exact absurd h2.2 (by simp)
    · rw [if_neg ht] at h2 ⊢
      refine ⟨h.1, ?_, ?_, goodTreeL_indent hR l (k :: ks) h.2.2.2⟩
      · split
        · exact hR _ (indentStr_safe l).2
        · exact h2
      · split
        · exact hR _ (indentStr_safe l).1
        · exact h.2.2.1
theorem goodTreeL_indent {R : Str → Prop} (hR : Raws R) (l : Nat) : (ks : List Elem) → GoodTreeL R ks → GoodTreeL R (indentKids l ks)
  | [], h => by rw [indentKids]; exact h
  | [e], h => by
    rw [indentKids]
    rw [GoodTreeL] at h ⊢
    exact ⟨goodTree_fixTail hR l (goodTree_indent hR (l + 1) e h.1), h.2⟩
  | e :: f :: r, h => by
    rw [indentKids]
    rw [GoodTreeL] at h ⊢
    exact ⟨goodTree_indent hR (l + 1) e h.1, goodTreeL_indent hR l (f :: r) h.2⟩
end

end Verif
