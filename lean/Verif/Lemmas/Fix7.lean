/-
The sections of the project tree on the second saving: the same, except for the layout.
-/
import Verif.Lemmas.Fix6
import Verif.Lemmas.Yw7Project

namespace Verif
open Xml Spec Elem

/-- Sections that differ only in their layout; those with a tag in `D` may have other children. -/
def RelE (D : List Str) (e e' : Elem) : Prop := e'.tag = e.tag ∧ TextAlike e.kids e.text e'.text ∧ TailAlike e.tail e'.tail ∧ (e.tag ∉ D → AlikeL e.kids e'.kids)

/-- The same for lists. -/
def RelL (D : List Str) : List Elem → List Elem → Prop
  | [], l => l = []
  | _ :: _, [] => False
  | e :: r, e' :: r' => RelE D e e' ∧ RelL D r r'

theorem RelL.mono {D D' : List Str} {o k : List Elem} (hD : ∀ e ∈ o, e.tag ∈ D → e.tag ∈ D') (h : RelL D o k) : RelL D' o k := by
  induction o generalizing k with
  | nil => exact h
  | cons e r ih => cases k with
    | nil => exact h.elim
    | cons e' r' => exact ⟨⟨h.1.1, h.1.2.1, h.1.2.2.1, fun hn => h.1.2.2.2 (fun h0 => hn (hD e List.mem_cons_self h0))⟩, ih (fun x hx => hD x (List.mem_cons_of_mem _ hx)) h.2⟩

theorem RelL.find {D : List Str} {o k : List Elem} (h : RelL D o k) {t : Str} {e : Elem} (hf : Xml.find t o = some e) : ∃ e', Xml.find t k = some e' ∧ RelE D e e' := by
  induction o generalizing k with
  | nil => cases hf
  | cons a r ih => cases k with
    | nil => exact h.elim
    | cons a' r' =>
      unfold Xml.find at hf ⊢
      rw [List.find?_cons] at hf ⊢
      rw [h.1.1]
      by_cases ht : a.tag = t
      · rw [decide_eq_true ht] at hf ⊢
        cases hf
        exact ⟨a', rfl, h.1⟩
      · rw [decide_eq_false ht] at hf ⊢
        exact ih h.2 hf

theorem RelL.hasTag {D : List Str} {o k : List Elem} (h : RelL D o k) (t : Str) : Verif.hasTag t k = Verif.hasTag t o := by
  induction o generalizing k with
  | nil => rw [RelL] at h; subst h; rfl
  | cons a r ih => cases k with
    | nil => exact h.elim
    | cons a' r' =>
      have := ih h.2
      unfold Verif.hasTag Xml.find at this ⊢
      rw [List.find?_cons, List.find?_cons, h.1.1]
      by_cases ht : a.tag = t
      · rw [decide_eq_true ht]; rfl
      · rw [decide_eq_false ht]; exact this

theorem RelL.modFirst {D : List Str} {o k : List Elem} (h : RelL D o k) {t : Str} (ht : t ∈ D) (ks : List Elem) : RelL D o (Xml.modFirst t (mapKids (fun _ => ks)) k) := by
  induction o generalizing k with
  | nil => rw [RelL] at h; subst h; exact rfl
  | cons a r ih => cases k with
    | nil => exact h.elim
    | cons a' r' =>
      unfold Xml.modFirst
      by_cases he : a'.tag = t
      · rw [if_pos he]
        refine ⟨⟨?_, ?_, ?_, ?_⟩, h.2⟩
        · rw [← h.1.1]; cases a'; rfl
        · have := h.1.2.1; cases a'; exact this
        · have := h.1.2.2.1; cases a'; exact this
        · intro hn
          rw [← h.1.1, he] at hn
          exact absurd ht hn
      · rw [if_neg he]
        exact ⟨h.1, ih h.2⟩

theorem RelL.onSection {D : List Str} {o k k' : List Elem} (h : RelL D o k) {t : Str} (ht : t ∈ D) {f : List Elem → Except Exc (List Elem)} (hs : Verif.onSection t f k = .ok k') : RelL D o k' := by
  obtain ⟨e, ks, _, _, rfl⟩ := onSection_eq hs
  exact h.modFirst ht ks

theorem removeFirst_noop {t : Str} {k : List Elem} (h : hasTag t k = false) : removeFirst t k = k := by
  have hs := hasTag_false_sel h
  induction k with
  | nil => rfl
  | cons e r ih =>
    rw [sel, List.filter_cons] at hs
    by_cases he : e.tag = t
    · rw [if_pos (by simpa using he)] at hs; cases hs
    · rw [if_neg (by simpa using he)] at hs
      unfold removeFirst
      rw [if_neg he, ih ?_ hs]
      unfold hasTag Xml.find at h ⊢
      rw [List.find?_cons, decide_eq_false he] at h
      exact h

/-- The tags of the sections that are written. -/
def writtenTags : List Str := [c!"PROJECT", c!"LOCATIONS", c!"ITEMS", c!"CHARACTERS", c!"PROJECTNOTES", c!"PROJECTVARS", c!"SCENES", c!"CHAPTERS"]

/-- On the second saving, only the contents of the sections are replaced. -/
theorem root_same {sl sc : Str} {n : Novel} {o k k' : List Elem} (h : RelL writtenTags o k) (hb : buildRoot sl sc n k = .ok k')
    (hn : hasTag c!"PROJECTNOTES" o = true ↔ n.srtPrjNotes ≠ [])
    (hv : ¬ ((n.languages.getD []) = [] ∧ falsy n.languageCode ∧ falsy n.countryCode) → hasTag c!"PROJECTVARS" o = true) : RelL writtenTags o k' := by
  unfold buildRoot at hb
  obtain ⟨r1, h1, hb⟩ := bind_ok hb
  obtain ⟨r2, h2, hb⟩ := bind_ok hb
  obtain ⟨r3, h3, hb⟩ := bind_ok hb
  obtain ⟨r4, h4, hb⟩ := bind_ok hb
  obtain ⟨r5, h5, hb⟩ := bind_ok hb
  obtain ⟨r6, h6, hb⟩ := bind_ok hb
  obtain ⟨r7, h7, hb⟩ := bind_ok hb
  obtain ⟨r8, h8, hb⟩ := bind_ok hb
  have a4 : RelL writtenTags o r4 := (((h.onSection (by decide) h1).onSection (by decide) h2).onSection (by decide) h3).onSection (by decide) h4
  have a5 : RelL writtenTags o r5 := by
    unfold buildNotes at h5
    split at h5
    · rename_i h0
      cases h5
      rw [removeFirst_noop]
      · exact a4
      · rw [a4.hasTag]
        exact Bool.eq_false_iff.2 (fun h' => hn.1 h' h0)
    · rename_i h0
      rw [if_pos ((a4.hasTag _).trans (hn.2 h0))] at h5
      exact a4.onSection (by decide) h5
  have a6 : RelL writtenTags o r6 := by
    unfold buildProjectVars at h6
    split at h6
    · cases h6; exact a5
    · rename_i h0
      dsimp only at h6
      rw [if_pos ((a5.hasTag _).trans (hv h0))] at h6
      exact a5.onSection (by decide) h6
  exact ((a6.onSection (by decide) h7).onSection (by decide) h8).onSection (by decide) hb

/-- If the contents are alike, too, everything is. -/
theorem RelL.alike {D : List Str} {o k : List Elem} (h : RelL D o k) (ho : ∀ t ∈ D, (Xml.sel t o).length ≤ 1)
    (hs : ∀ t ∈ D, ∀ e e', Xml.find t o = some e → Xml.find t k = some e' → AlikeL e.kids e'.kids) : AlikeL o k := by
  induction o generalizing k D with
  | nil => exact h
  | cons a r ih => cases k with
    | nil => exact h.elim
    | cons a' r' =>
      have hrest : AlikeL r r' := by
        refine ih (D := D.filter (fun t => decide (t ≠ a.tag))) ?_ ?_ ?_
        · refine h.2.mono (fun x hx hd => List.mem_filter.2 ⟨hd, ?_⟩)
          rw [decide_eq_true_eq]
          intro h0
          have := ho a.tag (h0 ▸ hd)
          rw [Xml.sel, List.filter_cons, if_pos (by simp)] at this
          have hm : x ∈ r.filter (fun e => decide (e.tag = a.tag)) := List.mem_filter.2 ⟨hx, by simpa using h0⟩
          cases hr : r.filter (fun e => decide (e.tag = a.tag)) with
          | nil => rw [hr] at hm; cases hm
          | cons y ys => rw [hr] at this; simp at this
        · intro t ht
          have := ho t (List.mem_filter.1 ht).1
          rw [Xml.sel, List.filter_cons] at this
          split at this
          · exact Nat.le_of_succ_le this
          · exact this
        · intro t ht e e' h1 h2
          obtain ⟨t1, t2⟩ := List.mem_filter.1 ht
          rw [decide_eq_true_eq] at t2
          refine hs t t1 e e' ?_ ?_
          · unfold Xml.find at h1 ⊢; rw [List.find?_cons, decide_eq_false (Ne.symm t2)]; exact h1
          · unfold Xml.find at h2 ⊢; rw [List.find?_cons, h.1.1, decide_eq_false (Ne.symm t2)]; exact h2
      refine ⟨alike_iff.2 ⟨h.1.1, h.1.2.1, h.1.2.2.1, ?_⟩, hrest⟩
      by_cases hd : a.tag ∈ D
      · refine hs a.tag hd a a' ?_ ?_
        · unfold Xml.find; rw [List.find?_cons, decide_eq_true rfl]
        · unfold Xml.find; rw [List.find?_cons, decide_eq_true h.1.1]
      · exact h.1.2.2.2 hd

end Verif
