/-
Saving an unchanged chapter element, or the unchanged description of the project, once more does not change it.
-/
import Verif.Lemmas.Fix3

namespace Verif
open Xml Spec Elem

theorem find_headKids {o : List Elem} {F : Elem} (h : find c!"Fields" o = some F) : headKids (sel c!"Fields" o) = F.kids := by
  rw [find_eq] at h
  cases hx : sel c!"Fields" o with
  | nil => rw [hx] at h; cases h
  | cons e r => rw [hx] at h; cases h; rfl

theorem fields_of_kids {t : Str} {o : List Elem} (h : sel t (headKids (sel c!"Fields" o)) ≠ []) : ∃ F, find c!"Fields" o = some F ∧ sel t F.kids = sel t (headKids (sel c!"Fields" o)) := by
  cases hx : sel c!"Fields" o with
  | nil => rw [hx] at h; exact absurd rfl h
  | cons F r => exact ⟨F, find_sel_cons hx, rfl⟩

/-- A flag of a chapter is there already, or it need not be. -/
def HasFlag (field : Str) (b : Bool) (o : List Elem) : Prop :=
  if b then ∃ F, find c!"Fields" o = some F ∧ HasText field c!"1" F.kids
  else ∀ F, find c!"Fields" o = some F → hasTag field F.kids = false ∨ HasText field c!"0" F.kids

theorem alwaysSel_ne {t : Str} {w : Str} {l : List Elem} : alwaysSel t (some w) l ≠ [] := by
  cases l <;> exact List.cons_ne_nil _ _

theorem always_fields {field : Str} {w : Str} {o l : List Elem} (h : sel field (headKids (sel c!"Fields" o)) = alwaysSel field (some w) l) :
    ∃ F, find c!"Fields" o = some F ∧ HasText field w F.kids := by
  obtain ⟨F, hF, hs⟩ := fields_of_kids (t := field) (o := o) (by rw [h]; exact alwaysSel_ne)
  exact ⟨F, hF, always_fact (hs.trans h) w rfl⟩

theorem chField_fact {field : Str} {b : Bool} {o fk : List Elem} (h : sel field (headKids (sel c!"Fields" o)) = sel field (chFieldKids field b fk)) : HasFlag field b o := by
  unfold HasFlag
  cases b with
  | true =>
    rw [if_pos rfl]
    refine always_fields (l := sel field fk) (h.trans ?_)
    exact sel_putAlways field (some c!"1") fk
  | false =>
    rw [if_neg (by decide)]
    intro F hF
    rw [find_headKids hF] at h
    have e : chFieldKids field false fk = if hasTag field fk then modFirst field (setText (some c!"0")) fk else fk := rfl
    rw [e] at h
    split at h
    · rename_i ht
      right
      rw [sel_setText] at h
      rw [hasTag_iff] at ht
      cases hx : sel field fk with
      | nil => exact absurd hx ht
      | cons a r =>
        rw [hx] at h
        refine ⟨_, find_sel_cons h, .inl ?_⟩
        rw [setText_text]
    · rename_i ht
      left
      rw [hasTag_iff] at ht
      exact hasTag_sel_nil (h.trans (Classical.not_not.1 ht))

theorem AlikeL.putChField {o k : List Elem} (h : AlikeL o k) {field : Str} {b : Bool} (i : Nat) (hv : HasFlag field b o) : AlikeL o (Verif.putChField field b i k) := by
  unfold HasFlag at hv
  unfold Verif.putChField
  cases b with
  | true =>
    rw [if_pos rfl] at hv ⊢
    obtain ⟨F, hF, hT⟩ := hv
    have ht : Verif.hasTag c!"Fields" k = true := by
      rw [h.hasTag]
      unfold Verif.hasTag
      rw [hF]
      rfl
    rw [if_pos ht]
    refine h.onFields (fun F' hF' l hl => ?_)
    rw [hF] at hF'
    cases hF'
    exact hl.putAlways (by intro w hw; cases hw; exact hT)
  | false =>
    rw [if_neg (by decide)] at hv ⊢
    refine h.onFields (fun F hF l hl => ?_)
    rw [hl.hasTag]
    rcases hv F hF with hv | hv
    · rw [hv, if_neg (by decide)]
      exact hl
    · rw [if_pos hv.tag]
      exact hl.setText hv

/-- The trash flag is there already, or there is none. -/
def HasTrash (b : Bool) (o : List Elem) : Prop :=
  if b then ∃ F, find c!"Fields" o = some F ∧ HasText c!"Field_IsTrash" c!"1" F.kids
  else ∀ F, find c!"Fields" o = some F → hasTag c!"Field_IsTrash" F.kids = false

theorem trash_fact {b : Bool} {o fk : List Elem} (h : sel c!"Field_IsTrash" (headKids (sel c!"Fields" o)) = sel c!"Field_IsTrash" (trashKids b fk))
    (ho : (sel c!"Field_IsTrash" fk).length ≤ 1) : HasTrash b o := by
  unfold HasTrash
  cases b with
  | true =>
    rw [if_pos rfl]
    refine always_fields (l := sel c!"Field_IsTrash" fk) (h.trans ?_)
    exact sel_putAlways c!"Field_IsTrash" (some c!"1") fk
  | false =>
    rw [if_neg (by decide)]
    intro F hF
    rw [find_headKids hF] at h
    refine hasTag_sel_nil (h.trans ?_)
    show sel _ (removeFirst _ fk) = []
    rw [sel_removeFirst_self, tail_once ho]

theorem AlikeL.putTrash {o k : List Elem} (h : AlikeL o k) {b : Bool} (i : Nat) (hv : HasTrash b o) : AlikeL o (Verif.putTrash b i k) := by
  unfold HasTrash at hv
  unfold Verif.putTrash
  cases b with
  | true =>
    rw [if_pos rfl] at hv ⊢
    obtain ⟨F, hF, hT⟩ := hv
    have ht : Verif.hasTag c!"Fields" k = true := by
      rw [h.hasTag]
      unfold Verif.hasTag
      rw [hF]
      rfl
    rw [if_pos ht]
    refine h.onFields (fun F' hF' l hl => ?_)
    rw [hF] at hF'
    cases hF'
    exact hl.putAlways (by intro w hw; cases hw; exact hT)
  | false =>
    rw [if_neg (by decide)] at hv ⊢
    refine h.onFields (fun F hF l hl => ?_)
    rw [hl.without (hv F hF)]
    exact hl

theorem AlikeL.putChUnused {o k : List Elem} (h : AlikeL o k) {b : Bool} (i : Nat) (ht : Verif.hasTag c!"Unused" o = b) : AlikeL o (Verif.putChUnused b (k, i)).1 := by
  unfold Verif.putChUnused
  dsimp only
  cases b with
  | true => rw [if_pos rfl, h.hasTag, ht, if_pos rfl]; exact h
  | false => rw [if_neg (by decide), h.without ht]; exact h

theorem AlikeL.putSection {o k l : List Elem} (h : AlikeL o k) {level : Option Nat} (i : Nat) (hs : Xml.sel c!"SectionStart" o = sectionSel level l) (hl : l.length ≤ 1) :
    AlikeL o (Verif.putSection level (k, i)).1 := by
  unfold Verif.putSection
  dsimp only
  rw [h.hasTag]
  unfold sectionSel at hs
  split
  · rename_i ht
    split
    · rename_i h0
      rw [if_pos h0, tail_once hl] at hs
      rw [hasTag_sel_nil hs] at ht
      cases ht
    · exact h
  · rename_i ht
    split
    · rename_i h1
      rw [if_neg (by rw [h1]; decide), if_pos h1] at hs
      exact absurd (miss_fact hs) ht
    · exact h

theorem AlikeL.setElementP {o k : List Elem} (h : AlikeL o k) {t : Str} {v : Option Str} (i : Nat) (hv : ∀ w, v = some w → HasText t w o) :
    AlikeL o (Verif.setElement t v (k, i)).1 := h.setElement i hv

theorem putIds_again {t sub : Str} {ids : List Str} {m : List Elem} (h : (sel t m).length ≤ 1) : putIds t sub ids (putIds t sub ids m) = putIds t sub ids m := by
  rw [putIds_eq, putIds_eq, removeFirst_append_left (by rw [sel_removeFirst_self, tail_once h])]
  have := removeFirst_idList t sub ids (b := []) rfl
  rw [List.append_nil] at this
  rw [this, List.append_nil]

theorem chapter_SortOrder {c : Chapter} {ks out : List Elem} (h : buildChapter c ks = .ok out) : sel c!"SortOrder" out = (sel c!"SortOrder" ks).tail := by
  unfold buildChapter at h
  cases he : chTypeEncoding[c.chType.getD 0]? with
  | none => rw [he] at h; simp at h
  | some q =>
    obtain ⟨u, ty, chTy⟩ := q
    rw [he] at h
    simp only [Except.ok.injEq] at h
    subst h
    simp (disch := decide) only [sel_putIds_ne, sel_setElementP_ne, sel_putSection_ne, sel_putChFields_ne, sel_removeFirst_self, sel_putChUnused_ne]

theorem chapter_scenesEnd {c : Chapter} {ks out : List Elem} (h : buildChapter c ks = .ok out) (hl : (sel c!"Scenes" ks).length ≤ 1) :
    putIds c!"Scenes" c!"ScID" c.srtScenes out = out := by
  unfold buildChapter at h
  cases he : chTypeEncoding[c.chType.getD 0]? with
  | none => rw [he] at h; simp at h
  | some q =>
    obtain ⟨u, ty, chTy⟩ := q
    rw [he] at h
    simp only [Except.ok.injEq] at h
    subst h
    apply putIds_again
    simp (disch := decide) only [sel_setElementP_ne, sel_putSection_ne, sel_putChFields_ne, sel_removeFirst_ne, sel_putChUnused_ne]
    exact hl

/-- Saving an unchanged chapter element once more does not change it. -/
theorem chapter_fixed {c : Chapter} {ks o k : List Elem} (hk : ChapterElement ks) (tidy : (sel c!"SortOrder" ks).length ≤ 1) (h : buildChapter c ks = .ok o) (ha : AlikeL o k) :
    ∃ o', buildChapter c k = .ok o' ∧ AlikeL o o' := by
  obtain ⟨u, ty, chTy, he, h1, h2, h3, h4, h5, h6, h7, h8, _, _, _⟩ := buildChapter_ok h
  have hp : ∀ t ∈ chapterTextTags, Once (sel t ks) := hk.plain
  have hso : hasTag c!"SortOrder" o = false := hasTag_sel_nil ((chapter_SortOrder h).trans (tail_once tidy))
  have hfk : ∀ t ∈ [c!"Field_SuppressChapterTitle", c!"Field_SuppressChapterBreak", c!"Field_IsTrash"], (sel t (headKids (sel c!"Fields" ks))).length ≤ 1 :=
    fun t ht => (plainOnce_head hk.fields t ht).1
  have ch_ne : ∀ (field t : Str) (b : Bool) (l : List Elem), field ≠ t → sel t (chFieldKids field b l) = sel t l := by
    intro field t b l hne
    unfold chFieldKids
    split
    · exact sel_putAlways_ne hne _ _
    · split
      · exact sel_setText_ne hne _ _
      · rfl
  have tr_ne : ∀ (t : Str) (b : Bool) (l : List Elem), c!"Field_IsTrash" ≠ t → sel t (trashKids b l) = sel t l := by
    intro t b l hne
    unfold trashKids
    split
    · exact sel_putAlways_ne hne _ _
    · exact sel_removeFirst_ne hne _
  have f1 : HasFlag c!"Field_SuppressChapterTitle" (c.suppressChapterTitle.getD false) o := by
    apply chField_fact (fk := headKids (sel c!"Fields" ks))
    rw [h8]
    unfold chKids
    rw [tr_ne _ _ _ (by decide), ch_ne _ _ _ _ (by decide)]
  have f2 : HasFlag c!"Field_SuppressChapterBreak" (c.suppressChapterBreak.getD false) o := by
    apply chField_fact
    rw [h8]
    unfold chKids
    rw [tr_ne _ _ _ (by decide)]
  have f3 : HasTrash (c.isTrash.getD false) o := by
    apply trash_fact (fk := chFieldKids c!"Field_SuppressChapterBreak" (c.suppressChapterBreak.getD false)
      (chFieldKids c!"Field_SuppressChapterTitle" (c.suppressChapterTitle.getD false) (headKids (sel c!"Fields" ks))))
    · rw [h8]
      rfl
    · rw [ch_ne _ _ _ _ (by decide), ch_ne _ _ _ _ (by decide)]
      exact hfk _ (by decide)
  have step : ∀ (p : List Elem × Nat), AlikeL o p.1 → ∀ (g : List Elem × Nat → List Elem × Nat), (∀ k i, AlikeL o k → AlikeL o (g (k, i)).1) → AlikeL o (g p).1 := by
    intro p hp g hg
    exact hg p.1 p.2 hp
  have a1 : AlikeL o (setElement c!"Title" c.title (k, 1)).1 := ha.setElement 1 (always_fact h1)
  have a2 := step _ a1 (setElement c!"Desc" c.desc) (fun k i hk => hk.setElement i (always_fact h2))
  have a3 := step _ a2 (putChUnused u) (fun k i hk => hk.putChUnused i (flag_fact h3 (hp _ (by decide)).1))
  generalize hq : putChUnused u (setElement c!"Desc" c.desc (setElement c!"Title" c.title (k, 1))) = q at a3
  have a4 : AlikeL o (putChFields c (removeFirst c!"SortOrder" q.1, q.2)).1 := by
    rw [a3.without hso]
    exact ((a3.putChField q.2 f1).putChField q.2 f2).putTrash q.2 f3
  have a5 := step _ a4 (putSection c.chLevel) (fun k i hk => hk.putSection i h4 (hp _ (by decide)).1)
  have a6 := step _ a5 (setElement c!"Type" (some ty)) (fun k i hk => hk.setElement i (always_fact h5))
  have a7 := step _ a6 (setElement c!"ChapterType" (some chTy)) (fun k i hk => hk.setElement i (always_fact h6))
  have a8 := a7.putIds c!"Scenes" c!"ScID" c.srtScenes
  rw [chapter_scenesEnd h hk.scenesOnce] at a8
  refine ⟨_, ?_, a8⟩
  unfold buildChapter
  rw [he, ← hq]

/-- The project's own elements. -/
theorem project_fixed {n : Novel} {ks k : List Elem} (hf : ∀ f ∈ sel c!"Fields" ks, ∀ t ∈ [c!"Field_LanguageCode", c!"Field_CountryCode"], (sel t f.kids).length ≤ 1)
    (tidy : ∀ t ∈ [c!"SavedWith", c!"SavedOn"], (sel t ks).length ≤ 1) (ha : AlikeL (buildProject n ks) k) : AlikeL (buildProject n ks) (buildProject n k) := by
  generalize ho : buildProject n ks = o at ha ⊢
  have A : ∀ {t : Str} {v : Option Str}, sel t (buildProject n ks) = alwaysSel t v (sel t ks) → ∀ w, v = some w → HasText t w o := by
    intro t v h
    rw [ho] at h
    exact always_fact h
  have a1 := ha.putAlways (t := c!"Ver") (v := some c!"7") (A (by unfold buildProject; frame))
  have a2 := a1.putAlways (t := c!"Title") (v := n.title) (A (by unfold buildProject; frame))
  have a3 := a2.putAlways (t := c!"Desc") (v := n.desc) (A (by unfold buildProject; frame))
  have a4 := a3.putAlways (t := c!"AuthorName") (v := n.authorName) (A (by unfold buildProject; frame))
  have a5 := a4.putAlways (t := c!"Bio") (v := n.authorBio) (A (by unfold buildProject; frame))
  have a6 := a5.putAlways (t := c!"FieldTitle1") (v := n.fieldTitle1) (A (by unfold buildProject; frame))
  have a7 := a6.putAlways (t := c!"FieldTitle2") (v := n.fieldTitle2) (A (by unfold buildProject; frame))
  have a8 := a7.putAlways (t := c!"FieldTitle3") (v := n.fieldTitle3) (A (by unfold buildProject; frame))
  have a9 := a8.putAlways (t := c!"FieldTitle4") (v := n.fieldTitle4) (A (by unfold buildProject; frame))
  have a10 := a9.putAlways (t := c!"WordCountStart") (v := n.wordCountStart.map Str.ofInt) (A (by unfold buildProject; frame))
  have a11 := a10.putAlways (t := c!"WordTarget") (v := n.wordTarget.map Str.ofInt) (A (by unfold buildProject; frame))
  have hF : sel c!"Fields" o = onFieldsSel (removeFirst c!"Field_CountryCode") (onFieldsSel (removeFirst c!"Field_LanguageCode") (sel c!"Fields" ks)) := by
    rw [← ho]
    unfold buildProject
    rw [sel_removeFirst_ne (by decide), sel_removeFirst_ne (by decide), sel_onFields, sel_onFields]
    congr 2
    frame
  have hFk : ∀ F, find c!"Fields" o = some F → ∀ t ∈ [c!"Field_LanguageCode", c!"Field_CountryCode"], hasTag t F.kids = false := by
    intro F hFo t ht
    have hh := find_headKids hFo
    rw [hF, headKids_onFieldsSel rfl, headKids_onFieldsSel rfl] at hh
    have hl : ∀ t ∈ [c!"Field_LanguageCode", c!"Field_CountryCode"], (sel t (headKids (sel c!"Fields" ks))).length ≤ 1 := by
      intro t ht
      cases hx : sel c!"Fields" ks with
      | nil => exact Nat.zero_le _
      | cons f r => exact hf f (by rw [hx]; exact List.mem_cons_self) t ht
    have h1 := hl t ht
    apply hasTag_sel_nil
    rw [← hh]
    simp only [List.mem_cons, List.not_mem_nil, or_false] at ht
    rcases ht with rfl | rfl
    · rw [sel_removeFirst_ne (by decide), sel_removeFirst_self, tail_once h1]
    · rw [sel_removeFirst_self, sel_removeFirst_ne (by decide), tail_once h1]
  have a12 : AlikeL o _ := a11.onFields (f := removeFirst c!"Field_LanguageCode") (fun F hF l hl => by rw [hl.without (hFk F hF _ (by decide))]; exact hl)
  have a13 : AlikeL o _ := a12.onFields (f := removeFirst c!"Field_CountryCode") (fun F hF l hl => by rw [hl.without (hFk F hF _ (by decide))]; exact hl)
  have n1 : hasTag c!"SavedWith" o = false := by
    apply hasTag_sel_nil
    rw [← ho]
    unfold buildProject
    rw [sel_removeFirst_ne (by decide), sel_removeFirst_self, sel_onFields_ne (by decide), sel_onFields_ne (by decide)]
    refine Eq.trans (congrArg List.tail ?_) (tail_once (tidy c!"SavedWith" (by decide)))
    frame
  have n2 : hasTag c!"SavedOn" o = false := by
    apply hasTag_sel_nil
    rw [← ho]
    unfold buildProject
    rw [sel_removeFirst_self, sel_removeFirst_ne (by decide), sel_onFields_ne (by decide), sel_onFields_ne (by decide)]
    refine Eq.trans (congrArg List.tail ?_) (tail_once (tidy c!"SavedOn" (by decide)))
    frame
  unfold buildProject
  rw [a13.without n1, a13.without n2]
  exact a13

end Verif
