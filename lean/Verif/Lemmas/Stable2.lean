/-
Lemmas: a chapter, a location or item, a character and a project note that was read and saved again is read as before.
-/
import Verif.Lemmas.Stable
import Verif.Props.C14_Chapters
import Verif.Props.C23_World

namespace Verif
open Xml Spec

theorem length_putChField_len (field : Str) (b : Bool) (i : Nat) (ks : List Elem) :
    (sel c!"Fields" (putChField field b i ks)).length = if b then (ensureSel (sel c!"Fields" ks)).length else (sel c!"Fields" ks).length := by
  unfold putChField
  cases b with
  | true =>
    simp only [if_true]
    show (sel _ (onFields _ (ensureAt i ks))).length = _
    rw [sel_onFields, sel_ensureAt, length_onFieldsSel]
  | false =>
    simp only [Bool.false_eq_true, if_false]
    rw [sel_onFields, length_onFieldsSel]

theorem length_putTrash_len (b : Bool) (i : Nat) (ks : List Elem) :
    (sel c!"Fields" (putTrash b i ks)).length = if b then (ensureSel (sel c!"Fields" ks)).length else (sel c!"Fields" ks).length := by
  unfold putTrash
  cases b with
  | true =>
    simp only [if_true]
    show (sel _ (onFields _ (ensureAt i ks))).length = _
    rw [sel_onFields, sel_ensureAt, length_onFieldsSel]
  | false =>
    simp only [Bool.false_eq_true, if_false]
    rw [sel_onFields, length_onFieldsSel]

theorem ensureSel_ne {l : List Elem} (h : l ≠ []) : ensureSel l = l := by
  unfold ensureSel
  cases l with
  | nil => exact absurd rfl h
  | cons a l => rfl

/-- Saving a chapter keeps its `Fields` element, and creates one only for a flag that is set. -/
theorem chapter_fields_len {c : Chapter} {ks out : List Elem} (h : buildChapter c ks = .ok out)
    (hc : sel c!"Fields" ks ≠ [] ∨ c.suppressChapterTitle.getD false = false ∧ c.suppressChapterBreak.getD false = false ∧ c.isTrash.getD false = false) :
    (sel c!"Fields" out).length = (sel c!"Fields" ks).length := by
  unfold buildChapter at h
  cases he : chTypeEncoding[c.chType.getD 0]? with
  | none => rw [he] at h; simp at h
  | some q =>
    obtain ⟨u, ty, chTy⟩ := q
    rw [he] at h
    simp only [Except.ok.injEq] at h
    subst h
    simp (disch := decide) only [sel_putIds_ne, sel_setElementP_ne, sel_putSection_ne]
    have key : ∀ q : List Elem × Nat, sel c!"Fields" q.1 = sel c!"Fields" ks → (sel c!"Fields" (putChFields c q).1).length = (sel c!"Fields" ks).length := by
      intro q hq
      unfold putChFields
      dsimp only
      rw [length_putTrash_len]
      rcases hc with hc | ⟨h1, h2, h3⟩
      · have e : ∀ {l : List Elem}, l.length = (sel c!"Fields" ks).length → (ensureSel l).length = (sel c!"Fields" ks).length := by
          intro l hl
          rw [ensureSel_ne, hl]
          intro e
          rw [e] at hl
          exact hc (List.length_eq_zero_iff.1 hl.symm)
        have s1 : ∀ (f : Str) (b : Bool) (i : Nat) (k : List Elem), (sel c!"Fields" k).length = (sel c!"Fields" ks).length →
            (sel c!"Fields" (putChField f b i k)).length = (sel c!"Fields" ks).length := by
          intro f b i k hk
          rw [length_putChField_len]
          split
          · exact e hk
          · exact hk
        have s2 := s1 c!"Field_SuppressChapterBreak" (c.suppressChapterBreak.getD false) q.2 _ (s1 c!"Field_SuppressChapterTitle" (c.suppressChapterTitle.getD false) q.2 q.1 (by rw [hq]))
        split
        · exact e s2
        · exact s2
      · rw [h1, h2, h3]
        simp only [Bool.false_eq_true, if_false]
        rw [length_putChField_len, length_putChField_len, hq]
        rfl
    apply key
    simp (disch := decide) only [sel_removeFirst_ne, sel_putChUnused_ne, sel_setElementP_ne]

theorem length_sel_reloaded {out r : List Elem} (h : ReloadedL out r) (t : Str) : (sel t r).length = (sel t out).length := by
  exact length_reloaded (h.sel t)

theorem readChFields_shape (st : Bool) (ks : List Elem) (h : (sel c!"Fields" ks).length ≤ 1) :
    ((sel c!"Fields" ks) = [] ∧ readChFields st ks = (st, none, none)) ∨
    ((sel c!"Fields" ks).length = 1 ∧ (readChFields st ks).2.1.isSome ∧ (readChFields st ks).2.2.isSome) := by
  unfold readChFields
  cases hl : sel c!"Fields" ks with
  | nil => left; exact ⟨rfl, rfl⟩
  | cons f l =>
    rw [hl] at h
    have : l = [] := by
      cases l with
      | nil => rfl
      | cons => simp at h
    subst this
    right
    exact ⟨rfl, rfl, rfl⟩

theorem eq_of_getD {a b : Option Bool} (h : a.getD false = b.getD false) (hs : a.isSome = b.isSome) : a = b := by
  cases a <;> cases b <;> simp_all

/-- **A chapter that was read and is saved into the same element is read as before.** -/
theorem chapter_stable {known known' : List Str} {ks out r : List Elem} {c : Chapter} (hk : ChapterElement ks) (h0 : c = readChapter known ks) (hset : SettledChapter c)
    (hs : buildChapter c ks = .ok out) (hr : ReloadedL out r) (hid : ∀ i ∈ c.srtScenes, i ∈ known' ∧ i ≠ [] ∧ PlainStr i) : readChapter known' r = c := by
  obtain ⟨h1, h2, h3, h4, h5⟩ := C14_chapter c known' ks out r hk hs hr
  obtain ⟨t1, t2⟩ := C14_texts c known' ks out r hk hs hr
  have sc := C14_scenes c known' ks out r hk hs hr hid
  have ht : c.title = textOf c!"Title" ks := by rw [h0]; rfl
  have hd : c.desc = textOf c!"Desc" ks := by rw [h0]; rfl
  have e1 : (readChapter known' r).title = c.title := by
    rw [t1, ← ht]
    exact saved_same (hset.texts c.title (by simp))
  have e2 : (readChapter known' r).desc = c.desc := by
    rw [t2, ← hd]
    exact saved_same (hset.texts c.desc (by simp))
  have e3 : (readChapter known' r).chType = c.chType := by
    rw [h1, h0]
    rfl
  have e4 : (readChapter known' r).chLevel = c.chLevel := by
    have : c.chLevel = some (if hasTag c!"SectionStart" ks then 1 else 0) := by rw [h0]; rfl
    rw [h2 _ this (by split <;> omega), this]
  have hl := hk.fieldsOnce
  have q0 : ∃ st, c.suppressChapterTitle = some (readChFields st ks).1 ∧ c.isTrash = (readChFields st ks).2.1 ∧ c.suppressChapterBreak = (readChFields st ks).2.2 ∧
      (st = true → c.suppressChapterTitle = some true) ∧ st = (match c.title with | some t => Str.startsWith t c!"@" | none => false) := by
    rw [h0]
    refine ⟨_, rfl, rfl, rfl, ?_, rfl⟩
    intro h
    show some (readChFields _ ks).1 = some true
    rw [(readChFields_eq hl).1, h]
    rfl
  obtain ⟨st, q1, q2, q3, q4, q5⟩ := q0
  have p0 : ∃ st', (readChapter known' r).isTrash = (readChFields st' r).2.1 ∧ (readChapter known' r).suppressChapterBreak = (readChFields st' r).2.2 := ⟨_, rfl, rfl⟩
  obtain ⟨st', p1, p2⟩ := p0
  have len : (sel c!"Fields" r).length = (sel c!"Fields" ks).length := by
    rw [length_sel_reloaded hr]
    refine chapter_fields_len hs ?_
    rcases readChFields_shape st ks hl with ⟨x1, x2⟩ | ⟨x1, -⟩
    · right
      rw [x2] at q1 q2 q3
      refine ⟨?_, by rw [q3]; rfl, by rw [q2]; rfl⟩
      rw [hset.flags q2]
      rfl
    · left
      intro e
      rw [e] at x1
      cases x1
  have sh : (readChapter known' r).isTrash.isSome = c.isTrash.isSome ∧ (readChapter known' r).suppressChapterBreak.isSome = c.suppressChapterBreak.isSome := by
    rw [p1, p2, q2, q3]
    rcases readChFields_shape st ks hl with ⟨x1, x2⟩ | ⟨x1, x2, x3⟩
    · rcases readChFields_shape st' r (by rw [len]; exact hl) with ⟨y1, y2⟩ | ⟨y1, -⟩
      · rw [x2, y2]
        exact ⟨rfl, rfl⟩
      · rw [len, x1] at y1
        cases y1
    · rcases readChFields_shape st' r (by rw [len]; exact hl) with ⟨y1, -⟩ | ⟨y1, y2, y3⟩
      · rw [y1, x1] at len
        cases len
      · rw [x2, x3, y2, y3]
        exact ⟨rfl, rfl⟩
  have e5 := eq_of_getD h3 sh.1
  have e6 := eq_of_getD h4 sh.2
  have e7 : (readChapter known' r).suppressChapterTitle = c.suppressChapterTitle := by
    rw [h5, e1]
    have : some (c.suppressChapterTitle.getD false || st) = c.suppressChapterTitle := by
      cases st with
      | true => rw [q4 rfl]; rfl
      | false =>
        rw [q1]
        simp
    rw [q5] at this
    exact this
  have e8 : (readChapter known' r).kwVar = c.kwVar := by rw [h0]; rfl
  cases hc : readChapter known' r
  cases c
  rw [hc] at e1 e2 e3 e4 e5 e6 e7 e8 sc
  dsimp only at e1 e2 e3 e4 e5 e6 e7 e8 sc
  subst e1 e2 e3 e4 e5 e6 e7 e8 sc
  rfl

end Verif
