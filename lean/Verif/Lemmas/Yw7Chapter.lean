import Verif.Lemmas.Yw7Scene2

namespace Verif
open Xml Elem Spec

/-! ### Chapter steps on the pair of children and index -/

theorem filter_setElementP {p : Str → Bool} {t : Str} (hp : p t = false) (v : Option Str)
    (q : List Elem × Nat) :
    (setElement t v q).1.filter (fun e => p e.tag) = q.1.filter (fun e => p e.tag) :=
  touches_setElement t v q.2 p hp q.1

theorem sel_of_filter {u : Str} {a b : List Elem}
    (h : ∀ p : Str → Bool, p = (fun x => decide (x = u)) →
      a.filter (fun e => p e.tag) = b.filter (fun e => p e.tag)) : sel u a = sel u b := by
  unfold sel
  exact h _ rfl

theorem sel_setElementP_ne {t u : Str} (h : t ≠ u) (v : Option Str) (q : List Elem × Nat) :
    sel u (setElement t v q).1 = sel u q.1 := sel_setElement_ne h v q.2 q.1

theorem sel_setElementP (t : Str) (v : Option Str) (q : List Elem × Nat) :
    sel t (setElement t v q).1 = alwaysSel t v (sel t q.1) := sel_setElement t v q.2 q.1

theorem filter_putChUnused {p : Str → Bool} (hp : p c!"Unused" = false) (b : Bool) (q : List Elem × Nat) :
    (putChUnused b q).1.filter (fun e => p e.tag) = q.1.filter (fun e => p e.tag) := by
  unfold putChUnused
  dsimp only
  split
  · split
    · rfl
    · exact filter_insertAt (e := leaf c!"Unused" _) hp _ _
  · exact filter_removeFirst hp _

theorem sel_putChUnused_ne {u : Str} (h : c!"Unused" ≠ u) (b : Bool) (q : List Elem × Nat) :
    sel u (putChUnused b q).1 = sel u q.1 := by
  unfold sel
  exact filter_putChUnused (p := fun x => decide (x = u)) (by simp [h]) b q

theorem sel_putChUnused (b : Bool) (q : List Elem × Nat) :
    sel c!"Unused" (putChUnused b q).1 = flagSel c!"Unused" b (sel c!"Unused" q.1) := by
  unfold putChUnused flagSel missSel
  dsimp only
  cases b with
  | false => simp only [Bool.false_eq_true, if_false]; exact sel_removeFirst_self _ _
  | true =>
    simp only [if_true, hasTag_eq]
    cases h : sel c!"Unused" q.1 with
    | nil =>
      simp only [List.isEmpty_nil, Bool.not_true, Bool.false_eq_true, if_false]
      exact sel_insertAt_self q.2 (leaf c!"Unused" (some c!"-1")) q.1 h
    | cons e r => simp only [List.isEmpty_cons, Bool.not_false, if_true]; exact h

theorem filter_putSection {p : Str → Bool} (hp : p c!"SectionStart" = false) (l : Option Nat)
    (q : List Elem × Nat) :
    (putSection l q).1.filter (fun e => p e.tag) = q.1.filter (fun e => p e.tag) := by
  unfold putSection
  dsimp only
  split
  · split
    · exact filter_removeFirst hp _
    · rfl
  · split
    · exact filter_insertAt (e := leaf c!"SectionStart" _) hp _ _
    · rfl

theorem sel_putSection_ne {u : Str} (h : c!"SectionStart" ≠ u) (l : Option Nat) (q : List Elem × Nat) :
    sel u (putSection l q).1 = sel u q.1 := by
  unfold sel
  exact filter_putSection (p := fun x => decide (x = u)) (by simp [h]) l q

def sectionSel (level : Option Nat) (l : List Elem) : List Elem :=
  if level = some 0 then l.tail
  else if level = some 1 then missSel c!"SectionStart" (some c!"-1") l else l

theorem sel_putSection (l : Option Nat) (q : List Elem × Nat) :
    sel c!"SectionStart" (putSection l q).1 = sectionSel l (sel c!"SectionStart" q.1) := by
  unfold putSection sectionSel missSel
  dsimp only
  rw [hasTag_eq]
  cases h : sel c!"SectionStart" q.1 with
  | nil =>
    simp only [List.isEmpty_nil, Bool.not_true, Bool.false_eq_true, if_false, List.tail_nil]
    by_cases h1 : l = some 1
    · subst h1
      simp only [if_true]
      rw [if_neg (by simp)]
      exact sel_insertAt_self q.2 (leaf c!"SectionStart" (some c!"-1")) q.1 h
    · rw [if_neg h1]; simp only [h1, if_false, h]; split <;> rfl
  | cons e r =>
    simp only [List.isEmpty_cons, Bool.not_false, if_true]
    by_cases h0 : l = some 0
    · rw [if_pos h0, if_pos h0, sel_removeFirst_self, h]
    · rw [if_neg h0, if_neg h0, h]; split <;> rfl

/-- Make sure that there is a `Fields` element, inserted at a position. -/
def ensureAt (i : Nat) (ks : List Elem) : List Elem :=
  if hasTag c!"Fields" ks then ks else insertAt i (node c!"Fields" none none []) ks

theorem touches_ensureAt (i : Nat) : Touches c!"Fields" (ensureAt i) := by
  intro p hp ks
  unfold ensureAt
  split
  · rfl
  · exact filter_insertAt (e := node c!"Fields" none none []) (by simpa using hp) i ks

theorem sel_ensureAt (i : Nat) (ks : List Elem) :
    sel c!"Fields" (ensureAt i ks) = ensureSel (sel c!"Fields" ks) := by
  unfold ensureAt ensureSel
  rw [hasTag_eq]
  cases h : sel c!"Fields" ks with
  | nil =>
    simp only [List.isEmpty_nil, Bool.not_true, Bool.false_eq_true, if_false]
    exact sel_insertAt_self i (node c!"Fields" none none []) ks h
  | cons e r => simp only [List.isEmpty_cons, Bool.not_false, if_true]; exact h

/-- The entries of `Fields` after writing a chapter flag. -/
def chFieldKids (field : Str) (b : Bool) (fk : List Elem) : List Elem :=
  if b then putAlways field (some c!"1") fk
  else if hasTag field fk then modFirst field (setText (some c!"0")) fk else fk

def trashKids (b : Bool) (fk : List Elem) : List Elem :=
  if b then putAlways c!"Field_IsTrash" (some c!"1") fk else removeFirst c!"Field_IsTrash" fk

theorem touches_putChField (field : Str) (b : Bool) (i : Nat) :
    Touches c!"Fields" (putChField field b i) := by
  intro p hp ks
  unfold putChField
  split
  · exact (touches_onFields _).comp (touches_ensureAt i) p hp ks
  · exact touches_onFields _ p hp ks

theorem touches_putTrash (b : Bool) (i : Nat) : Touches c!"Fields" (putTrash b i) := by
  intro p hp ks
  unfold putTrash
  split
  · exact (touches_onFields _).comp (touches_ensureAt i) p hp ks
  · exact touches_onFields _ p hp ks

theorem headKids_sel_putChField (field : Str) (b : Bool) (i : Nat) (ks : List Elem) :
    headKids (sel c!"Fields" (putChField field b i ks))
      = chFieldKids field b (headKids (sel c!"Fields" ks)) := by
  unfold putChField chFieldKids
  cases b with
  | true =>
    simp only [if_true]
    show headKids (sel _ (onFields _ (ensureAt i ks))) = _
    rw [sel_onFields, sel_ensureAt, headKids_ensure]
  | false =>
    simp only [Bool.false_eq_true, if_false]
    rw [sel_onFields, headKids_onFieldsSel (by rfl)]

theorem headKids_sel_putTrash (b : Bool) (i : Nat) (ks : List Elem) :
    headKids (sel c!"Fields" (putTrash b i ks)) = trashKids b (headKids (sel c!"Fields" ks)) := by
  unfold putTrash trashKids
  cases b with
  | true =>
    simp only [if_true]
    show headKids (sel _ (onFields _ (ensureAt i ks))) = _
    rw [sel_onFields, sel_ensureAt, headKids_ensure]
  | false =>
    simp only [Bool.false_eq_true, if_false]
    rw [sel_onFields, headKids_onFieldsSel (by rfl)]

theorem length_sel_putChField (field : Str) (b : Bool) (i : Nat) {ks : List Elem}
    (h : (sel c!"Fields" ks).length ≤ 1) : (sel c!"Fields" (putChField field b i ks)).length ≤ 1 := by
  unfold putChField
  split
  · show (sel _ (onFields _ (ensureAt i ks))).length ≤ 1
    rw [sel_onFields, sel_ensureAt, length_onFieldsSel]
    exact length_ensureSel h
  · rw [sel_onFields, length_onFieldsSel]; exact h

theorem length_sel_putTrash (b : Bool) (i : Nat) {ks : List Elem}
    (h : (sel c!"Fields" ks).length ≤ 1) : (sel c!"Fields" (putTrash b i ks)).length ≤ 1 := by
  unfold putTrash
  split
  · show (sel _ (onFields _ (ensureAt i ks))).length ≤ 1
    rw [sel_onFields, sel_ensureAt, length_onFieldsSel]
    exact length_ensureSel h
  · rw [sel_onFields, length_onFieldsSel]; exact h

theorem filter_putChFields {p : Str → Bool} (hp : p c!"Fields" = false) (c : Chapter)
    (q : List Elem × Nat) :
    (putChFields c q).1.filter (fun e => p e.tag) = q.1.filter (fun e => p e.tag) := by
  unfold putChFields
  dsimp only
  rw [touches_putTrash _ _ p hp, touches_putChField _ _ _ p hp, touches_putChField _ _ _ p hp]

theorem sel_putChFields_ne {u : Str} (h : c!"Fields" ≠ u) (c : Chapter) (q : List Elem × Nat) :
    sel u (putChFields c q).1 = sel u q.1 := by
  unfold sel
  exact filter_putChFields (p := fun x => decide (x = u)) (by simp [h]) c q

/-- The entries of `Fields` after writing all chapter flags. -/
def chKids (c : Chapter) (fk : List Elem) : List Elem :=
  trashKids (c.isTrash.getD false) (chFieldKids c!"Field_SuppressChapterBreak" (c.suppressChapterBreak.getD false)
    (chFieldKids c!"Field_SuppressChapterTitle" (c.suppressChapterTitle.getD false) fk))

theorem headKids_sel_putChFields (c : Chapter) (q : List Elem × Nat) :
    headKids (sel c!"Fields" (putChFields c q).1) = chKids c (headKids (sel c!"Fields" q.1)) := by
  unfold putChFields chKids
  dsimp only
  rw [headKids_sel_putTrash, headKids_sel_putChField, headKids_sel_putChField]

theorem length_sel_putChFields (c : Chapter) {q : List Elem × Nat}
    (h : (sel c!"Fields" q.1).length ≤ 1) : (sel c!"Fields" (putChFields c q).1).length ≤ 1 := by
  unfold putChFields
  dsimp only
  exact length_sel_putTrash _ _ (length_sel_putChField _ _ _ (length_sel_putChField _ _ _ h))

/-- `build_chapter_subtree` as a whole. -/
theorem buildChapter_ok {c : Chapter} {ks out : List Elem} (h : buildChapter c ks = .ok out) :
    ∃ unused ty chTy, chTypeEncoding[c.chType.getD 0]? = some (unused, ty, chTy) ∧
      sel c!"Title" out = alwaysSel c!"Title" c.title (sel c!"Title" ks) ∧
      sel c!"Desc" out = alwaysSel c!"Desc" c.desc (sel c!"Desc" ks) ∧
      sel c!"Unused" out = flagSel c!"Unused" unused (sel c!"Unused" ks) ∧
      sel c!"SectionStart" out = sectionSel c.chLevel (sel c!"SectionStart" ks) ∧
      sel c!"Type" out = alwaysSel c!"Type" (some ty) (sel c!"Type" ks) ∧
      sel c!"ChapterType" out = alwaysSel c!"ChapterType" (some chTy) (sel c!"ChapterType" ks) ∧
      sel c!"Scenes" out = idsSel c!"Scenes" c!"ScID" c.srtScenes (sel c!"Scenes" ks) ∧
      headKids (sel c!"Fields" out) = chKids c (headKids (sel c!"Fields" ks)) ∧
      ((sel c!"Fields" ks).length ≤ 1 → (sel c!"Fields" out).length ≤ 1) ∧
      sel c!"ID" out = sel c!"ID" ks ∧
      (∀ p : Str → Bool, (∀ t ∈ managedChapter, p t = false) →
        out.filter (fun e => p e.tag) = ks.filter (fun e => p e.tag)) := by
  unfold buildChapter at h
  cases he : chTypeEncoding[c.chType.getD 0]? with
  | none => rw [he] at h; simp at h
  | some q =>
    obtain ⟨u, ty, chTy⟩ := q
    rw [he] at h
    simp only [Except.ok.injEq] at h
    subst h
    refine ⟨u, ty, chTy, rfl, ?_, ?_, ?_, ?_, ?_, ?_, ?_, ?_, ?_, ?_, ?_⟩
    all_goals try simp (disch := decide) only [sel_putIds_ne, sel_setElementP_ne, sel_putSection_ne,
      sel_putChFields_ne, sel_removeFirst_ne, sel_putChUnused_ne, sel_setElementP, sel_putChUnused,
      sel_putSection, sel_putIds]
    · rw [headKids_sel_putChFields]
      simp (disch := decide) only [sel_removeFirst_ne, sel_putChUnused_ne, sel_setElementP_ne]
    · intro hl
      refine length_sel_putChFields _ ?_
      simp (disch := decide) only [sel_removeFirst_ne, sel_putChUnused_ne, sel_setElementP_ne]
      exact hl
    · intro p hp
      rw [touches_putIds _ _ _ p (hp _ (by decide)), filter_setElementP (hp _ (by decide)),
        filter_setElementP (hp _ (by decide)), filter_putSection (hp _ (by decide)),
        filter_putChFields (hp _ (by decide)), filter_removeFirst (hp _ (by decide)),
        filter_putChUnused (hp _ (by decide)), filter_setElementP (hp _ (by decide)),
        filter_setElementP (hp _ (by decide))]

end Verif
