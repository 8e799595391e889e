/-
C14: type, level and flags of a chapter survive save and reload. `buildChapter c ks` is what saving
makes of the children `ks` of a chapter element.
-/
import Verif.Lemmas.Yw7Chapter
import Verif.Lemmas.Reload

namespace Verif
open Xml Elem Spec

theorem textOf_decide_chField {field : Str} {b : Bool} {fk out r : List Elem} (hr : ReloadedL out r)
    (hs : sel field out = sel field (chFieldKids field b fk))
    (hp : (sel field fk).length ≤ 1 ∧ ∀ e ∈ sel field fk, e.kids = []) :
    decide (textOf field r = some c!"1") = b := by
  unfold chFieldKids at hs
  have p1 : PlainStr c!"1" := by unfold PlainStr; decide
  have p0 : PlainStr c!"0" := by unfold PlainStr; decide
  cases b with
  | true =>
    simp only [if_true] at hs
    rw [sel_putAlways] at hs
    rw [textOf_alwaysSel hr hs hp.2 (Or.inr (by intro w hw; simp at hw; subst hw; exact p1))]
    rfl
  | false =>
    simp only [Bool.false_eq_true, if_false] at hs
    split at hs
    · rename_i ht
      rw [sel_setText] at hs
      have hs' : sel field out = alwaysSel field (some c!"0") (sel field fk) := by
        rw [hs]
        cases h : sel field fk with
        | nil => exact absurd h ((hasTag_iff _ _).1 ht)
        | cons e q => rfl
      rw [textOf_alwaysSel hr hs' hp.2 (Or.inr (by intro w hw; simp at hw; subst hw; exact p0))]
      show decide ((some c!"0" : Option Str) = some c!"1") = false
      decide
    · rename_i ht
      have h0 : sel field out = [] := by
        rw [hs]
        rw [hasTag_eq] at ht
        simpa using ht
      rw [textOf_of_sel_nil (reloaded_sel_nil hr h0)]
      rfl

theorem textOf_decide_trash {b : Bool} {fk out r : List Elem} (hr : ReloadedL out r)
    (hs : sel c!"Field_IsTrash" out = sel c!"Field_IsTrash" (trashKids b fk))
    (hp : (sel c!"Field_IsTrash" fk).length ≤ 1 ∧ ∀ e ∈ sel c!"Field_IsTrash" fk, e.kids = []) :
    decide (textOf c!"Field_IsTrash" r = some c!"1") = b := by
  unfold trashKids at hs
  have p1 : PlainStr c!"1" := by unfold PlainStr; decide
  cases b with
  | true =>
    simp only [if_true] at hs
    rw [sel_putAlways] at hs
    rw [textOf_alwaysSel hr hs hp.2 (Or.inr (by intro w hw; simp at hw; subst hw; exact p1))]
    rfl
  | false =>
    simp only [Bool.false_eq_true, if_false] at hs
    rw [sel_removeFirst_self, tail_of_le_one hp.1] at hs
    rw [textOf_of_sel_nil (reloaded_sel_nil hr hs)]
    rfl

theorem touches_chFieldKids (field : Str) (b : Bool) : Touches field (chFieldKids field b) := by
  intro p hp ks
  unfold chFieldKids
  split
  · exact touches_putAlways field _ p hp ks
  · split
    · exact filter_modFirst hp (by simp) ks
    · rfl

theorem touches_trashKids (b : Bool) : Touches c!"Field_IsTrash" (trashKids b) := by
  intro p hp ks
  unfold trashKids
  split
  · exact touches_putAlways _ _ p hp ks
  · exact filter_removeFirst hp ks

theorem readChFields_eq {st : Bool} {ks : List Elem} (h : (sel c!"Fields" ks).length ≤ 1) :
    (readChFields st ks).1 = (st || decide (textOf c!"Field_SuppressChapterTitle" (headKids (sel c!"Fields" ks)) = some c!"1")) ∧
    (readChFields st ks).2.1.getD false = decide (textOf c!"Field_IsTrash" (headKids (sel c!"Fields" ks)) = some c!"1") ∧
    (readChFields st ks).2.2.getD false = decide (textOf c!"Field_SuppressChapterBreak" (headKids (sel c!"Fields" ks)) = some c!"1") := by
  unfold readChFields
  revert h
  generalize sel c!"Fields" ks = l
  intro h
  match l, h with
  | [], _ => refine ⟨?_, rfl, rfl⟩; cases st <;> rfl
  | [f], _ => exact ⟨rfl, rfl, rfl⟩

theorem headKids_plain' {ts : List Str} {l : List Elem}
    (h : ∀ f ∈ l, PlainOnce ts f.kids) : PlainOnce ts (headKids l) := by
  cases l with
  | nil => intro t _; exact ⟨by simp [headKids, sel], by simp [headKids, sel]⟩
  | cons f r => exact h f (by simp)

/-- **C14**: whatever the chapter element contained before, the chapter is read back with the same type,
level, trash and suppress-break flag (`None` counts as false, a level that is neither 0 nor 1 leaves the
old one alone). The title is suppressed if the flag was set or, by a convention of yWriter, if the title
begins with `@`. -/
theorem C14_chapter (c : Chapter) (scenes : List Str) (ks out r : List Elem) (hk : ChapterElement ks)
    (hs : buildChapter c ks = .ok out) (hr : ReloadedL out r) :
    (readChapter scenes r).chType = some (c.chType.getD 0) ∧
    (∀ l, c.chLevel = some l → l ≤ 1 → (readChapter scenes r).chLevel = some l) ∧
    (readChapter scenes r).isTrash.getD false = c.isTrash.getD false ∧
    (readChapter scenes r).suppressChapterBreak.getD false = c.suppressChapterBreak.getD false ∧
    (readChapter scenes r).suppressChapterTitle = some (c.suppressChapterTitle.getD false ||
      match (readChapter scenes r).title with
      | some t => Str.startsWith t c!"@"
      | none => false) := by
  obtain ⟨u, ty, chTy, h1, h2, h3, h4, h5, h6, h7, h8, h9, h10, _⟩ := buildChapter_ok hs
  have hlen : (sel c!"Fields" r).length ≤ 1 := by
    rw [length_reloaded (hr.sel _)]; exact h10 hk.fieldsOnce
  have hfk := reloaded_headKids (hr.sel c!"Fields")
  rw [h9] at hfk
  have hpl := headKids_plain' hk.fields
  have hrd := fun st => readChFields_eq (st := st) hlen
  have hsup : decide (textOf c!"Field_SuppressChapterTitle" (headKids (sel c!"Fields" r)) = some c!"1")
      = c.suppressChapterTitle.getD false := by
    refine textOf_decide_chField hfk ?_ (hpl c!"Field_SuppressChapterTitle" (by decide))
    unfold chKids
    rw [(touches_trashKids _).sel_ne (by decide), (touches_chFieldKids _ _).sel_ne (by decide)]
  have hbrk : decide (textOf c!"Field_SuppressChapterBreak" (headKids (sel c!"Fields" r)) = some c!"1")
      = c.suppressChapterBreak.getD false := by
    refine textOf_decide_chField (fk := chFieldKids c!"Field_SuppressChapterTitle" (c.suppressChapterTitle.getD false) (headKids (sel c!"Fields" ks))) hfk ?_ ?_
    · unfold chKids
      rw [(touches_trashKids _).sel_ne (by decide)]
    · rw [(touches_chFieldKids _ _).sel_ne (by decide)]
      exact hpl c!"Field_SuppressChapterBreak" (by decide)
  have htr : decide (textOf c!"Field_IsTrash" (headKids (sel c!"Fields" r)) = some c!"1")
      = c.isTrash.getD false := by
    refine textOf_decide_trash (fk := chFieldKids c!"Field_SuppressChapterBreak" (c.suppressChapterBreak.getD false)
      (chFieldKids c!"Field_SuppressChapterTitle" (c.suppressChapterTitle.getD false) (headKids (sel c!"Fields" ks)))) hfk rfl ?_
    rw [(touches_chFieldKids _ _).sel_ne (by decide), (touches_chFieldKids _ _).sel_ne (by decide)]
    exact hpl c!"Field_IsTrash" (by decide)
  refine ⟨?_, ?_, ?_, ?_, ?_⟩
  · show some (readChapterType r) = _
    congr 1
    have hu : hasTag c!"Unused" r = u := hasTag_flagSel hr h4 (hk.plain _ (by decide)).1
    have hch : textOf c!"ChapterType" r = some chTy := by
      have hm := List.mem_of_getElem? h1
      have hcp : PlainStr chTy ∧ chTy ≠ [] := by
        simp only [chTypeEncoding, List.mem_cons, Prod.mk.injEq, List.not_mem_nil, or_false] at hm
        rcases hm with ⟨_, _, h⟩ | ⟨_, _, h⟩ | ⟨_, _, h⟩ | ⟨_, _, h⟩ <;> subst h <;>
          exact ⟨by unfold PlainStr; decide, by decide⟩
      rw [textOf_alwaysSel hr h7 (hk.plain _ (by decide)).2
        (Or.inr (by intro w hw; simp at hw; subst hw; exact hcp.1))]
      exact readText_ne hcp.2
    unfold readChapterType
    unfold textOf at hch
    cases hf : find c!"ChapterType" r with
    | none => rw [hf] at hch; simp at hch
    | some e =>
      rw [hf] at hch
      simp only [Option.bind_some] at hch
      simp only [hch, hu]
      revert h1
      generalize c.chType.getD 0 = k
      intro h1
      match k, h1 with
      | 0, h1 => simp only [chTypeEncoding, List.getElem?_cons_zero, Option.some.injEq, Prod.mk.injEq] at h1; obtain ⟨rfl, rfl, rfl⟩ := h1; rfl
      | 1, h1 => simp only [chTypeEncoding, List.getElem?_cons_zero, List.getElem?_cons_succ, Option.some.injEq, Prod.mk.injEq] at h1; obtain ⟨rfl, rfl, rfl⟩ := h1; rfl
      | 2, h1 => simp only [chTypeEncoding, List.getElem?_cons_zero, List.getElem?_cons_succ, Option.some.injEq, Prod.mk.injEq] at h1; obtain ⟨rfl, rfl, rfl⟩ := h1; rfl
      | 3, h1 => simp only [chTypeEncoding, List.getElem?_cons_zero, List.getElem?_cons_succ, Option.some.injEq, Prod.mk.injEq] at h1; obtain ⟨rfl, rfl, rfl⟩ := h1; rfl
      | k + 4, h1 => simp [chTypeEncoding] at h1
  · intro l hl hle
    show some (if hasTag c!"SectionStart" r then 1 else 0) = some l
    congr 1
    rw [hr.hasTag, hasTag_eq, h5, hl]
    have h0 := tail_of_le_one (hk.plain c!"SectionStart" (by decide)).1
    match l, hle with
    | 0, _ => simp [sectionSel, h0]
    | 1, _ => cases sel c!"SectionStart" ks <;> simp [sectionSel, missSel]
  · show (readChFields _ r).2.1.getD false = _
    rw [(hrd _).2.1, htr]
  · show (readChFields _ r).2.2.getD false = _
    rw [(hrd _).2.2, hbrk]
  · show some (readChFields _ r).1 = some (_ || match textOf c!"Title" r with | some t => _ | none => _)
    rw [(hrd _).1, hsup, Bool.or_comm]
    rfl

/-- Title, description and scene list of a chapter are read back as saved. -/
theorem C14_texts (c : Chapter) (scenes : List Str) (ks out r : List Elem) (hk : ChapterElement ks)
    (hs : buildChapter c ks = .ok out) (hr : ReloadedL out r) :
    (readChapter scenes r).title = saved (textOf c!"Title" ks) c.title ∧
    (readChapter scenes r).desc = saved (textOf c!"Desc" ks) c.desc := by
  obtain ⟨u, ty, chTy, h1, h2, h3, _⟩ := buildChapter_ok hs
  constructor
  · show textOf c!"Title" r = _
    rw [textOf_eq _ ks]
    exact textOf_alwaysSel hr h2 (hk.plain _ (by decide)).2 (Or.inl (by decide))
  · show textOf c!"Desc" r = _
    rw [textOf_eq _ ks]
    exact textOf_alwaysSel hr h3 (hk.plain _ (by decide)).2 (Or.inl (by decide))

theorem leaves_texts {sub : Str} {ids : List Str} {r : List Elem}
    (h : ReloadedL (ids.map (fun i => leaf sub (some i))) r) (hid : ∀ i ∈ ids, i ≠ [] ∧ PlainStr i) :
    (sel sub r).filterMap Elem.text = ids := by
  induction ids generalizing r with
  | nil => cases h; rfl
  | cons i ids ih =>
    simp only [List.map_cons] at h
    cases h with
    | cons _ e' _ r' h1 h2 =>
      have ht := h1.tag
      have hx := h1.text rfl
      simp only [leaf, Elem.tag_node, Elem.text_node] at ht hx
      have hlit := carried_literal hx (Or.inr (by intro s hs; cases hs; exact (hid i (by simp)).2))
      rw [readText_ne (hid i (by simp)).1] at hlit
      unfold sel
      rw [List.filter_cons, ht]
      simp only [decide_true, if_true, List.filterMap_cons, hlit]
      congr 1
      exact ih h2 (fun j hj => hid j (by simp [hj]))

/-- The scene list of a chapter is read back in the same order, if the scenes exist. -/
theorem C14_scenes (c : Chapter) (scenes : List Str) (ks out r : List Elem) (hk : ChapterElement ks)
    (hs : buildChapter c ks = .ok out) (hr : ReloadedL out r)
    (hid : ∀ i ∈ c.srtScenes, i ∈ scenes ∧ i ≠ [] ∧ PlainStr i) :
    (readChapter scenes r).srtScenes = c.srtScenes := by
  obtain ⟨u, ty, chTy, h1, _, _, _, _, _, _, h8, _⟩ := buildChapter_ok hs
  have hrs := hr.sel c!"Scenes"
  rw [h8] at hrs
  unfold idsSel at hrs
  rw [tail_of_le_one hk.scenesOnce] at hrs
  show (match find c!"Scenes" r with | none => [] | some e => _) = _
  rw [find_eq]
  revert hrs
  generalize sel c!"Scenes" r = z
  intro hrs
  split at hrs
  · rename_i h0; cases hrs; rw [h0]; rfl
  · simp only [List.nil_append] at hrs
    cases hrs with
    | cons _ e' _ r' g1 g2 =>
      simp only [List.head?_cons]
      have hk' := g1.kids
      simp only [Elem.kids_node] at hk'
      rw [leaves_texts hk' (fun i hi => (hid i hi).2)]
      rw [List.filter_eq_self]
      intro i hi
      simpa using (hid i hi).1

/-- Every type from Normal (0) to Unused (3) can be saved; a larger number raises `IndexError`. -/
theorem C14_types (c : Chapter) (ks : List Elem) :
    (∃ out, buildChapter c ks = .ok out) ↔ c.chType.getD 0 ≤ 3 := by
  unfold buildChapter
  by_cases h : c.chType.getD 0 ≤ 3
  · have hlt : c.chType.getD 0 < chTypeEncoding.length := Nat.lt_succ_of_le h
    rw [List.getElem?_eq_getElem hlt]
    exact ⟨fun _ => h, fun _ => ⟨_, rfl⟩⟩
  · have : chTypeEncoding[c.chType.getD 0]? = none := by
      rw [List.getElem?_eq_none_iff]; exact Nat.succ_le_of_lt (Nat.lt_of_not_le h)
    rw [this]
    simp [h]

/-! ### A concrete case -/

/-- A Notes chapter with flags and unknown elements. -/
def exOldCh : List Elem :=
  [leaf c!"ID" (some c!"3"), leaf c!"Title" (some c!"@Old"), leaf c!"Unused" (some c!"-1"),
   leaf c!"Foreign" (some c!"x"), leaf c!"SectionStart" (some c!"-1"), leaf c!"ChapterType" (some c!"1"),
   node c!"Fields" none none [leaf c!"Field_IsTrash" (some c!"1"), leaf c!"Field_Foreign" (some c!"y")],
   node c!"Scenes" none none [leaf c!"ScID" (some c!"9")]]

/-- The chapter that replaces it. -/
def exNewCh : Chapter :=
  { title := some c!"One & Two", chType := some 0, chLevel := some 0, suppressChapterBreak := some true,
    isTrash := some false, srtScenes := [c!"2", c!"1"] }

example : ∃ out, ChapterElement exOldCh ∧ buildChapter exNewCh exOldCh = .ok out ∧
    ReloadedL out (reloadL out) ∧
    readChapter [c!"1", c!"2"] (reloadL out) =
      { title := some c!"One & Two", chType := some 0, chLevel := some 0, suppressChapterTitle := some false,
        suppressChapterBreak := some true, isTrash := some false, srtScenes := [c!"2", c!"1"] } := by
  have hk : ChapterElement exOldCh := by
    constructor
    · unfold PlainOnce; decide
    · decide
    · decide
    · unfold PlainOnce; decide
  have hs : ∃ out, buildChapter exNewCh exOldCh = .ok out ∧ literalBL out = true ∧
      readChapter [c!"1", c!"2"] (reloadL out) =
      { title := some c!"One & Two", chType := some 0, chLevel := some 0, suppressChapterTitle := some false,
        suppressChapterBreak := some true, isTrash := some false, srtScenes := [c!"2", c!"1"] } :=
    ⟨_, rfl, by decide, by decide⟩
  obtain ⟨out, h1, h2, h3⟩ := hs
  exact ⟨out, hk, h1, reloadedL_reload out h2, h3⟩

end Verif
