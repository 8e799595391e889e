/-
C15: scene metadata, C16: scene items survive save and reload.

`sceneOut s ks` is what saving makes of the children `ks` of a scene element (for a new scene
`[<ID>]`), `ReloadedL out r` says that `r` are the children the next reading gets to see, and
`readScene` reads them.
-/
import Verif.Props.C13_SceneType
import Verif.Props.C01_C03_Lists

namespace Verif
open Xml Elem Spec

theorem readScene_ok {lib : PyLib} {a b c : List Str} {r : List Elem} {x : Scene}
    (h : readScene lib a b c r = .ok x) :
    ∃ y : Scene, x = (match textOf c!"SceneContent" r with | none => y | some t => y.setContent t) ∧
      y.sceneContent = none ∧ y.title = textOf c!"Title" r ∧ y.desc = textOf c!"Desc" r ∧
      y.notes = textOf c!"Notes" r ∧ y.goal = textOf c!"Goal" r ∧ y.outcome = textOf c!"Outcome" r ∧
      y.image = textOf c!"ImageFile" r ∧ y.conflict = textOf c!"Conflict" r ∧
      y.field1 = textOf c!"Field1" r ∧ y.field2 = textOf c!"Field2" r ∧ y.field3 = textOf c!"Field3" r ∧
      y.field4 = textOf c!"Field4" r ∧ y.lastsDays = textOf c!"LastsDays" r ∧
      y.lastsHours = textOf c!"LastsHours" r ∧ y.lastsMinutes = textOf c!"LastsMinutes" r ∧
      y.tags = readTags r ∧ y.appendToPrev = some (hasTag c!"AppendToPrev" r) ∧
      y.isReactionScene = some (hasTag c!"ReactionScene" r) ∧ y.isSubPlot = some (hasTag c!"SubPlot" r) ∧
      y.characters = readIds c!"Characters" c!"CharID" a r ∧
      y.locations = readIds c!"Locations" c!"LocID" b r ∧
      y.items = readIds c!"Items" c!"ItemID" c r ∧
      y.scType = some (readSceneType r) ∧ y.doNotExport = some (readDoNotExport r) ∧
      .ok y.status = readStatus lib r ∧ .ok (y.date, y.time, y.day) = readStart lib r ∧
      y.scnArcs = customOf c!"Field_SceneArcs" r ∧
      y.scnMode = (customOf c!"Field_SceneMode" r).bind lib.int := by
  unfold readScene at h
  cases h1 : readStatus lib r with
  | error e => rw [h1] at h; simp at h
  | ok st =>
    cases h2 : readStart lib r with
    | error e => rw [h1, h2] at h; simp at h
    | ok p =>
      obtain ⟨d, t, y⟩ := p
      rw [h1, h2] at h
      simp only [Except.ok.injEq] at h
      exact ⟨_, h.symm, rfl, rfl, rfl, rfl, rfl, rfl, rfl, rfl, rfl, rfl, rfl, rfl, rfl, rfl, rfl, rfl, rfl, rfl, rfl,
        rfl, rfl, rfl, rfl, rfl, rfl, rfl, rfl, rfl⟩

theorem sceneTexts_content {s : Scene} {ks out r : List Elem} (hk : SceneElement ks)
    (hs : sceneOut s ks = .ok out) (hr : ReloadedL out r) :
    textOf c!"SceneContent" r = saved (textOf c!"SceneContent" ks) s.sceneContent := by
  have h := scene_SceneContent hs
  have hl := (hk.plain c!"SceneContent" (by decide)).2
  have hc : ∀ e ∈ sel c!"SceneContent" out, e.kids = [] := by
    rw [h]
    revert hl
    generalize sel c!"SceneContent" ks = l
    intro hl e he
    cases hsc : s.sceneContent with
    | none =>
      rw [hsc] at he
      cases l with
      | nil => simp only [missSel, List.mem_singleton] at he; subst he; rfl
      | cons a q => exact hl e he
    | some v =>
      rw [hsc] at he
      cases l with
      | nil => simp only [missSel, setHead, List.mem_singleton] at he; subst he; rfl
      | cons a q =>
        simp only [missSel, setHead, List.mem_cons] at he
        rcases he with he | he
        · subst he
          have := hl a (by simp)
          simpa using this
        · exact hl e (by simp [he])
  rw [hr.textOf hc (Or.inl (by decide)), textOf_eq, textOf_eq, h]
  unfold saved
  cases s.sceneContent with
  | none => cases sel c!"SceneContent" ks <;> rfl
  | some v => cases sel c!"SceneContent" ks <;> simp [missSel, setHead]

/-- **C15, texts with CDATA section**: title, description, notes, goal, outcome, image and scene text
are read back as saved, whatever characters they contain and whatever the scene element contained
before; the word and letter counts belong to the text. -/
theorem C15_texts (lib : PyLib) (chrs locs itms : List Str) (s x : Scene) (ks out r : List Elem)
    (hk : SceneElement ks) (hs : sceneOut s ks = .ok out) (hr : ReloadedL out r)
    (hx : readScene lib chrs locs itms r = .ok x) : SceneTexts ks s x := by
  obtain ⟨y, e, e0, e1, e2, e3, e4, e5, e6, _⟩ := readScene_ok hx
  have hc := sceneTexts_content hk hs hr
  have key : ∀ {t : Str} {v : Option Str}, t ∈ sceneTextTags → t ∈ cdataTags →
      sel t out = textSel t v (sel t ks) → textOf t r = saved (textOf t ks) v := by
    intro t v ht hcd h
    rw [textOf_eq t ks]
    exact textOf_textSel hr h (hk.plain t ht).2 (Or.inl hcd)
  have g1 : y.title = saved (textOf c!"Title" ks) s.title := by
    rw [e1, textOf_eq _ ks]
    exact textOf_alwaysSel hr (scene_Title hs) (hk.plain _ (by decide)).2 (Or.inl (by decide))
  have g2 := e2.trans (key (by decide) (by decide) (scene_Desc hs))
  have g3 := e3.trans (key (by decide) (by decide) (scene_Notes hs))
  have g4 := e4.trans (key (by decide) (by decide) (scene_Goal hs))
  have g5 := e5.trans (key (by decide) (by decide) (scene_Outcome hs))
  have g6 := e6.trans (key (by decide) (by decide) (scene_ImageFile hs))
  rw [hc] at e
  cases hsc : saved (textOf c!"SceneContent" ks) s.sceneContent with
  | none =>
    rw [hsc] at e; simp only at e; subst e
    exact ⟨g1, g2, g3, g4, g5, g6, by rw [hsc, e0], by rw [e0]; simp⟩
  | some t =>
    rw [hsc] at e; simp only at e; subst e
    exact ⟨g1, g2, g3, g4, g5, g6, by rw [hsc]; rfl, by intro c h; cases h; exact ⟨rfl, rfl⟩⟩

/-- **C15, texts without CDATA section**: the conflict, the ratings and the duration are read back as
saved if they contain no characters that need escaping in XML. -/
theorem C15_plain_partial (lib : PyLib) (chrs locs itms : List Str) (s x : Scene) (ks out r : List Elem)
    (hk : SceneElement ks) (hs : sceneOut s ks = .ok out) (hr : ReloadedL out r)
    (hx : readScene lib chrs locs itms r = .ok x) (hp : PlainValues ks s) : ScenePlainTexts ks s x := by
  obtain ⟨y, e, e0, _, _, _, _, _, _, e1, e2, e3, e4, e5, e6, e7, e8, _⟩ := readScene_ok hx
  have key : ∀ {t : Str} {v : Option Str}, t ∈ sceneTextTags →
      (∀ w, v.or (textOf t ks) = some w → PlainStr w) →
      sel t out = textSel t v (sel t ks) → textOf t r = saved (textOf t ks) v := by
    intro t v ht hpl h
    rw [textOf_eq t ks] at hpl ⊢
    exact textOf_textSel hr h (hk.plain t ht).2 (Or.inr hpl)
  have g1 := e1.trans (key (by decide) hp.conflict (scene_Conflict hs))
  have g2 := e2.trans (key (by decide) hp.field1 (scene_Field1 hs))
  have g3 := e3.trans (key (by decide) hp.field2 (scene_Field2 hs))
  have g4 := e4.trans (key (by decide) hp.field3 (scene_Field3 hs))
  have g5 := e5.trans (key (by decide) hp.field4 (scene_Field4 hs))
  have g6 := e6.trans (key (by decide) hp.lastsDays (scene_LastsDays hs))
  have g7 := e7.trans (key (by decide) hp.lastsHours (scene_LastsHours hs))
  have g8 := e8.trans (key (by decide) hp.lastsMinutes (scene_LastsMinutes hs))
  cases hsc : textOf c!"SceneContent" r with
  | none => rw [hsc] at e; simp only at e; subst e; exact ⟨g1, g2, g3, g4, g5, g6, g7, g8⟩
  | some t => rw [hsc] at e; simp only at e; subst e; exact ⟨g1, g2, g3, g4, g5, g6, g7, g8⟩

/-- Tags that survive the text form (C03) are read back as saved; `None` leaves the old tags alone. -/
theorem readTags_saved {s : Scene} {ks out r : List Elem} (hk : SceneElement ks)
    (hs : sceneOut s ks = .ok out) (hr : ReloadedL out r) {l : List Str} (hl : s.tags = some l)
    (hn : l.Nodup) (hc : ∀ t ∈ l, t ≠ [] ∧ Str.strip t = t ∧ ';' ∉ t) : readTags r = readList l := by
  have h := textOf_textSel hr (scene_Tags hs) (hk.plain _ (by decide)).2 (Or.inl (by decide))
  unfold readTags
  rw [h, hl]
  have hrt := C03_roundtrip_char l ';' hn (fun t ht => ⟨(hc t ht).1, (hc t ht).2.1⟩) (fun t ht => (hc t ht).2.2)
  simp only [Option.map_some, saved, Option.some_or]
  by_cases hnil : l = []
  · subst hnil; rfl
  · have hne : listToString (some l) c!";" ≠ [] := by
      intro h0
      rw [h0] at hrt
      exact hnil hrt.symm
    rw [readText_ne hne, Option.map_some, hrt, readList, if_neg hnil]
    congr 1
    have hm : ∀ l' : List Str, (∀ t ∈ l', Str.strip t = t) → l'.map Str.strip = l' := by
      intro l' h'
      induction l' with
      | nil => rfl
      | cons a q ih => rw [List.map_cons, h' a (by simp), ih (fun t ht => h' t (by simp [ht]))]
    exact hm l (fun t ht => (hc t ht).2.1)

/-- **C15, tags, flags, status, characters and locations.** -/
theorem C15_metadata (lib : PyLib) (chrs locs itms : List Str) (s x : Scene) (ks out r : List Elem)
    (hk : SceneElement ks) (hs : sceneOut s ks = .ok out) (hr : ReloadedL out r)
    (hx : readScene lib chrs locs itms r = .ok x) :
    x.appendToPrev = some (s.appendToPrev.getD false) ∧
    x.isReactionScene = some (s.isReactionScene.getD false) ∧
    x.isSubPlot = some (s.isSubPlot.getD false) ∧
    (∀ i, s.status = some i → x.status = some i) ∧
    (∀ l, s.tags = some l → l.Nodup → (∀ t ∈ l, t ≠ [] ∧ Str.strip t = t ∧ ';' ∉ t) → x.tags = readList l) ∧
    ((∀ i ∈ s.characters.getD [], i ∈ chrs ∧ i ≠ [] ∧ PlainStr i) →
      x.characters = readList (s.characters.getD [])) ∧
    ((∀ i ∈ s.locations.getD [], i ∈ locs ∧ i ≠ [] ∧ PlainStr i) →
      x.locations = readList (s.locations.getD [])) := by
  obtain ⟨y, e, e0, _, _, _, _, _, _, _, _, _, _, _, _, _, _, e1, e2, e3, e4, e5, e6, _, _, _, e7, _⟩ := readScene_ok hx
  have g : y.appendToPrev = some (s.appendToPrev.getD false) ∧
      y.isReactionScene = some (s.isReactionScene.getD false) ∧
      y.isSubPlot = some (s.isSubPlot.getD false) ∧
      (∀ i, s.status = some i → y.status = some i) ∧
      (∀ l, s.tags = some l → l.Nodup → (∀ t ∈ l, t ≠ [] ∧ Str.strip t = t ∧ ';' ∉ t) → y.tags = readList l) ∧
      ((∀ i ∈ s.characters.getD [], i ∈ chrs ∧ i ≠ [] ∧ PlainStr i) →
        y.characters = readList (s.characters.getD [])) ∧
      ((∀ i ∈ s.locations.getD [], i ∈ locs ∧ i ≠ [] ∧ PlainStr i) →
        y.locations = readList (s.locations.getD [])) := by
    refine ⟨?_, ?_, ?_, ?_, ?_, ?_, ?_⟩
    · rw [e2, hasTag_flagSel hr (scene_AppendToPrev hs) (hk.plain _ (by decide)).1]
    · rw [e3, hasTag_flagSel hr (scene_ReactionScene hs) (hk.plain _ (by decide)).1]
    · rw [e4, hasTag_flagSel hr (scene_SubPlot hs) (hk.plain _ (by decide)).1]
    · intro i hi
      have hpl : PlainStr (Str.ofInt i) := plainStr_ofInt i
      have ht := textOf_alwaysSel hr (scene_Status hs) (hk.plain _ (by decide)).2
        (Or.inr (by rw [hi]; intro v hv; simp only [Option.map_some, Option.some_or, Option.some.injEq] at hv; subst hv; exact hpl))
      rw [hi] at ht
      simp only [Option.map_some, saved, Option.some_or, readText_ne (ofInt_ne_nil i)] at ht
      unfold readStatus at e7
      unfold textOf at ht
      cases hf : find c!"Status" r with
      | none => rw [hf] at ht; simp at ht
      | some el =>
        rw [hf] at ht e7
        simp only [Option.bind_some] at ht e7
        rw [ht] at e7
        simp only [lib.int_str, Except.ok.injEq] at e7
        exact e7
    · intro l hl hn hc
      rw [e1]; exact readTags_saved hk hs hr hl hn hc
    · intro h
      rw [e5]; exact readIds_idsSel hr (scene_Characters hs) (hk.lists _ (by decide)) (by decide) h
    · intro h
      rw [e6]; exact readIds_idsSel hr (scene_Locations hs) (hk.lists _ (by decide)) (by decide) h
  cases hsc : textOf c!"SceneContent" r with
  | none => rw [hsc] at e; simp only at e; subst e; exact g
  | some t => rw [hsc] at e; simp only at e; subst e; exact g

/-! ### What is false -/

/-- Raw character data has no `<`. -/
theorem charData_no_lt {raw t : Str} (h : CharData raw t) : '<' ∉ raw := by
  induction h with
  | nil => simp
  | char c h1 h2 h3 h4 h5 _ ih => simp only [List.mem_cons, not_or]; exact ⟨Ne.symm h2, ih⟩
  | entity name c hm _ ih =>
    simp only [List.mem_append, not_or]
    refine ⟨?_, ih⟩
    simp only [entities, List.mem_cons, Prod.mk.injEq, List.not_mem_nil, or_false] at hm
    rcases hm with ⟨rfl, _⟩ | ⟨rfl, _⟩ | ⟨rfl, _⟩ | ⟨rfl, _⟩ | ⟨rfl, _⟩ <;> decide
  | crlf _ ih => simp only [List.mem_cons, not_or]; exact ⟨by decide, by decide, ih⟩
  | cr _ _ ih => simp only [List.mem_cons, not_or]; exact ⟨by decide, ih⟩

/-- The file of a scene whose conflict contains a `<` cannot be read back as a file with this scene: the
comma missing after `'Conflict'` in `_CDATA_TAGS` leaves the text unprotected. -/
theorem C15_conflict_unprotected (s : Scene) (ks out : List Elem) (c : Str) (hk : SceneElement ks)
    (hs : sceneOut s ks = .ok out) (hc : s.conflict = some c) (hlt : '<' ∈ c) : ¬ ∃ r, ReloadedL out r := by
  rintro ⟨r, hr⟩
  have h := scene_Conflict hs
  have hl := leaf_textSel (t := c!"Conflict") (v := s.conflict) (hk.plain c!"Conflict" (by decide)).2
  rw [← h] at hl
  have hcar := hr.carried hl
  have hne : c ≠ [] := by intro h0; subst h0; simp at hlt
  have htx : textOf c!"Conflict" out = some c := by
    rw [textOf_eq, h, hc]
    cases sel c!"Conflict" ks with
    | nil => simp [textSel, hne]
    | cons e q => simp [textSel]
  rw [htx] at hcar
  generalize textOf c!"Conflict" r = z at hcar
  cases hcar with
  | empty => simp at hlt
  | cdata _ hm _ => exact absurd hm (by decide)
  | plain _ x' _ _ hcd => exact charData_no_lt hcd hlt

/-- A concrete new scene with such a conflict: it is saved without error, and cannot be read back. -/
theorem C15_false : ∃ (s : Scene) (out : List Elem), s.conflict = some c!"a < b" ∧
    sceneOut s [leaf c!"ID" (some c!"1")] = .ok out ∧ ¬ ∃ r, ReloadedL out r := by
  let s : Scene := { title := some c!"T", conflict := some c!"a < b", sceneContent := some c!"Text" }
  have hs : ∃ out, sceneOut s [leaf c!"ID" (some c!"1")] = .ok out := ⟨_, rfl⟩
  obtain ⟨out, hs⟩ := hs
  exact ⟨s, out, rfl, hs, C15_conflict_unprotected s _ out c!"a < b" (newScene _) hs rfl (by decide)⟩

/-! ### C16 -/

theorem iterTagKids_other {sub sub2 : Str} (hne : sub2 ≠ sub) {ids : List Str} {r : List Elem}
    (h : ReloadedL (ids.map (fun i => leaf sub2 (some i))) r) : iterTagKids sub r = [] := by
  induction ids generalizing r with
  | nil => cases h; simp [iterTagKids]
  | cons i ids ih =>
    simp only [List.map_cons] at h
    cases h with
    | cons _ e' _ r' h1 h2 =>
      have ht := h1.tag
      have hk := h1.kids
      cases e' with
      | node t x y k =>
        simp only [Elem.tag_node, Elem.kids_node] at ht hk
        cases hk
        simp only [iterTagKids, iterTag, ih h2]
        rw [ht]
        simp [leaf, hne]

/-- **C16 is false**: the items of a scene are never read back. Saving writes them as `ItmID`, reading
looks for `ItemID`. -/
theorem C16_items_lost (lib : PyLib) (chrs locs itms : List Str) (s x : Scene) (ks out r : List Elem)
    (hk : SceneElement ks) (hs : sceneOut s ks = .ok out) (hr : ReloadedL out r)
    (hx : readScene lib chrs locs itms r = .ok x) : x.items = none := by
  obtain ⟨y, e, _, _, _, _, _, _, _, _, _, _, _, _, _, _, _, _, _, _, _, _, _, e1, _⟩ := readScene_ok hx
  have g : y.items = none := by
    rw [e1]
    have h := scene_Items hs
    have ht := tail_of_le_one (hk.lists c!"Items" (by decide))
    have hrs := hr.sel c!"Items"
    rw [h] at hrs
    unfold readIds
    rw [find_eq]
    unfold idsSel at hrs
    rw [ht] at hrs
    revert hrs
    generalize sel c!"Items" r = z
    intro hrs
    split at hrs
    · cases hrs; rfl
    · simp only [List.nil_append] at hrs
      cases hrs with
      | cons _ e' _ r' h1 h2 =>
        simp only [List.head?_cons]
        have hk' := h1.kids
        simp only [Elem.kids_node] at hk'
        have ht' := h1.tag
        cases e' with
        | node t a b k =>
          simp only [Elem.tag_node, Elem.kids_node] at ht' hk'
          subst ht'
          rw [show iterTag c!"ItemID" (node c!"Items" a b k) = iterTagKids c!"ItemID" k by
            rw [iterTag]; simp, iterTagKids_other (by decide) hk']
          rfl
  cases hsc : textOf c!"SceneContent" r with
  | none => rw [hsc] at e; simp only at e; subst e; exact g
  | some t => rw [hsc] at e; simp only at e; subst e; exact g

/-- What does hold: the file contains the item IDs of the scene, in order, and no others. -/
theorem C16_written_partial (s : Scene) (ks out r : List Elem) (hk : SceneElement ks)
    (hs : sceneOut s ks = .ok out) (hr : ReloadedL out r)
    (hid : ∀ i ∈ s.items.getD [], i ≠ [] ∧ PlainStr i) :
    (find c!"Items" r).map (fun e => (iterTag c!"ItmID" e).filterMap Elem.text)
      = readList (s.items.getD []) := by
  have h := scene_Items hs
  have := readIds_idsSel (known := s.items.getD []) hr h (hk.lists c!"Items" (by decide)) (by decide)
    (fun i hi => ⟨hi, hid i hi⟩)
  have ht := tail_of_le_one (hk.lists c!"Items" (by decide))
  have hrs := hr.sel c!"Items"
  rw [h] at hrs
  rw [find_eq]
  unfold idsSel at hrs
  rw [ht] at hrs
  revert hrs
  generalize sel c!"Items" r = z
  intro hrs
  unfold readList
  split at hrs
  · rename_i h0; cases hrs; rw [if_pos h0]; rfl
  · rename_i h0
    rw [if_neg h0]
    simp only [List.nil_append] at hrs
    cases hrs with
    | cons _ e' _ r' h1 h2 =>
      simp only [List.head?_cons, Option.map_some]
      have hk' := h1.kids
      simp only [Elem.kids_node] at hk'
      have ht' := h1.tag
      cases e' with
      | node t a b k =>
        simp only [Elem.tag_node, Elem.kids_node] at ht' hk'
        subst ht'
        rw [show iterTag c!"ItmID" (node c!"Items" a b k) = iterTagKids c!"ItmID" k by
          rw [iterTag]; simp, iterTagKids_leaves hk' hid]

end Verif
