/-
What holds of every novel that was read from a project file (used by C67).
-/
import Verif.Lemmas.Export2
import Verif.Props.C49_Sheets
import Verif.Spec.Travel

namespace Verif
open Spec

theorem readEntries_listed {α : Type} {f : List Elem → Except Exc α} (es : List Elem) :
    ∀ acc r, (∀ id ∈ acc.1, id ∈ acc.2.keys) → readEntries f acc es = .ok r → ∀ id ∈ r.1, id ∈ r.2.keys := by
  induction es with
  | nil => intro acc r h hr; unfold readEntries at hr; cases hr; exact h
  | cons e es ih =>
    intro acc r h hr
    unfold readEntries at hr
    split at hr
    · cases hr
    · split at hr
      · cases hr
      · refine ih _ r ?_ hr
        intro id hid
        rw [Dict.mem_keys_set]
        rcases List.mem_append.1 hid with hid | hid
        · exact .inr (h id hid)
        · exact .inl (List.mem_singleton.1 hid)

theorem readSection_listed {α : Type} {f : List Elem → Except Exc α} {t : Str} {d : Dict α} {rk : List Elem} {r : List Str × Dict α}
    (h : readSection t f d rk = .ok r) : ∀ id ∈ r.1, id ∈ r.2.keys := by
  unfold readSection at h
  split at h
  · cases h
  · exact readEntries_listed _ _ r (fun id hid => by cases hid) h

theorem readNotes_listed (es : List Elem) : ∀ acc : List Str × Dict BasicElement, (∀ id ∈ acc.1, id ∈ acc.2.keys) → ∀ id ∈ (readNotes acc es).1, id ∈ (readNotes acc es).2.keys := by
  induction es with
  | nil => intro acc h; unfold readNotes; exact h
  | cons e es ih =>
    intro acc h
    have hset : ∀ (id : Str) (a : BasicElement), ∀ x ∈ acc.1 ++ [id], x ∈ (acc.2.set id a).keys := by
      intro id a x hx
      rw [Dict.mem_keys_set]
      rcases List.mem_append.1 hx with hx | hx
      · exact .inr (h x hx)
      · exact .inl (List.mem_singleton.1 hx)
    unfold readNotes
    split
    · split
      · exact h
      · exact ih acc h
    · split
      · exact h
      · dsimp only
        split
        · exact hset _ _
        · exact ih _ (hset _ _)

theorem readIds_listed {t sub : Str} {known : List Str} {ks : List Elem} {l : List Str} (h : readIds t sub known ks = some l) : ∀ x ∈ l, x ∈ known := by
  unfold readIds at h
  split at h
  · cases h
  · dsimp only at h
    split at h
    · cases h
    · cases h
      intro x hx
      exact of_decide_eq_true (List.mem_filter.1 hx).2

theorem fieldSceneType_known (es : List Elem) : fieldSceneType es = 0 ∨ setAside (some (fieldSceneType es)) = true := by
  unfold fieldSceneType
  have : ∀ acc : Nat, (acc = 0 ∨ setAside (some acc) = true) → ∀ x, x = (es.foldl (fun acc f =>
      match Xml.find c!"Field_SceneType" f.kids with
      | some e => if e.text = some c!"1" then 1 else if e.text = some c!"2" then 2 else acc
      | none => acc) acc) → (x = 0 ∨ setAside (some x) = true) := by
    induction es with
    | nil => intro acc h x hx; rw [hx]; exact h
    | cons e es ih =>
      intro acc h x hx
      refine ih _ ?_ x hx
      dsimp only
      cases Xml.find c!"Field_SceneType" e.kids with
      | none => exact h
      | some e =>
        dsimp only
        split
        · exact .inr rfl
        · split
          · exact .inr rfl
          · exact h
  exact this 0 (.inl rfl) _ rfl

theorem readSceneType_known (ks : List Elem) : readSceneType ks = 0 ∨ setAside (some (readSceneType ks)) = true := by
  unfold readSceneType
  split
  · exact .inr rfl
  · exact fieldSceneType_known _

/-- What reading ensures of a scene. -/
structure SceneFromFile (chrs locs items : List Str) (s : Scene) : Prop where
  type : s.scType = some 0 ∨ setAside s.scType = true
  counts : ∀ t, s.sceneContent = some t → s.wordCount = wordCountOf t ∧ s.letterCount = letterCountOf t
  locations : ∀ l, s.locations = some l → ∀ x ∈ l, x ∈ locs
  items : ∀ l, s.items = some l → ∀ x ∈ l, x ∈ items
  characters : ∀ l, s.characters = some l → ∀ x ∈ l, x ∈ chrs

theorem readScene_from {lib : PyLib} {chrs locs itms : List Str} {ks : List Elem} {s : Scene} (h : readScene lib chrs locs itms ks = .ok s) : SceneFromFile chrs locs itms s := by
  unfold readScene at h
  split at h
  · cases h
  · split at h
    · cases h
    · dsimp only at h
      split at h
      · cases h
        refine ⟨?_, ?_, ?_, ?_, ?_⟩
        · dsimp only
          rcases readSceneType_known ks with e | e
          · left; rw [e]
          · exact .inr e
        · intro t ht; cases ht
        · exact fun l hl => readIds_listed hl
        · exact fun l hl => readIds_listed hl
        · exact fun l hl => readIds_listed hl
      · rename_i t _
        cases h
        refine ⟨?_, ?_, ?_, ?_, ?_⟩
        · show (some (readSceneType ks) = some 0 ∨ setAside (some (readSceneType ks)) = true)
          rcases readSceneType_known ks with e | e
          · left; rw [e]
          · exact .inr e
        · intro u hu
          cases hu
          exact ⟨rfl, rfl⟩
        · exact fun l hl => readIds_listed hl
        · exact fun l hl => readIds_listed hl
        · exact fun l hl => readIds_listed hl

/-- Everything that C67 needs to know of a novel that was read. -/
structure NovelFromFile (n : Novel) : Prop where
  there : AllThere n
  chapters : ∀ id c, n.chapters.get? id = some c → c.chType = some 0 ∨ setAside c.chType = true
  scenes : ∀ id s, n.scenes.get? id = some s → SceneFromFile n.srtCharacters n.srtLocations n.srtItems s
  inherits : Inherits n

theorem readTree_from {lib : PyLib} {root : Elem} {n : Novel} (h0 : readTree lib root = .ok n) : NovelFromFile n := by
  have h := h0
  unfold readTree readRoot at h
  cases hf : Xml.find c!"PROJECT" root.kids with
  | none => rw [hf] at h; cases h
  | some prj =>
  rw [hf] at h
  obtain ⟨prj, _, h⟩ := bind_ok h
  obtain ⟨l, hl, h⟩ := bind_ok h
  obtain ⟨i, hi, h⟩ := bind_ok h
  obtain ⟨c, hc, h⟩ := bind_ok h
  obtain ⟨s, hs, h⟩ := bind_ok h
  obtain ⟨ch, hch, h⟩ := bind_ok h
  have hty : AllVals (fun c : Chapter => c.chType = some 0 ∨ setAside c.chType = true) ch.2 := by
    refine readSection_all (f := fun ks => .ok (readChapter s.2.keys ks)) ?_ (fun k v hv => by cases hv) hch
    intro ks a ha
    cases ha
    simp only [readChapter]
    rcases readChapterType_le ks with e | e
    · left; rw [e]
    · right; exact e
  have hsc : AllVals (SceneFromFile c.1 l.1 i.1) s.2 := readSection_all (fun ks a ha => readScene_from ha) (fun k v hv => by cases hv) hs
  obtain ⟨e1, _, e3⟩ := C39_effect _ _ h
  refine ⟨?_, ?_, ?_, readTree_inherits h0⟩
  · rw [e1]
    exact ⟨readSection_listed hc, readSection_listed hl, readSection_listed hi, readNotes_listed _ _ (fun id hid => by cases hid)⟩
  · rw [e1]
    exact hty
  · intro id x hx
    rw [e3] at hx
    have a1 : n.srtLocations = l.1 := by rw [e1]
    have a2 : n.srtItems = i.1 := by rw [e1]
    have a3 : n.srtCharacters = c.1 := by rw [e1]
    rw [a1, a2, a3]
    dsimp only at hx
    cases hg : s.2.get? id with
    | none => rw [hg] at hx; cases hx
    | some s0 =>
      rw [hg] at hx
      simp only [Option.map_some, Option.some.injEq] at hx
      have f := hsc id s0 hg
      split at hx
      · rw [← hx]; exact f
      · rename_i b hb
        rw [← hx]
        refine ⟨?_, f.counts, f.locations, f.items, f.characters⟩
        have hb2 := List.mem_of_getLast? hb
        rw [List.mem_filter] at hb2
        simp only [Bool.and_eq_true, decide_eq_true_eq] at hb2
        have hnn := hb2.2.1
        unfold nonNormal at hnn
        dsimp only at hnn ⊢
        unfold typeOf
        dsimp only
        cases hcb : ch.2.get? b with
        | none => rw [hcb] at hnn; cases hnn
        | some cb => exact hty b cb hcb

theorem NovelFromFile.exportable {n : Novel} (h : NovelFromFile n) (hs : Sound n) (hk : KnownStatus n) : Exportable n where
  chapters id hid := (Dict.mem_keys_iff _ _).1 (hs.chIn id hid)
  scenes id hid := by
    obtain ⟨s, hg⟩ := (Dict.mem_keys_iff _ _).1 (hs.scIn id hid)
    exact ⟨s, hg, hk id hid s hg, fun l hl x hx => h.there.locations x ((h.scenes id s hg).locations l hl x hx), fun l hl x hx => h.there.items x ((h.scenes id s hg).items l hl x hx)⟩

theorem NovelFromFile.counts {n : Novel} (h : NovelFromFile n) : CountsFit n := fun id s t hg ht => (h.scenes id s hg).counts t ht

theorem NovelFromFile.shown {n : Novel} (h : NovelFromFile n) : ∀ id ∈ shownChapters n n.srtChapters, ∀ ch, n.chapters.get? id = some ch → ch.chType = some 0 := by
  intro id hid ch hc
  have := (List.mem_filter.1 hid).2
  rw [hc] at this
  have this : chapterShown n ch = true := this
  rcases h.chapters id ch hc with e | e
  · exact e
  · unfold chapterShown at this
    rw [e] at this
    cases this

theorem NovelFromFile.described {n : Novel} (h : NovelFromFile n) (parts : Bool) : ∀ id ∈ described parts n n.srtChapters, ∀ ch, n.chapters.get? id = some ch → ch.chType = some 0 := by
  intro id hid ch hc
  have := (List.mem_filter.1 hid).2
  rw [hc] at this
  have this : (chapterShown n ch && ((ch.chLevel == some 1) == parts)) = true := this
  rw [Bool.and_eq_true] at this
  refine h.shown id (List.mem_filter.2 ⟨(List.mem_filter.1 hid).1, ?_⟩) ch hc
  rw [hc]
  exact this.1

theorem NovelFromFile.exported {n : Novel} (h : NovelFromFile n) : ∀ p ∈ exported n n.srtChapters, p.2.scType = some 0 := by
  intro p hp
  obtain ⟨hs, hx⟩ := (C29_exported n).2 p.1 p.2 |>.1 hp
  rcases (h.scenes p.1 p.2 hs).type with e | e
  · exact e
  · obtain ⟨a, b, _, _, _, hx⟩ := hx
    unfold forExport at hx
    rw [e] at hx
    simp at hx

end Verif
