/-
C23: characters, locations, items and project notes survive saving and reloading.
-/
import Verif.Props.C22_Structure
import Verif.Props.C15_C16_Scenes

namespace Verif
open Xml Elem Spec

namespace Spec

/-- Tags as a user can enter them: distinct, stripped, not empty, without the divider. -/
def GoodTags (l : List Str) : Prop := l.Nodup ∧ ∀ t ∈ l, t ≠ [] ∧ Str.strip t = t ∧ ';' ∉ t

/-- Tags as read back: `None` stays `None`, an empty list is read as `None`. -/
def savedTags (l : Option (List Str)) : Option (List Str) := l.bind readList

/-- The attributes of a location or item are read back into `x` as they were saved. -/
structure WorldSame (w x : WorldElement) : Prop where
  title : x.title = readText w.title
  desc : x.desc = readText w.desc
  image : x.image = readText w.image
  aka : x.aka = readText w.aka
  tags : (∀ l, w.tags = some l → GoodTags l) → x.tags = savedTags w.tags
  link : (∀ v, w.kwVar.get? c!"Field_Link" = some (some v) → Carriable v) →
    (x.kwVar.get? c!"Field_Link").join = readText (w.kwVar.get? c!"Field_Link").join

/-- The attributes of a character are read back into `x` as they were saved. -/
structure CharacterSame (w x : Character) : Prop where
  title : x.title = readText w.title
  desc : x.desc = readText w.desc
  image : x.image = readText w.image
  aka : x.aka = readText w.aka
  tags : (∀ l, w.tags = some l → GoodTags l) → x.tags = savedTags w.tags
  notes : x.notes = readText w.notes
  bio : x.bio = readText w.bio
  goals : x.goals = readText w.goals
  fullName : x.fullName = readText w.fullName
  isMajor : x.isMajor = some (w.isMajor.getD false)
  custom : ∀ f ∈ [c!"Field_Link", c!"Field_BirthDate", c!"Field_DeathDate"],
    (∀ v, w.kwVar.get? f = some (some v) → Carriable v) →
    (x.kwVar.get? f).join = readText (w.kwVar.get? f).join

end Spec

theorem textOf_newSel {out r : List Elem} {t : Str} {v : Option Str} (hr : ReloadedL out r)
    (hs : sel t out = newSel t v []) (ht : t ∈ cdataTags) : textOf t r = readText v := by
  have h := hr.textOf (t := t) (by rw [hs]; cases v <;> simp [newSel, leaf]) (Or.inl ht)
  rw [h, textOf_eq, hs]
  cases v <;> rfl

theorem readTags_newSel {out r : List Elem} {tags : Option (List Str)} (hr : ReloadedL out r)
    (hs : sel c!"Tags" out = newSel c!"Tags" (tags.map (fun l => listToString (some l) c!";")) [])
    (hg : ∀ l, tags = some l → GoodTags l) : readTags r = savedTags tags := by
  unfold readTags savedTags
  rw [textOf_newSel hr hs (by decide)]
  cases tags with
  | none => rfl
  | some l =>
    obtain ⟨hn, hc⟩ := hg l rfl
    have hrt := C03_roundtrip_char l ';' hn (fun t ht => ⟨(hc t ht).1, (hc t ht).2.1⟩) (fun t ht => (hc t ht).2.2)
    simp only [Option.map_some, Option.bind_some]
    by_cases hnil : l = []
    · subst hnil; rfl
    · have hne : listToString (some l) c!";" ≠ [] := by
        intro h0
        rw [h0] at hrt
        exact hnil hrt.symm
      rw [readText_ne hne, Option.map_some, hrt, readList, if_neg hnil]
      congr 1
      have hm : ∀ l' : List Str, (∀ t ∈ l', Str.strip t = t) → l'.map Str.strip = l' := by
        intro l' h'
        induction l' with
        | nil => rfl
        | cons a q ih => rw [List.map_cons, h' a (by simp), ih (fun t ht => h' t (by simp [ht]))]
      exact hm l (fun t ht => (hc t ht).2.1)

theorem hasTag_newSel {out r : List Elem} {t : Str} {b : Bool} (hr : ReloadedL out r)
    (hs : sel t out = newSel t (if b then some c!"-1" else none) []) : hasTag t r = b := by
  rw [hr.hasTag, hasTag_eq, hs]
  cases b <;> rfl

/-- Custom fields in a new element: the value is read back. -/
theorem customOf_new {out r : List Elem} {field : Str} {v : Option Str} {fk : List Elem}
    (hr : ReloadedL out r) (hlen : (sel c!"Fields" out).length ≤ 1)
    (hs : sel field (headKids (sel c!"Fields" out)) = sel field (customKids field v fk))
    (hfk : sel field fk = []) (hf : field ∉ cdataTags) (hv : ∀ s, v = some s → Carriable s) :
    customOf field r = readText v := by
  have hlr := length_reloaded (hr.sel c!"Fields")
  rw [customOf_eq (by rw [hlr]; exact hlen)]
  refine textOf_customKids (fk := fk) (reloaded_headKids (hr.sel c!"Fields")) hs ?_ hf hv
  rw [hfk]; simp

theorem world_sels (w : WorldElement) (id : Str) :
    let out := buildWorld w [leaf c!"ID" (some id)]
    sel c!"Title" out = newSel c!"Title" w.title [] ∧
    sel c!"ImageFile" out = newSel c!"ImageFile" w.image [] ∧
    sel c!"Desc" out = newSel c!"Desc" w.desc [] ∧
    sel c!"AKA" out = newSel c!"AKA" w.aka [] ∧
    sel c!"Tags" out = newSel c!"Tags" (w.tags.map (fun l => listToString (some l) c!";")) [] ∧
    sel c!"Fields" out = customSel c!"Field_Link" ((w.kwVar.get? c!"Field_Link").join) [] := by
  intro out
  refine ⟨?_, ?_, ?_, ?_, ?_, ?_⟩
  · show sel c!"Title" (buildWorld w _) = _
    unfold buildWorld
    rw [sel_removeFirst_ne (by decide), sel_putCustom_ne (by decide), sel_putNew_ne (by decide),
      sel_putNew_ne (by decide), sel_putNew_ne (by decide), sel_putNew_ne (by decide), sel_putNew]
    rfl
  · show sel c!"ImageFile" (buildWorld w _) = _
    unfold buildWorld
    rw [sel_removeFirst_ne (by decide), sel_putCustom_ne (by decide), sel_putNew_ne (by decide),
      sel_putNew_ne (by decide), sel_putNew_ne (by decide), sel_putNew, sel_putNew_ne (by decide)]
    rfl
  · show sel c!"Desc" (buildWorld w _) = _
    unfold buildWorld
    rw [sel_removeFirst_ne (by decide), sel_putCustom_ne (by decide), sel_putNew_ne (by decide),
      sel_putNew_ne (by decide), sel_putNew, sel_putNew_ne (by decide), sel_putNew_ne (by decide)]
    rfl
  · show sel c!"AKA" (buildWorld w _) = _
    unfold buildWorld
    rw [sel_removeFirst_ne (by decide), sel_putCustom_ne (by decide), sel_putNew_ne (by decide),
      sel_putNew, sel_putNew_ne (by decide), sel_putNew_ne (by decide), sel_putNew_ne (by decide)]
    rfl
  · show sel c!"Tags" (buildWorld w _) = _
    unfold buildWorld
    rw [sel_removeFirst_ne (by decide), sel_putCustom_ne (by decide), sel_putNew,
      sel_putNew_ne (by decide), sel_putNew_ne (by decide), sel_putNew_ne (by decide), sel_putNew_ne (by decide)]
    rfl
  · show sel c!"Fields" (buildWorld w _) = _
    unfold buildWorld
    rw [sel_removeFirst_ne (by decide), sel_putCustom, sel_putNew_ne (by decide),
      sel_putNew_ne (by decide), sel_putNew_ne (by decide), sel_putNew_ne (by decide), sel_putNew_ne (by decide)]
    rfl

/-- A location or item entry. -/
theorem world_entry (w : WorldElement) (id : Str) (r : List Elem)
    (hr : ReloadedL (buildWorld w [leaf c!"ID" (some id)]) r) : WorldSame w (readWorld r) := by
  obtain ⟨h1, h2, h3, h4, h5, h6⟩ := world_sels w id
  refine ⟨textOf_newSel hr h1 (by decide), textOf_newSel hr h3 (by decide), textOf_newSel hr h2 (by decide),
    textOf_newSel hr h4 (by decide), fun hg => readTags_newSel hr h5 hg, ?_⟩
  intro hv
  show customOf c!"Field_Link" r = _
  refine customOf_new (fk := []) hr (by rw [h6]; exact length_customSel _ _ (by simp)) ?_ rfl (by decide) ?_
  · rw [h6, headKids_customSel]; rfl
  · intro s hs
    cases hk : w.kwVar.get? c!"Field_Link" with
    | none => rw [hk] at hs; cases hs
    | some o => rw [hk] at hs; cases o with
      | none => cases hs
      | some v => cases hs; exact hv _ hk

end Verif

namespace Verif
open Xml Elem Spec

theorem chr_Title (c : Character) (id : Str) : sel c!"Title" (buildCharacter c [leaf c!"ID" (some id)])
    = newSel c!"Title" c.title [] := by
  unfold buildCharacter
  rw [sel_removeFirst_ne (by decide), sel_putCustom_ne (by decide), sel_putCustom_ne (by decide), sel_putCustom_ne (by decide), sel_putNew_ne (by decide), sel_putNew_ne (by decide), sel_putNew_ne (by decide), sel_putNew_ne (by decide), sel_putNew_ne (by decide), sel_putNew_ne (by decide), sel_putNew_ne (by decide), sel_putNew_ne (by decide), sel_putNew_ne (by decide), sel_putNew]
  rfl

theorem chr_Desc (c : Character) (id : Str) : sel c!"Desc" (buildCharacter c [leaf c!"ID" (some id)])
    = newSel c!"Desc" c.desc [] := by
  unfold buildCharacter
  rw [sel_removeFirst_ne (by decide), sel_putCustom_ne (by decide), sel_putCustom_ne (by decide), sel_putCustom_ne (by decide), sel_putNew_ne (by decide), sel_putNew_ne (by decide), sel_putNew_ne (by decide), sel_putNew_ne (by decide), sel_putNew_ne (by decide), sel_putNew_ne (by decide), sel_putNew_ne (by decide), sel_putNew_ne (by decide), sel_putNew, sel_putNew_ne (by decide)]
  rfl

theorem chr_ImageFile (c : Character) (id : Str) : sel c!"ImageFile" (buildCharacter c [leaf c!"ID" (some id)])
    = newSel c!"ImageFile" c.image [] := by
  unfold buildCharacter
  rw [sel_removeFirst_ne (by decide), sel_putCustom_ne (by decide), sel_putCustom_ne (by decide), sel_putCustom_ne (by decide), sel_putNew_ne (by decide), sel_putNew_ne (by decide), sel_putNew_ne (by decide), sel_putNew_ne (by decide), sel_putNew_ne (by decide), sel_putNew_ne (by decide), sel_putNew_ne (by decide), sel_putNew, sel_putNew_ne (by decide), sel_putNew_ne (by decide)]
  rfl

theorem chr_Notes (c : Character) (id : Str) : sel c!"Notes" (buildCharacter c [leaf c!"ID" (some id)])
    = newSel c!"Notes" c.notes [] := by
  unfold buildCharacter
  rw [sel_removeFirst_ne (by decide), sel_putCustom_ne (by decide), sel_putCustom_ne (by decide), sel_putCustom_ne (by decide), sel_putNew_ne (by decide), sel_putNew_ne (by decide), sel_putNew_ne (by decide), sel_putNew_ne (by decide), sel_putNew_ne (by decide), sel_putNew_ne (by decide), sel_putNew, sel_putNew_ne (by decide), sel_putNew_ne (by decide), sel_putNew_ne (by decide)]
  rfl

theorem chr_AKA (c : Character) (id : Str) : sel c!"AKA" (buildCharacter c [leaf c!"ID" (some id)])
    = newSel c!"AKA" c.aka [] := by
  unfold buildCharacter
  rw [sel_removeFirst_ne (by decide), sel_putCustom_ne (by decide), sel_putCustom_ne (by decide), sel_putCustom_ne (by decide), sel_putNew_ne (by decide), sel_putNew_ne (by decide), sel_putNew_ne (by decide), sel_putNew_ne (by decide), sel_putNew_ne (by decide), sel_putNew, sel_putNew_ne (by decide), sel_putNew_ne (by decide), sel_putNew_ne (by decide), sel_putNew_ne (by decide)]
  rfl

theorem chr_Tags (c : Character) (id : Str) : sel c!"Tags" (buildCharacter c [leaf c!"ID" (some id)])
    = newSel c!"Tags" (c.tags.map (fun l => listToString (some l) c!";")) [] := by
  unfold buildCharacter
  rw [sel_removeFirst_ne (by decide), sel_putCustom_ne (by decide), sel_putCustom_ne (by decide), sel_putCustom_ne (by decide), sel_putNew_ne (by decide), sel_putNew_ne (by decide), sel_putNew_ne (by decide), sel_putNew_ne (by decide), sel_putNew, sel_putNew_ne (by decide), sel_putNew_ne (by decide), sel_putNew_ne (by decide), sel_putNew_ne (by decide), sel_putNew_ne (by decide)]
  rfl

theorem chr_Bio (c : Character) (id : Str) : sel c!"Bio" (buildCharacter c [leaf c!"ID" (some id)])
    = newSel c!"Bio" c.bio [] := by
  unfold buildCharacter
  rw [sel_removeFirst_ne (by decide), sel_putCustom_ne (by decide), sel_putCustom_ne (by decide), sel_putCustom_ne (by decide), sel_putNew_ne (by decide), sel_putNew_ne (by decide), sel_putNew_ne (by decide), sel_putNew, sel_putNew_ne (by decide), sel_putNew_ne (by decide), sel_putNew_ne (by decide), sel_putNew_ne (by decide), sel_putNew_ne (by decide), sel_putNew_ne (by decide)]
  rfl

theorem chr_Goals (c : Character) (id : Str) : sel c!"Goals" (buildCharacter c [leaf c!"ID" (some id)])
    = newSel c!"Goals" c.goals [] := by
  unfold buildCharacter
  rw [sel_removeFirst_ne (by decide), sel_putCustom_ne (by decide), sel_putCustom_ne (by decide), sel_putCustom_ne (by decide), sel_putNew_ne (by decide), sel_putNew_ne (by decide), sel_putNew, sel_putNew_ne (by decide), sel_putNew_ne (by decide), sel_putNew_ne (by decide), sel_putNew_ne (by decide), sel_putNew_ne (by decide), sel_putNew_ne (by decide), sel_putNew_ne (by decide)]
  rfl

theorem chr_FullName (c : Character) (id : Str) : sel c!"FullName" (buildCharacter c [leaf c!"ID" (some id)])
    = newSel c!"FullName" c.fullName [] := by
  unfold buildCharacter
  rw [sel_removeFirst_ne (by decide), sel_putCustom_ne (by decide), sel_putCustom_ne (by decide), sel_putCustom_ne (by decide), sel_putNew_ne (by decide), sel_putNew, sel_putNew_ne (by decide), sel_putNew_ne (by decide), sel_putNew_ne (by decide), sel_putNew_ne (by decide), sel_putNew_ne (by decide), sel_putNew_ne (by decide), sel_putNew_ne (by decide), sel_putNew_ne (by decide)]
  rfl

theorem chr_Major (c : Character) (id : Str) : sel c!"Major" (buildCharacter c [leaf c!"ID" (some id)])
    = newSel c!"Major" (if c.isMajor.getD false then some c!"-1" else none) [] := by
  unfold buildCharacter
  rw [sel_removeFirst_ne (by decide), sel_putCustom_ne (by decide), sel_putCustom_ne (by decide), sel_putCustom_ne (by decide), sel_putNew, sel_putNew_ne (by decide), sel_putNew_ne (by decide), sel_putNew_ne (by decide), sel_putNew_ne (by decide), sel_putNew_ne (by decide), sel_putNew_ne (by decide), sel_putNew_ne (by decide), sel_putNew_ne (by decide), sel_putNew_ne (by decide)]
  rfl

theorem chr_Fields (c : Character) (id : Str) : sel c!"Fields" (buildCharacter c [leaf c!"ID" (some id)])
    = customSel c!"Field_DeathDate" ((c.kwVar.get? c!"Field_DeathDate").join)
      (customSel c!"Field_BirthDate" ((c.kwVar.get? c!"Field_BirthDate").join)
      (customSel c!"Field_Link" ((c.kwVar.get? c!"Field_Link").join) [])) := by
  unfold buildCharacter
  rw [sel_removeFirst_ne (by decide), sel_putCustom, sel_putCustom, sel_putCustom, sel_putNew_ne (by decide), sel_putNew_ne (by decide), sel_putNew_ne (by decide), sel_putNew_ne (by decide), sel_putNew_ne (by decide), sel_putNew_ne (by decide), sel_putNew_ne (by decide), sel_putNew_ne (by decide), sel_putNew_ne (by decide), sel_putNew_ne (by decide)]
  rfl

theorem join_carriable {kw : Dict (Option Str)} {f : Str}
    (h : ∀ v, kw.get? f = some (some v) → Carriable v) : ∀ s, (kw.get? f).join = some s → Carriable s := by
  intro s hs
  cases hk : kw.get? f with
  | none => rw [hk] at hs; cases hs
  | some o => rw [hk] at hs; cases o with
    | none => cases hs
    | some v => cases hs; exact h _ hk

/-- A character entry. -/
theorem character_entry (c : Character) (id : Str) (r : List Elem)
    (hr : ReloadedL (buildCharacter c [leaf c!"ID" (some id)]) r) : CharacterSame c (readCharacter r) := by
  have hlen : (sel c!"Fields" (buildCharacter c [leaf c!"ID" (some id)])).length ≤ 1 := by
    rw [chr_Fields]
    exact length_customSel _ _ (length_customSel _ _ (length_customSel _ _ (by simp)))
  refine ⟨textOf_newSel hr (chr_Title c id) (by decide), textOf_newSel hr (chr_Desc c id) (by decide),
    textOf_newSel hr (chr_ImageFile c id) (by decide), textOf_newSel hr (chr_AKA c id) (by decide),
    fun hg => readTags_newSel hr (chr_Tags c id) hg, textOf_newSel hr (chr_Notes c id) (by decide),
    textOf_newSel hr (chr_Bio c id) (by decide), textOf_newSel hr (chr_Goals c id) (by decide),
    textOf_newSel hr (chr_FullName c id) (by decide), ?_, ?_⟩
  · show some (hasTag c!"Major" r) = _
    rw [hasTag_newSel hr (chr_Major c id)]
  · intro f hf hv
    simp only [List.mem_cons, List.not_mem_nil, or_false] at hf
    rcases hf with rfl | rfl | rfl
    · show customOf c!"Field_Link" r = _
      refine customOf_new (fk := []) hr hlen ?_ rfl (by decide) (join_carriable hv)
      rw [chr_Fields, headKids_customSel, headKids_customSel, headKids_customSel,
        sel_customKids_ne (by decide), sel_customKids_ne (by decide)]
      rfl
    · show customOf c!"Field_BirthDate" r = _
      refine customOf_new (fk := customKids c!"Field_Link" (c.kwVar.get? c!"Field_Link").join [])
        hr hlen ?_ ?_ (by decide) (join_carriable hv)
      · rw [chr_Fields, headKids_customSel, headKids_customSel, headKids_customSel,
          sel_customKids_ne (by decide)]
        rfl
      · rw [sel_customKids_ne (by decide)]; rfl
    · show customOf c!"Field_DeathDate" r = _
      refine customOf_new (fk := customKids c!"Field_BirthDate" (c.kwVar.get? c!"Field_BirthDate").join
        (customKids c!"Field_Link" (c.kwVar.get? c!"Field_Link").join []))
        hr hlen ?_ ?_ (by decide) (join_carriable hv)
      · rw [chr_Fields, headKids_customSel, headKids_customSel, headKids_customSel]
        rfl
      · rw [sel_customKids_ne (by decide), sel_customKids_ne (by decide)]; rfl

/-- **C23**: characters, locations, items and project notes are read back as they were saved. -/
theorem C23_world (lib : PyLib) (sl sc : Str) (n m : Novel) (tree : Option Elem) (out x : Elem)
    (ht : ProjectTree (tree.getD newRoot).kids) (hn : GoodIds n)
    (hw : writeTree sl sc n tree = .ok out) (hr : Reloaded out x) (hm : readTree lib x = .ok m) :
    (∀ id ∈ n.srtCharacters, ∃ w y, n.characters.get? id = some w ∧ m.characters.get? id = some y ∧
      CharacterSame w y) ∧
    (∀ id ∈ n.srtLocations, ∃ w y, n.locations.get? id = some w ∧ m.locations.get? id = some y ∧
      WorldSame w y) ∧
    (∀ id ∈ n.srtItems, ∃ w y, n.items.get? id = some w ∧ m.items.get? id = some y ∧
      WorldSame w y) ∧
    (∀ id ∈ n.srtPrjNotes, ∃ w y, n.projectNotes.get? id = some w ∧ m.projectNotes.get? id = some y ∧
      y.title = readText w.title ∧ y.desc = readText w.desc) := by
  have h := readBack lib sl sc n m tree out x ht hn hw hr hm
  refine ⟨?_, ?_, ?_, ?_⟩
  · intro id hid
    obtain ⟨w, ks, h1, h2, h3⟩ := h.characters.2.2 id hid
    exact ⟨w, _, h1, h3, character_entry w id ks h2⟩
  · intro id hid
    obtain ⟨w, ks, h1, h2, h3⟩ := h.locations.2.2 id hid
    exact ⟨w, _, h1, h3, world_entry w id ks h2⟩
  · intro id hid
    obtain ⟨w, ks, h1, h2, h3⟩ := h.items.2.2 id hid
    exact ⟨w, _, h1, h3, world_entry w id ks h2⟩
  · intro id hid
    obtain ⟨w, ks, h1, h2, h3⟩ := h.notes.2.2 id hid
    refine ⟨w, _, h1, h3, textOf_newSel h2 ?_ (by decide), textOf_newSel h2 ?_ (by decide)⟩
    · unfold buildNote
      rw [sel_putNew_ne (by decide), sel_putNew]; rfl
    · unfold buildNote
      rw [sel_putNew, sel_putNew_ne (by decide)]; rfl

end Verif
