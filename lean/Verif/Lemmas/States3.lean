/-
Lemmas: when the cross reference can be made (C73).
-/
import Verif.Lemmas.States2

namespace Verif
open Spec Template

section
variable {e : DocEnv} {n : Novel} {x : Xref}

theorem xrefSceneMapping_iff (hn : AllListed n) (hsrt : x.srtScenes = narrative n)
    (hch : ∀ s, x.chpPerScn.get? s = (n.srtChapters.filter (fun c => s ∈ scenesOf n.chapters c)).getLast?) {id : Str} (hid : id ∈ narrative n) {s : Scene}
    (hs : n.scenes.get? id = some s) : (∃ m, xrefSceneMapping e n x id = .ok m) ↔ NamedState s := by
  have h1 : listIndex x.srtScenes id = .ok ((narrative n).idxOf id) := by rw [hsrt]; exact listIndex_ok hid
  obtain ⟨ch, hlast, hmem⟩ : ∃ ch, (n.srtChapters.filter (fun c => id ∈ scenesOf n.chapters c)).getLast? = some ch ∧ ch ∈ n.srtChapters := by
    obtain ⟨c, hc, hin⟩ := List.mem_flatMap.1 hid
    have hne : n.srtChapters.filter (fun c => id ∈ scenesOf n.chapters c) ≠ [] := List.ne_nil_of_mem (List.mem_filter.2 ⟨hc, by simpa using hin⟩)
    refine ⟨_, List.getLast?_eq_some_getLast hne, ?_⟩
    exact (List.mem_filter.1 (List.getLast_mem hne)).1
  have h2 : listIndex n.srtChapters ch = .ok (n.srtChapters.idxOf ch) := listIndex_ok hmem
  have h3 : x.chpPerScn.get! id = .ok ch := by
    have : x.chpPerScn.get? id = some ch := by rw [hch]; exact hlast
    exact Dict.get!_of this
  rw [← e.plainBase.scene_iff hn hid hs ((narrative n).idxOf id + 1) 0 0]
  unfold xrefSceneMapping exporterOf
  rw [h1]
  show (∃ m, ((e.plainBase.scene n id ((narrative n).idxOf id + 1) 0 0 >>= _) >>= _) = .ok m) ↔ _
  cases e.plainBase.scene n id ((narrative n).idxOf id + 1) 0 0 with
  | error x => simp [Bind.bind, Except.bind]
  | ok m => simp [Bind.bind, Except.bind, h2, h3]

theorem xrefScenes_iff (hn : AllListed n) (hsrt : x.srtScenes = narrative n)
    (hch : ∀ s, x.chpPerScn.get? s = (n.srtChapters.filter (fun c => s ∈ scenesOf n.chapters c)).getLast?) (ids : List Str) (hids : ∀ id ∈ ids, id ∈ narrative n) :
    (∃ l, xrefScenes e n x ids = .ok l) ↔ ∀ id ∈ ids, ∀ s, n.scenes.get? id = some s → NamedState s := by
  induction ids with
  | nil => exact ⟨fun _ _ h => (by cases h), fun _ => ⟨_, rfl⟩⟩
  | cons id r ih =>
    have ih' := ih (fun i hi => hids i (List.mem_cons_of_mem _ hi))
    have hid := hids id List.mem_cons_self
    obtain ⟨s, hs, _⟩ := hn.scenes id hid
    have hsplit : (∀ i ∈ id :: r, ∀ s, n.scenes.get? i = some s → NamedState s) ↔ NamedState s ∧ ∀ i ∈ r, ∀ s, n.scenes.get? i = some s → NamedState s := by
      constructor
      · intro h
        exact ⟨h id List.mem_cons_self s hs, fun i hi => h i (List.mem_cons_of_mem _ hi)⟩
      · rintro ⟨h1, h2⟩ i hi s' hg
        rcases List.mem_cons.1 hi with rfl | hi
        · rw [hs] at hg
          cases hg
          exact h1
        · exact h2 i hi s' hg
    rw [hsplit, ← ih', ← xrefSceneMapping_iff (e := e) hn hsrt hch hid hs]
    rw [xrefScenes]
    rw [Dict.get!_of hs]
    simp only [Bind.bind, Except.bind]
    cases xrefSceneMapping e n x id with
    | error x => simp
    | ok m =>
      simp only
      cases xrefScenes e n x r with
      | error x => simp
      | ok m => simp

theorem xrefSections_iff {h : Str} {f : Str → Except Exc Mapping} {lines : List Str → Except Exc (List Str)} {hits : Str → List Str} (ks : List Str)
    (hf : ∀ k ∈ ks, ∃ m, f k = .ok m) : (∃ l, xrefSections h f lines (ks.map (fun k => (k, hits k))) = .ok l) ↔ ∀ k ∈ ks, hits k ≠ [] → ∃ l, lines (hits k) = .ok l := by
  induction ks with
  | nil => exact ⟨fun _ _ h => (by cases h), fun _ => ⟨_, rfl⟩⟩
  | cons k r ih =>
    have ih' := ih (fun i hi => hf i (List.mem_cons_of_mem _ hi))
    obtain ⟨m, hm⟩ := hf k List.mem_cons_self
    rw [List.map_cons, List.forall_mem_cons, ← ih']
    rw [xrefSections]
    by_cases he : hits k = []
    · rw [if_pos he]
      simp [he]
    · rw [if_neg he, hm]
      simp only [Bind.bind, Except.bind]
      cases lines (hits k) with
      | error x => simp [he]
      | ok l =>
        simp only
        cases xrefSections h f lines (r.map (fun k => (k, hits k))) with
        | error x => simp
        | ok l => simp

/-- The sections with scenes. -/
theorem sceneSections_iff (hn : AllListed n) (hsrt : x.srtScenes = narrative n)
    (hch : ∀ s, x.chpPerScn.get? s = (n.srtChapters.filter (fun c => s ∈ scenesOf n.chapters c)).getLast?) {h : Str} {f : Str → Except Exc Mapping}
    {refs : Scene → Option (List Str)} (ks : List Str) (hf : ∀ k ∈ ks, ∃ m, f k = .ok m) (hks : ∀ id ∈ narrative n, ∀ k ∈ refsOf n refs id, k ∈ ks) :
    (∃ l, xrefSections h f (xrefScenes e n x) (ks.map (fun k => (k, occurrences (narrative n) (refsOf n refs) k))) = .ok l) ↔
      ∀ id ∈ narrative n, ∀ s, n.scenes.get? id = some s → (refs s).getD [] ≠ [] → NamedState s := by
  have hr : ∀ id s, n.scenes.get? id = some s → refsOf n refs id = (refs s).getD [] := by
    intro id s hs
    unfold refsOf
    rw [hs]
    rfl
  rw [xrefSections_iff ks hf]
  constructor
  · intro hl id hid s hs hne
    obtain ⟨k, r, hk⟩ := List.exists_cons_of_ne_nil hne
    have hk' : k ∈ refsOf n refs id := by rw [hr id s hs, hk]; exact List.mem_cons_self
    have hocc : id ∈ occurrences (narrative n) (refsOf n refs) k := (C10_inverse _ _ _ _).2 ⟨hid, hk'⟩
    have := hl k (hks id hid k hk') (List.ne_nil_of_mem hocc)
    exact (xrefScenes_iff hn hsrt hch _ (fun i hi => ((C10_inverse _ _ _ _).1 hi).1)).1 this id hocc s hs
  · intro hs k _ _
    refine (xrefScenes_iff hn hsrt hch _ (fun i hi => ((C10_inverse _ _ _ _).1 hi).1)).2 ?_
    intro id hid s hg
    have := (C10_inverse _ _ _ _).1 hid
    refine hs id this.1 s hg ?_
    rw [← hr id s hg]
    exact List.ne_nil_of_mem this.2

end

/-- When the cross reference can be made. -/
theorem xrefText_iff (e : DocEnv) {n : Novel} (hr : XrefReady n) (hn : AllListed n) :
    (∃ t, xrefText e n = .ok t) ↔ ∀ id ∈ narrative n, ∀ s, n.scenes.get? id = some s → CrossReferenced s → NamedState s := by
  obtain ⟨x, hx, hsrt, q1, q2, q3, q4, q5, q6, q7, hch⟩ := C10_exact n hr
  have hk := xref_keys hx
  have d1 := elements_dict hk.chr q1
  have d2 := elements_dict hk.loc q2
  have d3 := elements_dict hk.itm q3
  have d4 := tags_dict hk.tag q4
  have d5 := tags_dict hk.chrT q5
  have d6 := tags_dict hk.locT q6
  have d7 := tags_dict hk.itmT q7
  have chr : ∀ k ∈ n.srtCharacters, ∃ m, e.plainBase.character n k = .ok m := fun k h => character_total e.plainBase (hr.chr k h)
  have loc : ∀ k ∈ n.srtLocations, ∃ m, e.plainBase.location n k = .ok m := fun k h => location_total e.plainBase (hr.loc k h)
  have itm : ∀ k ∈ n.srtItems, ∃ m, e.plainBase.item n k = .ok m := fun k h => item_total e.plainBase (hr.itm k h)
  have i1 := sceneSections_iff (e := e) hn hsrt hch (h := xrefHeading c!"Scenes with Character" c!"Title") (f := e.plainBase.character n) (refs := (·.characters)) (distinct n.srtCharacters)
    (fun k h => chr k ((distinct_mem _ _).1 h)) (fun id hid k hk => (distinct_mem _ _).2 (hr.refC id hid k hk))
  have i2 := sceneSections_iff (e := e) hn hsrt hch (h := xrefHeading c!"Scenes with Location" c!"Title") (f := e.plainBase.location n) (refs := (·.locations)) (distinct n.srtLocations)
    (fun k h => loc k ((distinct_mem _ _).1 h)) (fun id hid k hk => (distinct_mem _ _).2 (hr.refL id hid k hk))
  have i3 := sceneSections_iff (e := e) hn hsrt hch (h := xrefHeading c!"Scenes with Item" c!"Title") (f := e.plainBase.item n) (refs := (·.items)) (distinct n.srtItems)
    (fun k h => itm k ((distinct_mem _ _).1 h)) (fun id hid k hk => (distinct_mem _ _).2 (hr.refI id hid k hk))
  have i4 := sceneSections_iff (e := e) hn hsrt hch (h := xrefHeading c!"Scenes tagged" c!"Tag") (f := xrefTag) (refs := (·.tags)) (distinct ((narrative n).flatMap (refsOf n (·.tags))))
    (fun k _ => ⟨_, rfl⟩) (fun id hid k hk => (distinct_mem _ _).2 (List.mem_flatMap.2 ⟨id, hid, hk⟩))
  rw [← d1] at i1
  rw [← d2] at i2
  rw [← d3] at i3
  rw [← d4] at i4
  have i5 : ∃ l, xrefSections (xrefHeading c!"Characters tagged" c!"Tag") xrefTag (elementLines xrefCharacter (e.plainBase.character n)) x.chrPerTag = .ok l := by
    rw [d5]
    exact (xrefSections_iff _ (fun k _ => ⟨_, rfl⟩)).2 (fun k _ _ => elementLines_total _ (fun id hid => chr id ((C10_inverse _ _ _ _).1 hid).1))
  have i6 : ∃ l, xrefSections (xrefHeading c!"Locations tagged" c!"Tag") xrefTag (elementLines (xrefWorld c!"locations" c!"LcID") (e.plainBase.location n)) x.locPerTag = .ok l := by
    rw [d6]
    exact (xrefSections_iff _ (fun k _ => ⟨_, rfl⟩)).2 (fun k _ _ => elementLines_total _ (fun id hid => loc id ((C10_inverse _ _ _ _).1 hid).1))
  have i7 : ∃ l, xrefSections (xrefHeading c!"Items tagged" c!"Tag") xrefTag (elementLines (xrefWorld c!"items" c!"ItID") (e.plainBase.item n)) x.itmPerTag = .ok l := by
    rw [d7]
    exact (xrefSections_iff _ (fun k _ => ⟨_, rfl⟩)).2 (fun k _ _ => elementLines_total _ (fun id hid => itm id ((C10_inverse _ _ _ _).1 hid).1))
  have hgoal : (∀ id ∈ narrative n, ∀ s, n.scenes.get? id = some s → CrossReferenced s → NamedState s) ↔
      ((((∃ l, xrefSections (xrefHeading c!"Scenes with Character" c!"Title") (e.plainBase.character n) (xrefScenes e n x) x.scnPerChr = .ok l) ∧
      (∃ l, xrefSections (xrefHeading c!"Scenes with Location" c!"Title") (e.plainBase.location n) (xrefScenes e n x) x.scnPerLoc = .ok l)) ∧
      (∃ l, xrefSections (xrefHeading c!"Scenes with Item" c!"Title") (e.plainBase.item n) (xrefScenes e n x) x.scnPerItm = .ok l)) ∧
      (∃ l, xrefSections (xrefHeading c!"Scenes tagged" c!"Tag") xrefTag (xrefScenes e n x) x.scnPerTag = .ok l)) := by
    rw [i1, i2, i3, i4]
    constructor
    · intro h
      exact ⟨⟨⟨fun id hid s hs hc => h id hid s hs (Or.inl hc), fun id hid s hs hc => h id hid s hs (Or.inr (Or.inl hc))⟩,
        fun id hid s hs hc => h id hid s hs (Or.inr (Or.inr (Or.inl hc)))⟩, fun id hid s hs hc => h id hid s hs (Or.inr (Or.inr (Or.inr hc)))⟩
    · rintro ⟨⟨⟨h1, h2⟩, h3⟩, h4⟩ id hid s hs (hc | hc | hc | hc)
      · exact h1 id hid s hs hc
      · exact h2 id hid s hs hc
      · exact h3 id hid s hs hc
      · exact h4 id hid s hs hc
  rw [hgoal]
  obtain ⟨l5, e5⟩ := i5
  obtain ⟨l6, e6⟩ := i6
  obtain ⟨l7, e7⟩ := i7
  unfold xrefText
  rw [hx]
  obtain ⟨hd, hhd⟩ : ∃ l, getFileHeader (exporterOf e e.plainBase { fileHeader := titleTemplate }) n = .ok l := ⟨_, rfl⟩
  simp only [Bind.bind, Except.bind]
  rw [hhd]
  simp only
  cases xrefSections (xrefHeading c!"Scenes with Character" c!"Title") (e.plainBase.character n) (xrefScenes e n x) x.scnPerChr with
  | error x => simp
  | ok l1 =>
    simp only
    cases xrefSections (xrefHeading c!"Scenes with Location" c!"Title") (e.plainBase.location n) (xrefScenes e n x) x.scnPerLoc with
    | error x => simp
    | ok l2 =>
      simp only
      cases xrefSections (xrefHeading c!"Scenes with Item" c!"Title") (e.plainBase.item n) (xrefScenes e n x) x.scnPerItm with
      | error x => simp
      | ok l3 =>
        simp only
        cases xrefSections (xrefHeading c!"Scenes tagged" c!"Tag") xrefTag (xrefScenes e n x) x.scnPerTag with
        | error x => simp
        | ok l4 =>
          simp only [e5, e6, e7]
          simp

end Verif
