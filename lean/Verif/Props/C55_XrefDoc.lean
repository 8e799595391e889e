/-
C55: the cross reference document shows, for every character, location, item and tag, exactly the scenes (characters, locations, items) that
refer to it, with the right numbers, titles and links.
-/
import Verif.Lemmas.XrefDoc3

namespace Verif
open Spec Template

theorem escapedTitle {o : Option Str} (h : CarriableO o) : odtConvert o true = (o.getD []).flatMap escChar := (odtConvert_title h).1

theorem project_false {p : Str} (h : ∀ c ∈ p, xmlLegal c = true ∧ c ≠ '\r' ∧ c ≠ '\n' ∧ c ≠ '\t') : odtConvert (some p) false = p.flatMap escChar := by
  rw [odtConvert_plain (fun hc => (h _ hc).2.1 rfl)]
  induction p with
  | nil => rfl
  | cons c p ih =>
    have hc := (h c List.mem_cons_self).2.2.1
    have e : plainOut (c :: p) = escChar c ++ plainOut p := by
      simp [plainOut, hc]
    rw [e, List.flatMap_cons, ih (fun d hd => h d (List.mem_cons_of_mem _ hd))]

theorem project_true {p : Str} (h : ∀ c ∈ p, xmlLegal c = true ∧ c ≠ '\r' ∧ c ≠ '\n' ∧ c ≠ '\t') : odtConvert (some p) true = p.flatMap escChar :=
  escapedTitle (o := some p) (fun c hc => ⟨(h c hc).1, (h c hc).2.1⟩)

section
variable {name path : Str} {n : Novel} {x : Xref}

/-- The mapping of a scene. -/
theorem scene_mapping (hn : Exportable n) (hf : XrefFits name n) (hsrt : x.srtScenes = narrative n)
    (hch : ∀ s, x.chpPerScn.get? s = (n.srtChapters.filter (fun c => s ∈ scenesOf n.chapters c)).getLast?) {id : Str} (hid : id ∈ narrative n) {s : Scene}
    (hs : n.scenes.get? id = some s) : ∃ m, xrefSceneMapping (plainEnv name path) n x id = .ok m ∧
      m.get? c!"ProjectName" = some (name.flatMap escChar) ∧ m.get? c!"ID" = some id ∧ m.get? c!"SceneNumber" = some (Str.ofNat (position (narrative n) id)) ∧
      m.get? c!"Chapter" = some (Str.ofNat (position n.srtChapters (chapterOf n id))) ∧ m.get? c!"Title" = some ((s.title.getD []).flatMap escChar) := by
  have h1 : listIndex x.srtScenes id = .ok ((narrative n).idxOf id) := by rw [hsrt]; exact listIndex_ok hid
  obtain ⟨m0, hm0⟩ := Base.scene_total (plainEnv name path).plainBase hn hid ((narrative n).idxOf id + 1) 0 0
  obtain ⟨ch, hlast, hmem⟩ : ∃ ch, (n.srtChapters.filter (fun c => id ∈ scenesOf n.chapters c)).getLast? = some ch ∧ ch ∈ n.srtChapters := by
    obtain ⟨c, hc, hin⟩ := List.mem_flatMap.1 hid
    have hne : n.srtChapters.filter (fun c => id ∈ scenesOf n.chapters c) ≠ [] := List.ne_nil_of_mem (List.mem_filter.2 ⟨hc, by simpa using hin⟩)
    refine ⟨_, List.getLast?_eq_some_getLast hne, ?_⟩
    exact (List.mem_filter.1 (List.getLast_mem hne)).1
  have hco : chapterOf n id = ch := by unfold chapterOf; rw [hlast]; rfl
  have h2 : listIndex n.srtChapters ch = .ok (n.srtChapters.idxOf ch) := listIndex_ok hmem
  have h3 : x.chpPerScn.get! id = .ok ch := by
    have : x.chpPerScn.get? id = some ch := by rw [hch]; exact hlast
    exact Dict.get!_of this
  refine ⟨Dict.set (Dict.set m0 c!"sceneTitle" c!"Scene") c!"Chapter" (Str.ofNat (n.srtChapters.idxOf ch + 1)), ?_, ?_⟩
  · unfold xrefSceneMapping exporterOf
    rw [h1]
    show ((plainEnv name path).plainBase.scene n id ((narrative n).idxOf id + 1) 0 0 >>= _) >>= _ = _
    rw [hm0]
    show (x.chpPerScn.get! id >>= _) = _
    rw [h3]
    show (listIndex n.srtChapters ch >>= _) = _
    rw [h2]
    rfl
  · have key : m0.get? c!"ProjectName" = some (odtConvert (some name) true) ∧ m0.get? c!"ID" = some id ∧
        m0.get? c!"SceneNumber" = some (dispNumber ((narrative n).idxOf id + 1)) ∧ m0.get? c!"Title" = some (odtConvert s.title true) := by
      unfold Base.scene at hm0
      obtain ⟨s', e1, hm0⟩ := bind_ok hm0
      rw [Dict.get!_of hs] at e1
      injection e1 with e1
      subst e1
      obtain ⟨locs, _, hm0⟩ := bind_ok hm0
      obtain ⟨items, _, hm0⟩ := bind_ok hm0
      obtain ⟨st, _, hm0⟩ := bind_ok hm0
      injection hm0 with hm0
      rw [← hm0]
      exact ⟨rfl, rfl, rfl, rfl⟩
    obtain ⟨k1, k2, k3, k4⟩ := key
    refine ⟨?_, ?_, ?_, ?_, ?_⟩
    · rw [get?_set_other (by decide), get?_set_other (by decide), k1, project_true hf.project]
    · rw [get?_set_other (by decide), get?_set_other (by decide), k2]
    · rw [get?_set_other (by decide), get?_set_other (by decide), k3]
      rfl
    · rw [Dict.get?_set_self, hco]
      rfl
    · rw [get?_set_other (by decide), get?_set_other (by decide), k4, escapedTitle (hf.scenes id hid s hs).2.1]

/-- The lines of scenes. -/
theorem scenes_pars (hr : XrefReady n) (hn : Exportable n) (hf : XrefFits name n) (hsrt : x.srtScenes = narrative n)
    (hch : ∀ s, x.chpPerScn.get? s = (n.srtChapters.filter (fun c => s ∈ scenesOf n.chapters c)).getLast?) (ids : List Str) (hids : ∀ id ∈ ids, id ∈ narrative n) :
    ∃ l, xrefScenes (plainEnv name path) n x ids = .ok l ∧ Pars l.flatten (ids.map (sceneEntry name n)) := by
  induction ids with
  | nil => exact ⟨[], rfl, Pars.nil⟩
  | cons id ids ih =>
    obtain ⟨l, hl, hp⟩ := ih (fun i hi => hids i (List.mem_cons_of_mem _ hi))
    have hid := hids id List.mem_cons_self
    obtain ⟨s, hs⟩ := (Dict.mem_keys_iff _ _).1 (hr.scn id hid)
    obtain ⟨m, hm, k1, k2, k3, k4, k5⟩ := scene_mapping (path := path) hn hf hsrt hch hid hs
    have hfit := hf.scenes id hid s hs
    have ht := (odtConvert_title hfit.2.1).2
    refine ⟨subst (xrefSceneTemplate s) m :: l, ?_, ?_⟩
    · unfold xrefScenes
      rw [Dict.get!_of hs, hm, hl]
      rfl
    · rw [List.flatten_cons, List.map_cons]
      refine Pars.append (p1 := [sceneEntry name n id]) ?_ hp
      unfold sceneEntry xrefSceneTemplate
      rw [hs]
      simp only [Option.getD_some]
      by_cases c1 : s.scType = some 1
      · rw [if_pos c1, if_pos c1]
        exact aside_par (style := c!"notes") (word := c!"Notes") (by unfold Aside; simp) k3 k4 k5 ht
      · rw [if_neg c1, if_neg c1]
        by_cases c2 : s.scType = some 2
        · rw [if_pos c2, if_pos c2]
          exact aside_par (style := c!"todo") (word := c!"ToDo") (by unfold Aside; simp) k3 k4 k5 ht
        · rw [if_neg c2, if_neg c2]
          by_cases c3 : s.scType = some 3
          · rw [if_pos c3, if_pos c3]
            exact aside_par (style := c!"unused") (word := c!"Unused") (by unfold Aside; simp) k3 k4 k5 ht
          · rw [if_neg c3, if_neg c3]
            exact scene0_par k1 k2 k3 k4 k5 hf.project hfit.1 ht

/-- The lines of elements. -/
theorem elements_pars {t : Str} {f : Str → Except Exc Mapping} {g : Str → Paragraph} (ids : List Str) (h : ∀ id ∈ ids, ∃ m, f id = .ok m ∧ Pars (subst t m) [g id]) :
    ∃ l, elementLines t f ids = .ok l ∧ Pars l.flatten (ids.map g) := by
  induction ids with
  | nil => exact ⟨[], rfl, Pars.nil⟩
  | cons id ids ih =>
    obtain ⟨l, hl, hp⟩ := ih (fun i hi => h i (List.mem_cons_of_mem _ hi))
    obtain ⟨m, hm, hq⟩ := h id List.mem_cons_self
    refine ⟨subst t m :: l, ?_, ?_⟩
    · unfold elementLines
      rw [hm, hl]
      rfl
    · rw [List.flatten_cons, List.map_cons]
      exact hq.append hp

/-- The sections. -/
theorem sections_pars {what var : Str} (hw : Listed what var) {f : Str → Except Exc Mapping} {lines : List Str → Except Exc (List Str)} {title : Str → Str}
    {hits : Str → List Str} {line : Str → Paragraph} (ks : List Str)
    (h1 : ∀ k ∈ ks, ∃ m v, f k = .ok m ∧ m.get? var = some v ∧ Inl v (title k) [])
    (h2 : ∀ k ∈ ks, ∃ l, lines (hits k) = .ok l ∧ Pars l.flatten ((hits k).map line)) :
    ∃ l, xrefSections (xrefHeading what var) f lines (ks.map (fun k => (k, hits k))) = .ok l ∧
      Pars l.flatten (ks.flatMap (fun k => if hits k = [] then [] else ⟨c!"Heading_20_2", what ++ c!" " ++ title k ++ c!":", []⟩ :: (hits k).map line)) := by
  induction ks with
  | nil => exact ⟨[], rfl, Pars.nil⟩
  | cons k ks ih =>
    obtain ⟨l, hl, hp⟩ := ih (fun i hi => h1 i (List.mem_cons_of_mem _ hi)) (fun i hi => h2 i (List.mem_cons_of_mem _ hi))
    by_cases he : hits k = []
    · refine ⟨l, ?_, ?_⟩
      · rw [List.map_cons]
        unfold xrefSections
        rw [if_pos he]
        exact hl
      · rw [List.flatMap_cons, if_pos he]
        exact hp
    · obtain ⟨m, v, hm, hv, hi⟩ := h1 k List.mem_cons_self
      obtain ⟨ls, hls, hps⟩ := h2 k List.mem_cons_self
      refine ⟨subst (xrefHeading what var) m :: ls ++ l, ?_, ?_⟩
      · rw [List.map_cons]
        unfold xrefSections
        rw [if_neg he, hm]
        show (lines (hits k) >>= _) = _
        rw [hls]
        show (xrefSections _ f lines _ >>= _) = _
        rw [hl]
        rfl
      · rw [List.flatMap_cons, if_neg he, List.flatten_append, List.flatten_cons]
        refine Pars.append ?_ hp
        exact (heading_par hw hv hi).append hps

/-- The dictionary of the scenes per element, spelled out. -/
theorem elements_dict {d : Dict (List Str)} {keys : List Str} {hits : Str → List Str} (hk : d.keys = distinct keys)
    (hg : ∀ k, d.get? k = if k ∈ keys then some (hits k) else none) : d = (distinct keys).map (fun k => (k, hits k)) := by
  have := dict_list d (by rw [hk]; exact distinct_nodup keys) hits (fun k h => by rw [hk, distinct_mem] at h; rw [hg, if_pos h])
  rw [hk] at this
  exact this

/-- The dictionary of the owners of tags, spelled out. -/
theorem tags_dict {d : Dict (List Str)} {keys : List Str} {hits : Str → List Str} (hk : d.keys = distinct keys)
    (hg : ∀ k, d.get? k = entry (hits k)) : d = (distinct keys).map (fun k => (k, hits k)) := by
  have := dict_list d (by rw [hk]; exact distinct_nodup keys) hits (fun k h => by
    obtain ⟨v, hv⟩ := (Dict.mem_keys_iff _ _).1 h
    have e := hg k
    rw [hv] at e ⊢
    unfold entry at e
    split at e
    · cases e
    · exact e)
  rw [hk] at this
  exact this

end

/-- The cross reference document is written for every complete novel with suitable texts, it is a well-formed document, and it shows exactly the
cross references. -/
theorem C55_document_partial (name path : Str) (n : Novel) (hr : XrefReady n) (hn : Exportable n) (hf : XrefFits name n) :
    ∃ text root, xrefText (plainEnv name path) n = .ok text ∧ parseDoc text = some root ∧ paragraphs root = crossReference name n := by
  obtain ⟨x, hx, hsrt, q1, q2, q3, q4, q5, q6, q7, hch⟩ := C10_exact n hr
  have hk := xref_keys hx
  have d1 := elements_dict hk.chr q1
  have d2 := elements_dict hk.loc q2
  have d3 := elements_dict hk.itm q3
  have d4 := tags_dict hk.tag q4
  have d5 := tags_dict hk.chrT q5
  have d6 := tags_dict hk.locT q6
  have d7 := tags_dict hk.itmT q7
  have ht : TitleFits n := ⟨hf.title, hf.author⟩
  obtain ⟨hd, hhd⟩ : ∃ l, getFileHeader (exporterOf (plainEnv name path) (plainEnv name path).plainBase { fileHeader := titleTemplate }) n = .ok l := ⟨_, rfl⟩
  have hhead := sheet_header name path n rfl rfl ht hhd
  have hscenes : ∀ refs k, ∃ l, xrefScenes (plainEnv name path) n x (occurrences (narrative n) refs k) = .ok l ∧
      Pars l.flatten ((occurrences (narrative n) refs k).map (sceneEntry name n)) := by
    intro refs k
    exact scenes_pars hr hn hf hsrt hch _ (fun id hid => ((C10_inverse _ _ _ _).1 hid).1)
  have chr : ∀ k ∈ n.srtCharacters, ∃ c m, n.characters.get? k = some c ∧ (plainEnv name path).plainBase.character n k = .ok m ∧
      m.get? c!"ProjectName" = some (name.flatMap escChar) ∧ m.get? c!"ID" = some k ∧ m.get? c!"Title" = some ((c.title.getD []).flatMap escChar) ∧
      m.get? c!"FullName" = some ((c.fullName.getD []).flatMap escChar) := by
    intro k hmem
    obtain ⟨c, hc⟩ := (Dict.mem_keys_iff _ _).1 (hr.chr k hmem)
    obtain ⟨_, f2, f3, _⟩ := hf.characters k hmem c hc
    obtain ⟨m, hm⟩ := character_total (plainEnv name path).plainBase (hr.chr k hmem)
    refine ⟨c, m, hc, hm, ?_⟩
    unfold Base.character at hm
    obtain ⟨c', e1, hm⟩ := bind_ok hm
    rw [Dict.get!_of hc] at e1
    injection e1 with e1
    subst e1
    injection hm with hm
    rw [← hm, ← escapedTitle f2, ← escapedTitle f3, ← project_false hf.project]
    exact ⟨rfl, rfl, rfl, rfl⟩
  have loc : ∀ k ∈ n.srtLocations, ∃ w m, n.locations.get? k = some w ∧ (plainEnv name path).plainBase.location n k = .ok m ∧
      m.get? c!"ProjectName" = some (name.flatMap escChar) ∧ m.get? c!"ID" = some k ∧ m.get? c!"Title" = some ((w.title.getD []).flatMap escChar) := by
    intro k hmem
    obtain ⟨w, hc⟩ := (Dict.mem_keys_iff _ _).1 (hr.loc k hmem)
    obtain ⟨_, f2, _⟩ := hf.locations k hmem w hc
    refine ⟨w, (plainEnv name path).plainBase.world n k w, hc, ?_, ?_⟩
    · unfold Base.location
      rw [Dict.get!_of hc]
      rfl
    · rw [← escapedTitle f2, ← project_true hf.project]
      exact ⟨rfl, rfl, rfl⟩
  have itm : ∀ k ∈ n.srtItems, ∃ w m, n.items.get? k = some w ∧ (plainEnv name path).plainBase.item n k = .ok m ∧
      m.get? c!"ProjectName" = some (name.flatMap escChar) ∧ m.get? c!"ID" = some k ∧ m.get? c!"Title" = some ((w.title.getD []).flatMap escChar) := by
    intro k hmem
    obtain ⟨w, hc⟩ := (Dict.mem_keys_iff _ _).1 (hr.itm k hmem)
    obtain ⟨_, f2, _⟩ := hf.items k hmem w hc
    refine ⟨w, (plainEnv name path).plainBase.world n k w, hc, ?_, ?_⟩
    · unfold Base.item
      rw [Dict.get!_of hc]
      rfl
    · rw [← escapedTitle f2, ← project_true hf.project]
      exact ⟨rfl, rfl, rfl⟩
  have tag : ∀ t, Plain t → ∃ m v, xrefTag t = .ok m ∧ m.get? c!"Tag" = some v ∧ Inl v t [] := fun t h => ⟨_, t, rfl, rfl, Inl.tag h⟩
  obtain ⟨l1, e1, p1⟩ := sections_pars (what := c!"Scenes with Character") (var := c!"Title") (by unfold Listed; simp) (f := (plainEnv name path).plainBase.character n)
    (lines := xrefScenes (plainEnv name path) n x) (title := fun k => ((n.characters.get? k).getD {}).title.getD [])
    (hits := occurrences (narrative n) (refsOf n (·.characters))) (line := sceneEntry name n) (distinct n.srtCharacters)
    (fun k h => by
      rw [distinct_mem] at h
      obtain ⟨c, m, hc, hm, _, _, h3, _⟩ := chr k h
      refine ⟨m, _, hm, h3, ?_⟩
      rw [hc]
      exact Inl.esc (odtConvert_title (hf.characters k h c hc).2.1).2) (fun k _ => hscenes _ k)
  obtain ⟨l2, e2, p2⟩ := sections_pars (what := c!"Scenes with Location") (var := c!"Title") (by unfold Listed; simp) (f := (plainEnv name path).plainBase.location n)
    (lines := xrefScenes (plainEnv name path) n x) (title := fun k => ((n.locations.get? k).getD {}).title.getD [])
    (hits := occurrences (narrative n) (refsOf n (·.locations))) (line := sceneEntry name n) (distinct n.srtLocations)
    (fun k h => by
      rw [distinct_mem] at h
      obtain ⟨c, m, hc, hm, _, _, h3⟩ := loc k h
      refine ⟨m, _, hm, h3, ?_⟩
      rw [hc]
      exact Inl.esc (odtConvert_title (hf.locations k h c hc).2.1).2) (fun k _ => hscenes _ k)
  obtain ⟨l3, e3, p3⟩ := sections_pars (what := c!"Scenes with Item") (var := c!"Title") (by unfold Listed; simp) (f := (plainEnv name path).plainBase.item n)
    (lines := xrefScenes (plainEnv name path) n x) (title := fun k => ((n.items.get? k).getD {}).title.getD [])
    (hits := occurrences (narrative n) (refsOf n (·.items))) (line := sceneEntry name n) (distinct n.srtItems)
    (fun k h => by
      rw [distinct_mem] at h
      obtain ⟨c, m, hc, hm, _, _, h3⟩ := itm k h
      refine ⟨m, _, hm, h3, ?_⟩
      rw [hc]
      exact Inl.esc (odtConvert_title (hf.items k h c hc).2.1).2) (fun k _ => hscenes _ k)
  obtain ⟨l4, e4, p4⟩ := sections_pars (what := c!"Scenes tagged") (var := c!"Tag") (by unfold Listed; simp) (f := xrefTag)
    (lines := xrefScenes (plainEnv name path) n x) (title := fun t => t)
    (hits := occurrences (narrative n) (refsOf n (·.tags))) (line := sceneEntry name n) (distinct ((narrative n).flatMap (refsOf n (·.tags))))
    (fun k h => by
      rw [distinct_mem, List.mem_flatMap] at h
      obtain ⟨id, hid, h⟩ := h
      obtain ⟨s, hs⟩ := (Dict.mem_keys_iff _ _).1 (hr.scn id hid)
      have e : refsOf n (·.tags) id = s.tags.getD [] := by unfold refsOf; rw [hs]; rfl
      rw [e] at h
      exact tag k ((hf.scenes id hid s hs).2.2 k h)) (fun k _ => hscenes _ k)
  obtain ⟨l5, e5, p5⟩ := sections_pars (what := c!"Characters tagged") (var := c!"Tag") (by unfold Listed; simp) (f := xrefTag)
    (lines := elementLines xrefCharacter ((plainEnv name path).plainBase.character n)) (title := fun t => t)
    (hits := occurrences n.srtCharacters (tagsIn n.characters (·.tags))) (line := characterEntry name n) (distinct (n.srtCharacters.flatMap (tagsIn n.characters (·.tags))))
    (fun k h => by
      rw [distinct_mem, List.mem_flatMap] at h
      obtain ⟨id, hid, h⟩ := h
      obtain ⟨s, hs⟩ := (Dict.mem_keys_iff _ _).1 (hr.chr id hid)
      have e : tagsIn n.characters (·.tags) id = s.tags.getD [] := by unfold tagsIn; rw [hs]; rfl
      rw [e] at h
      exact tag k ((hf.characters id hid s hs).2.2.2 k h))
    (fun k _ => elements_pars _ (fun id hid => by
      have hid := ((C10_inverse _ _ _ _).1 hid).1
      obtain ⟨c, m, hc, hm, h1, h2, h3, h4⟩ := chr id hid
      obtain ⟨f1, f2, f3, _⟩ := hf.characters id hid c hc
      refine ⟨m, hm, ?_⟩
      unfold characterEntry
      rw [hc]
      exact character_par h1 h2 h3 h4 hf.project f1 (odtConvert_title f2).2 (odtConvert_title f3).2))
  obtain ⟨l6, e6, p6⟩ := sections_pars (what := c!"Locations tagged") (var := c!"Tag") (by unfold Listed; simp) (f := xrefTag)
    (lines := elementLines (xrefWorld c!"locations" c!"LcID") ((plainEnv name path).plainBase.location n)) (title := fun t => t)
    (hits := occurrences n.srtLocations (tagsIn n.locations (·.tags))) (line := worldEntry name c!"locations" c!"LcID" n.locations)
    (distinct (n.srtLocations.flatMap (tagsIn n.locations (·.tags))))
    (fun k h => by
      rw [distinct_mem, List.mem_flatMap] at h
      obtain ⟨id, hid, h⟩ := h
      obtain ⟨s, hs⟩ := (Dict.mem_keys_iff _ _).1 (hr.loc id hid)
      have e : tagsIn n.locations (·.tags) id = s.tags.getD [] := by unfold tagsIn; rw [hs]; rfl
      rw [e] at h
      exact tag k ((hf.locations id hid s hs).2.2 k h))
    (fun k _ => elements_pars _ (fun id hid => by
      have hid := ((C10_inverse _ _ _ _).1 hid).1
      obtain ⟨c, m, hc, hm, h1, h2, h3⟩ := loc id hid
      obtain ⟨f1, f2, _⟩ := hf.locations id hid c hc
      refine ⟨m, hm, ?_⟩
      unfold worldEntry
      rw [hc]
      exact world_par (.inl ⟨rfl, rfl⟩) h1 h2 h3 hf.project f1 (odtConvert_title f2).2))
  obtain ⟨l7, e7, p7⟩ := sections_pars (what := c!"Items tagged") (var := c!"Tag") (by unfold Listed; simp) (f := xrefTag)
    (lines := elementLines (xrefWorld c!"items" c!"ItID") ((plainEnv name path).plainBase.item n)) (title := fun t => t)
    (hits := occurrences n.srtItems (tagsIn n.items (·.tags))) (line := worldEntry name c!"items" c!"ItID" n.items)
    (distinct (n.srtItems.flatMap (tagsIn n.items (·.tags))))
    (fun k h => by
      rw [distinct_mem, List.mem_flatMap] at h
      obtain ⟨id, hid, h⟩ := h
      obtain ⟨s, hs⟩ := (Dict.mem_keys_iff _ _).1 (hr.itm id hid)
      have e : tagsIn n.items (·.tags) id = s.tags.getD [] := by unfold tagsIn; rw [hs]; rfl
      rw [e] at h
      exact tag k ((hf.items id hid s hs).2.2 k h))
    (fun k _ => elements_pars _ (fun id hid => by
      have hid := ((C10_inverse _ _ _ _).1 hid).1
      obtain ⟨c, m, hc, hm, h1, h2, h3⟩ := itm id hid
      obtain ⟨f1, f2, _⟩ := hf.items id hid c hc
      refine ⟨m, hm, ?_⟩
      unfold worldEntry
      rw [hc]
      exact world_par (.inr ⟨rfl, rfl⟩) h1 h2 h3 hf.project f1 (odtConvert_title f2).2))
  rw [← d1] at e1
  rw [← d2] at e2
  rw [← d3] at e3
  rw [← d4] at e4
  have e5' : xrefSections (xrefHeading c!"Characters tagged" c!"Tag") xrefTag (elementLines xrefCharacter ((plainEnv name path).plainBase.character n)) x.chrPerTag = .ok l5 := by
    rw [d5]; exact e5
  have e6' : xrefSections (xrefHeading c!"Locations tagged" c!"Tag") xrefTag (elementLines (xrefWorld c!"locations" c!"LcID") ((plainEnv name path).plainBase.location n)) x.locPerTag = .ok l6 := by
    rw [d6]; exact e6
  have e7' : xrefSections (xrefHeading c!"Items tagged" c!"Tag") xrefTag (elementLines (xrefWorld c!"items" c!"ItID") ((plainEnv name path).plainBase.item n)) x.itmPerTag = .ok l7 := by
    rw [d7]; exact e7
  have htext : xrefText (plainEnv name path) n = .ok (hd ++ l1 ++ l2 ++ l3 ++ l4 ++ l5 ++ l6 ++ l7 ++ [contentFooter]).flatten := by
    unfold xrefText
    rw [hx]
    simp only [bind, Except.bind, hhd, e1, e2, e3, e4, e5', e6', e7']
  have pt := Pars.p (style := c!"Title") (by simp) (Inl.esc (odtConvert_title hf.title).2)
  have pa := Pars.p (style := c!"Subtitle") (by simp) (Inl.esc (odtConvert_title hf.author).2)
  have eT : c!"<text:p text:style-name=\"" ++ c!"Title" ++ c!"\">" = c!"<text:p text:style-name=\"Title\">" := by decide
  have eA : c!"<text:p text:style-name=\"" ++ c!"Subtitle" ++ c!"\">" = c!"<text:p text:style-name=\"Subtitle\">" := by decide
  rw [eT] at pt
  rw [eA] at pa
  have pall := ((((((((pt.append pa).append p1).append p2).append p3).append p4).append p5).append p6).append p7)
  obtain ⟨root, hroot, hpar⟩ := document_paragraphs pall
  refine ⟨_, root, htext, ?_, ?_⟩
  · refine (congrArg parseDoc ?_).trans hroot
    simp only [List.flatten_append, List.flatten_cons, List.flatten_nil, List.append_nil, hhead]
    generalize contentFooter = z1
    generalize c!"</text:p>\n" = z2
    generalize c!"<text:p text:style-name=\"Title\">" = z3
    generalize c!"<text:p text:style-name=\"Subtitle\">" = z4
    generalize formattedHeader [] = z5
    simp only [List.append_assoc]
  · rw [hpar]
    rfl

/-! ### An example -/

/-- A novel with two chapters, three scenes (one of them notes), two characters, a location and tags. -/
def xrefExample (tag : Str) : Novel :=
  { title := some c!"A & B", authorName := some c!"N. N.",
    chapters := [(c!"1", { title := some c!"One", srtScenes := [c!"5"] }), (c!"2", { title := some c!"Two", srtScenes := [c!"7", c!"6"] })], srtChapters := [c!"1", c!"2"],
    scenes := [(c!"5", { title := some c!"Begin", status := some 1, characters := some [c!"2", c!"1"], tags := some [tag] }),
      (c!"6", { title := some c!"<End>", status := some 5, scType := some 0, characters := some [c!"1"], locations := some [c!"1"] }),
      (c!"7", { title := none, status := some 2, scType := some 1, characters := some [], tags := some [c!"plan", tag] })],
    characters := [(c!"1", { title := some c!"Ann", fullName := some c!"Ann Other", tags := some [c!"old"] }), (c!"2", { title := some c!"Bob", tags := some [c!"old", c!"tall"] })],
    srtCharacters := [c!"1", c!"2"], locations := [(c!"1", { title := some c!"Inn" })], srtLocations := [c!"1"] }

theorem xrefExample_ready : XrefReady (xrefExample c!"x") := ⟨by decide, by decide, by decide, by decide, by decide, by decide, by decide, by decide⟩

theorem xrefExample_narrative (t : Str) : narrative (xrefExample t) = [c!"5", c!"7", c!"6"] := rfl

theorem xrefExample_exportable : Exportable (xrefExample c!"x") where
  chapters id hid := by
    simp only [xrefExample, List.mem_cons, List.not_mem_nil, or_false] at hid
    rcases hid with rfl | rfl <;> exact ⟨_, rfl⟩
  scenes id hid := by
    rw [xrefExample_narrative] at hid
    simp only [List.mem_cons, List.not_mem_nil, or_false] at hid
    rcases hid with rfl | rfl | rfl
    · exact ⟨_, rfl, ⟨1, by decide, rfl⟩, (by intro l h; cases h), (by intro l h; cases h)⟩
    · exact ⟨_, rfl, ⟨2, by decide, rfl⟩, (by intro l h; cases h), (by intro l h; cases h)⟩
    · exact ⟨_, rfl, ⟨5, by decide, rfl⟩, (by intro l h; cases h; decide), (by intro l h; cases h)⟩

theorem xrefExample_fits : XrefFits c!"my project" (xrefExample c!"x") where
  project := by decide
  title := by show Carriable _; unfold Carriable; decide
  author := by show Carriable _; unfold Carriable; decide
  scenes id hid s hs := by
    rw [xrefExample_narrative] at hid
    simp only [List.mem_cons, List.not_mem_nil, or_false] at hid
    rcases hid with rfl | rfl | rfl <;> cases Option.some.inj hs
    · exact ⟨(by unfold PlainId; decide), (by show Carriable _; unfold Carriable; decide), (by unfold Plain; decide)⟩
    · exact ⟨(by unfold PlainId; decide), trivial, (by unfold Plain; decide)⟩
    · exact ⟨(by unfold PlainId; decide), (by show Carriable _; unfold Carriable; decide), (by unfold Plain; decide)⟩
  characters id hid s hs := by
    simp only [xrefExample, List.mem_cons, List.not_mem_nil, or_false] at hid
    rcases hid with rfl | rfl <;> cases Option.some.inj hs
    · exact ⟨(by unfold PlainId; decide), (by show Carriable _; unfold Carriable; decide), (by show Carriable _; unfold Carriable; decide), (by unfold Plain; decide)⟩
    · exact ⟨(by unfold PlainId; decide), (by show Carriable _; unfold Carriable; decide), trivial, (by unfold Plain; decide)⟩
  locations id hid s hs := by
    simp only [xrefExample, List.mem_cons, List.not_mem_nil, or_false] at hid
    subst hid
    cases Option.some.inj hs
    exact ⟨(by unfold PlainId; decide), (by show Carriable _; unfold Carriable; decide), (by unfold Plain; decide)⟩
  items id hid := by cases hid

/-- The cross reference of the example. -/
theorem xrefExample_shown : ∃ text root, xrefText (plainEnv c!"my project" c!"/p") (xrefExample c!"x") = .ok text ∧ parseDoc text = some root ∧
    paragraphs root = [⟨c!"Title", c!"A & B", []⟩, ⟨c!"Subtitle", c!"N. N.", []⟩,
      ⟨c!"Heading_20_2", c!"Scenes with Character Ann:", []⟩,
      ⟨c!"scene_20_mark", c!"\n1 (Ch 1) Begin\n", [c!"../my project_manuscript.odt#ScID:5%7Cregion"]⟩,
      ⟨c!"scene_20_mark", c!"\n3 (Ch 2) <End>\n", [c!"../my project_manuscript.odt#ScID:6%7Cregion"]⟩,
      ⟨c!"Heading_20_2", c!"Scenes with Character Bob:", []⟩,
      ⟨c!"scene_20_mark", c!"\n1 (Ch 1) Begin\n", [c!"../my project_manuscript.odt#ScID:5%7Cregion"]⟩,
      ⟨c!"Heading_20_2", c!"Scenes with Location Inn:", []⟩,
      ⟨c!"scene_20_mark", c!"\n3 (Ch 2) <End>\n", [c!"../my project_manuscript.odt#ScID:6%7Cregion"]⟩,
      ⟨c!"Heading_20_2", c!"Scenes tagged x:", []⟩,
      ⟨c!"scene_20_mark", c!"\n1 (Ch 1) Begin\n", [c!"../my project_manuscript.odt#ScID:5%7Cregion"]⟩,
      ⟨c!"scene_20_mark_20_notes", c!"\n2 (Ch 2)  (Notes)\n", []⟩,
      ⟨c!"Heading_20_2", c!"Scenes tagged plan:", []⟩,
      ⟨c!"scene_20_mark_20_notes", c!"\n2 (Ch 2)  (Notes)\n", []⟩,
      ⟨c!"Heading_20_2", c!"Characters tagged old:", []⟩,
      ⟨c!"Text_20_body", c!"\nAnn Ann Other\n", [c!"../my project_characters.odt#CrID:1%7Cregion"]⟩,
      ⟨c!"Text_20_body", c!"\nBob \n", [c!"../my project_characters.odt#CrID:2%7Cregion"]⟩,
      ⟨c!"Heading_20_2", c!"Characters tagged tall:", []⟩,
      ⟨c!"Text_20_body", c!"\nBob \n", [c!"../my project_characters.odt#CrID:2%7Cregion"]⟩] := by
  obtain ⟨text, root, h1, h2, h3⟩ := C55_document_partial c!"my project" c!"/p" _ xrefExample_ready xrefExample_exportable xrefExample_fits
  refine ⟨text, root, h1, h2, ?_⟩
  rw [h3]
  decide +kernel

/-- The document that is written, if it is well-formed. -/
def xrefParsed (n : Novel) : Option XNode :=
  match xrefText (plainEnv c!"p" c!"/p") n with
  | .ok text => parseDoc text
  | .error _ => none

set_option maxRecDepth 100000 in
/-- False without the condition on the tags: a tag with an ampersand is not escaped, the document is not well-formed (and word processors
refuse to open it). -/
theorem C55_tag_breaks : (xrefParsed (xrefExample c!"x")).isSome = true ∧ (xrefParsed (xrefExample c!"R&D")).isSome = false := by
  refine ⟨?_, ?_⟩ <;> decide +kernel

end Verif
