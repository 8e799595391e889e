/-
What is read back from a saved project, section by section.
-/
import Verif.Lemmas.Yw7Sections
import Verif.Spec.Project
import Verif.Props.C39_SceneTypes
import Verif.Props.C14_Chapters

namespace Verif
open Xml Elem Spec

theorem prevDict_has {d r : Dict Elem} {l : List Elem} (h : prevDict d l = .ok r) :
    (∀ id, (d.get? id).isSome → (r.get? id).isSome) ∧
    ∀ e ∈ l, ∀ id, idOf e = .ok id → (r.get? id).isSome := by
  induction l generalizing d with
  | nil => unfold prevDict at h; cases h; simp
  | cons a s ih =>
    unfold prevDict at h
    cases hi : idOf a with
    | error x => rw [hi] at h; cases h
    | ok i =>
      rw [hi] at h; simp only at h
      obtain ⟨h1, h2⟩ := ih h
      refine ⟨?_, ?_⟩
      · intro id hid
        refine h1 id ?_
        rw [Dict.get?_set]; split
        · rfl
        · exact hid
      · intro e he id hid
        rcases List.mem_cons.1 he with rfl | he
        · rw [hi] at hid; cases hid
          exact h1 _ (by rw [Dict.get?_set]; simp)
        · exact h2 e he id hid

theorem oldElem_oldEntry {tag sec : Str} {rk : List Elem} {s : Elem} {prev : Dict Elem}
    (hs : find sec rk = some s) (h : prevDict [] s.kids = .ok prev) (id : Str) :
    OldEntry rk sec id (oldElem tag prev id).kids := by
  cases he : prev.get? id with
  | some e =>
    left
    rcases prevDict_mem h he with h1 | ⟨h1, h2⟩
    · cases h1
    · refine ⟨s, e, hs, h1, (idOf_ok_iff _ _).1 h2, ?_⟩
      unfold oldElem; rw [he]; rfl
  | none =>
    right
    refine ⟨?_, by unfold oldElem; rw [he]; rfl⟩
    intro s' hs' e hek hid
    rw [hs] at hs'; cases hs'
    have := (prevDict_has h).2 e hek id ((idOf_ok_iff _ _).2 hid)
    rw [he] at this; cases this

/-- A section that is rebuilt by `rebuildSection` and read by `readSection`. -/
theorem world_section {α β : Type} {sec tag : Str} {d : Dict α} {f : α → List Elem → List Elem}
    {g : List Elem → β} {ids : List Str} {rk out r : List Elem} {res : List Str × Dict β}
    (hf : ∀ a ks, sel c!"ID" (f a ks) = sel c!"ID" ks)
    (hids : ids.Nodup ∧ ∀ id ∈ ids, GoodId id)
    (ht : ∀ s, find sec rk = some s → ∀ e ∈ s.kids, e.tag = tag)
    (hb : ∃ e ks, find sec rk = some e ∧ rebuildSection tag d f ids e.kids = .ok ks ∧
      find sec out = some (e.mapKids (fun _ => ks)))
    (hr : ReloadedL out r) (hm : readSection sec (fun ks => .ok (g ks)) [] r = .ok res) :
    res.1 = ids ∧ res.2.keys = ids ∧
    ∀ id ∈ ids, ∃ a ks', d.get? id = some a ∧ ReloadedL (f a [leaf c!"ID" (some id)]) ks' ∧
      res.2.get? id = some (g ks') := by
  obtain ⟨e, ks, h1, h2, h3⟩ := hb
  have h4 := rebuildSection_ok h2 (ht e h1)
  obtain ⟨e', h5, h6⟩ := hr.find h3
  unfold readSection at hm
  rw [h5] at hm
  simp only at hm
  have h7 := h6.kids
  rw [Elem.kids_mapKids'] at h7
  obtain ⟨g1, g2, _⟩ := reload_section (key := id) h4 (fun id _ e he => newEntry_hasId hf he)
    (fun id hid => hids.2 id hid) h7
  obtain ⟨ids', i1, i2, i3⟩ := readEntries_ok hm
  rw [g1] at i1
  cases i1
  simp only [List.map_id, List.nil_append, Dict.keys, List.map_nil, List.map_id] at i2 i3
  have i3 := i3 (by simpa using hids.1)
  refine ⟨by simpa using i2, by simpa [Dict.keys] using i3.1, ?_⟩
  intro id hid
  obtain ⟨x, x', j1, j2, j3, j4⟩ := g2 id hid
  obtain ⟨a, ha1, ha2⟩ := i3.2.2 x' j2 id j4
  cases ha1
  unfold newEntry at j1
  cases hd : d.get? id with
  | none => rw [hd] at j1; cases j1
  | some b =>
    rw [hd] at j1; cases j1
    exact ⟨b, x'.kids, rfl, j3.kids, ha2⟩

theorem sel_Fields_buildNote (b : BasicElement) (id : Str) :
    sel c!"Fields" (buildNote b [leaf c!"ID" (some id)]) = [] := by
  unfold buildNote
  rw [sel_putNew_ne (by decide), sel_putNew_ne (by decide)]
  rfl

theorem readNotes_ok {ks : List Elem} {acc : List Str × Dict BasicElement}
    {ids : List Str} (h : mapE idOf ks = .ok ids) (hf : ∀ e ∈ ks, sel c!"Fields" e.kids = []) :
    readEntries (fun ks => .ok ({ title := textOf c!"Title" ks, desc := textOf c!"Desc" ks } : BasicElement)) acc ks
      = .ok (readNotes acc ks) := by
  induction ks generalizing acc ids with
  | nil => rfl
  | cons e r ih =>
    obtain ⟨id, is, h1, h2, rfl⟩ := mapE_cons_ok h
    unfold readEntries readNotes
    have hF : hasTag c!"Fields" e.kids = false := by
      rw [hasTag_eq, hf e (by simp)]; rfl
    unfold idOf at h1 ⊢
    cases hi : find c!"ID" e.kids with
    | none => rw [hi] at h1; cases h1
    | some i =>
      rw [hi] at h1
      simp only at h1 ⊢
      cases ht : i.text with
      | none => rw [ht] at h1; cases h1
      | some s =>
        simp only
        rw [hF]
        simp only [Bool.false_eq_true, if_false]
        exact ih h2 (fun x hx => hf x (by simp [hx]))

/-- The project notes. -/
theorem notes_section {n : Novel} {rk rk2 out r : List Elem}
    (hids : n.srtPrjNotes.Nodup ∧ ∀ id ∈ n.srtPrjNotes, GoodId id)
    (ht : ∀ s, find c!"PROJECTNOTES" rk = some s → ∀ e ∈ s.kids, e.tag = c!"PROJECTNOTE")
    (ho : (sel c!"PROJECTNOTES" rk).length ≤ 1)
    (hb : buildNotes n rk = .ok rk2) (ho2 : find c!"PROJECTNOTES" out = find c!"PROJECTNOTES" rk2)
    (hr : ReloadedL out r) :
    let res := readNotes ([], []) (match find c!"PROJECTNOTES" r with | none => [] | some e => e.kids)
    res.1 = n.srtPrjNotes ∧ res.2.keys = n.srtPrjNotes ∧
    ∀ id ∈ n.srtPrjNotes, ∃ a ks', n.projectNotes.get? id = some a ∧
      ReloadedL (buildNote a [leaf c!"ID" (some id)]) ks' ∧
      res.2.get? id = some { title := textOf c!"Title" ks', desc := textOf c!"Desc" ks' } := by
  intro res
  unfold buildNotes at hb
  split at hb
  · rename_i hnil
    cases hb
    have hnone : find c!"PROJECTNOTES" out = none := by
      rw [ho2, find_eq, sel_removeFirst_self]
      cases hs : sel c!"PROJECTNOTES" rk with
      | nil => rfl
      | cons a q =>
        rw [hs] at ho
        cases q with
        | nil => rfl
        | cons b q => simp at ho
    have hres : res = ([], []) := by
      show readNotes _ (match find c!"PROJECTNOTES" r with | none => [] | some e => e.kids) = _
      rw [hr.find_none hnone]; rfl
    rw [hres, hnil]
    exact ⟨rfl, rfl, by simp⟩
  · rename_i hnil
    obtain ⟨e, ks, h1, h2, h3, _⟩ := onSection_ok hb
    have ht' : ∀ x ∈ e.kids, x.tag = c!"PROJECTNOTE" := by
      split at h1
      · exact ht e h1
      · rename_i hno
        have hnone : find c!"PROJECTNOTES" rk = none := by
          unfold hasTag at hno
          cases hq : find c!"PROJECTNOTES" rk with
          | none => rfl
          | some q => rw [hq] at hno; simp at hno
        rw [find_append_of_none (e := node c!"PROJECTNOTES" none none []) (t := c!"PROJECTNOTES") rfl hnone] at h1
        cases h1
        simp
    have h4 := rebuildSection_ok h2 ht'
    rw [← ho2] at h3
    obtain ⟨e', h5, h6⟩ := hr.find h3
    have h7 := h6.kids
    rw [Elem.kids_mapKids'] at h7
    obtain ⟨g1, g2, g3⟩ := reload_section (key := id) h4 (fun id _ e he => newEntry_hasId sel_ID_buildNote he)
      (fun id hid => hids.2 id hid) h7
    have hF : ∀ x ∈ e'.kids, sel c!"Fields" x.kids = [] := by
      intro x hx
      obtain ⟨b, _, y, hy1, hy2, _⟩ := g3 x hx
      unfold newEntry at hy1
      cases hd : n.projectNotes.get? b with
      | none => rw [hd] at hy1; cases hy1
      | some a =>
        rw [hd] at hy1; cases hy1
        exact (hy2.kids.sel c!"Fields").nil_iff.2 (sel_Fields_buildNote a b)
    have hres : readEntries (fun ks => .ok ({ title := textOf c!"Title" ks, desc := textOf c!"Desc" ks } : BasicElement)) ([], []) e'.kids = .ok res := by
      rw [readNotes_ok g1 hF]
      show _ = Except.ok (readNotes ([], []) (match find c!"PROJECTNOTES" r with | none => [] | some e => e.kids))
      rw [h5]
    obtain ⟨ids', i1, i2, i3⟩ := readEntries_ok hres
    rw [g1] at i1
    cases i1
    simp only [List.map_id, List.nil_append, Dict.keys, List.map_nil, List.map_id] at i2 i3
    have i3 := i3 (by simpa using hids.1)
    refine ⟨by simpa using i2, by simpa [Dict.keys] using i3.1, ?_⟩
    intro id hid
    obtain ⟨x, x', j1, j2, j3, j4⟩ := g2 id hid
    obtain ⟨a, ha1, ha2⟩ := i3.2.2 x' j2 id j4
    cases ha1
    unfold newEntry at j1
    cases hd : n.projectNotes.get? id with
    | none => rw [hd] at j1; cases j1
    | some b =>
      rw [hd] at j1; cases j1
      exact ⟨b, x'.kids, rfl, j3.kids, ha2⟩

/-- The scenes. -/
theorem scenes_section {lib : PyLib} {a b c : List Str} {n : Novel} {rk out r : List Elem}
    {res : List Str × Dict Scene} (hn : n.scenes.keys.Nodup) (hids : ∀ id ∈ n.scenes.keys, GoodId id)
    (ht : ∀ s, find c!"SCENES" rk = some s → ∀ e ∈ s.kids, e.tag = c!"SCENE")
    (hi : ∀ s, find c!"SCENES" rk = some s → ∀ e ∈ s.kids, ∀ i ∈ sel c!"ID" e.kids, i.kids = [])
    (hb : ∃ e k1 k2, find c!"SCENES" rk = some e ∧ buildScenes n e.kids = .ok k1 ∧
      finishScenes n k1 = .ok k2 ∧ find c!"SCENES" out = some (e.mapKids (fun _ => k2)))
    (hr : ReloadedL out r) (hm : readSection c!"SCENES" (readScene lib a b c) [] r = .ok res) :
    res.2.keys = n.scenes.keys ∧
    ∀ id s, n.scenes.get? id = some s → ∃ old o ks' x, OldEntry rk c!"SCENES" id old ∧
      sceneOut s old = .ok o ∧ ReloadedL o ks' ∧ readScene lib a b c ks' = .ok x ∧
      res.2.get? id = some x := by
  obtain ⟨e, k1, k2, h1, h2, h3, h4⟩ := hb
  obtain ⟨prev, h5, h6⟩ := scenesSection_ok hn (ht e h1) h2 h3
  obtain ⟨e', h7, h8⟩ := hr.find h4
  unfold readSection at hm
  rw [h7] at hm
  simp only at hm
  have h9 := h8.kids
  rw [Elem.kids_mapKids'] at h9
  obtain ⟨g1, g2, _⟩ := reload_section (key := Prod.fst) h6
    (fun p _ e he => sceneElem_hasId h5 (hi _ h1) he)
    (fun p hp => hids p.1 (List.mem_map.2 ⟨p, hp, rfl⟩)) h9
  obtain ⟨ids', i1, i2, i3⟩ := readEntries_ok hm
  rw [g1] at i1
  cases i1
  have i3 := i3 (by simpa [Dict.keys] using hn)
  refine ⟨by simpa [Dict.keys] using i3.1, ?_⟩
  intro id s hs
  obtain ⟨x, x', j1, j2, j3, j4⟩ := g2 (id, s) (mem_of_get? hs)
  obtain ⟨y, ha1, ha2⟩ := i3.2.2 x' j2 id j4
  unfold sceneElem at j1
  cases hd : sceneOut s (oldElem c!"SCENE" prev id).kids with
  | error z => rw [hd] at j1; cases j1
  | ok k =>
    rw [hd] at j1; cases j1
    have j3k := j3.kids
    rw [Elem.kids_mapKids'] at j3k
    exact ⟨_, k, x'.kids, y, oldElem_oldEntry h1 h5 id, hd, j3k, ha1, ha2⟩

/-- The chapters. -/
theorem chapters_section {n : Novel} {sc : List Str} {rk out r : List Elem}
    {res : List Str × Dict Chapter} (hn : n.srtChapters.Nodup) (hids : ∀ id ∈ n.srtChapters, GoodId id)
    (ht : ∀ s, find c!"CHAPTERS" rk = some s → ∀ e ∈ s.kids, e.tag = c!"CHAPTER")
    (hi : ∀ s, find c!"CHAPTERS" rk = some s → ∀ e ∈ s.kids, ∀ i ∈ sel c!"ID" e.kids, i.kids = [])
    (hb : ∃ e ks, find c!"CHAPTERS" rk = some e ∧ buildChapters n e.kids = .ok ks ∧
      find c!"CHAPTERS" out = some (e.mapKids (fun _ => ks)))
    (hr : ReloadedL out r)
    (hm : readSection c!"CHAPTERS" (fun ks => .ok (readChapter sc ks)) [] r = .ok res) :
    res.1 = n.srtChapters ∧ res.2.keys = n.srtChapters ∧
    ∀ id ∈ n.srtChapters, ∃ c old o ks', n.chapters.get? id = some c ∧ OldEntry rk c!"CHAPTERS" id old ∧
      buildChapter c old = .ok o ∧ ReloadedL o ks' ∧ res.2.get? id = some (readChapter sc ks') := by
  obtain ⟨e, k2, h1, h2, h4⟩ := hb
  obtain ⟨prev, h5, h6⟩ := chaptersSection_ok (ht e h1) h2
  obtain ⟨e', h7, h8⟩ := hr.find h4
  unfold readSection at hm
  rw [h7] at hm
  simp only at hm
  have h9 := h8.kids
  rw [Elem.kids_mapKids'] at h9
  obtain ⟨g1, g2, _⟩ := reload_section (key := id) h6
    (fun p _ e he => chapterElem_hasId h5 (hi _ h1) he) (fun p hp => hids p hp) h9
  obtain ⟨ids', i1, i2, i3⟩ := readEntries_ok hm
  rw [g1] at i1
  cases i1
  have i3 := i3 (by simpa [Dict.keys] using hn)
  refine ⟨by simpa using i2, by simpa [Dict.keys] using i3.1, ?_⟩
  intro id hid
  obtain ⟨x, x', j1, j2, j3, j4⟩ := g2 id hid
  obtain ⟨y, ha1, ha2⟩ := i3.2.2 x' j2 id j4
  cases ha1
  unfold chapterElem at j1
  cases hc : n.chapters.get? id with
  | none => rw [hc] at j1; cases j1
  | some c =>
    rw [hc] at j1; simp only at j1
    cases hd : buildChapter c (oldElem c!"CHAPTER" prev id).kids with
    | error z => rw [hd] at j1; cases j1
    | ok k =>
      rw [hd] at j1; cases j1
      have j3k := j3.kids
      rw [Elem.kids_mapKids'] at j3k
      exact ⟨c, _, k, x'.kids, rfl, oldElem_oldEntry h1 h5 id, hd, j3k, ha2⟩

end Verif
