/-
C51: a project can be saved.
-/
import Verif.Spec.Writable
import Verif.Props.C20_Settled

namespace Verif
open Xml Elem Spec

theorem mapE_total {α β : Type} {f : α → Except Exc β} {l : List α} (h : ∀ a ∈ l, ∃ b, f a = .ok b) : ∃ bs, mapE f l = .ok bs := by
  induction l with
  | nil => exact ⟨[], rfl⟩
  | cons a r ih =>
    obtain ⟨b, hb⟩ := h a (by simp)
    obtain ⟨bs, hbs⟩ := ih (fun x hx => h x (by simp [hx]))
    exact ⟨b :: bs, mapE_cons_of hb hbs⟩

theorem onSection_total {t : Str} {f : List Elem → Except Exc (List Elem)} {rk : List Elem} {e : Elem} {ks : List Elem} (he : find t rk = some e)
    (hf : f e.kids = .ok ks) : ∃ out, onSection t f rk = .ok out := by
  unfold onSection
  rw [he]
  simp only [hf]
  exact ⟨_, rfl⟩

theorem rebuildSection_total {α : Type} {tag : Str} {d : Dict α} {f : α → List Elem → List Elem} {ids : List Str} (ks : List Elem)
    (h : ∀ id ∈ ids, (d.get? id).isSome) : ∃ out, rebuildSection tag d f ids ks = .ok out := by
  obtain ⟨bs, hb⟩ := mapE_total (f := newEntry tag d f) (l := ids) (by
    intro id hid
    obtain ⟨a, ha⟩ := Option.isSome_iff_exists.1 (h id hid)
    unfold newEntry
    rw [ha]
    exact ⟨_, rfl⟩)
  refine ⟨ks.filter (fun e => e.tag ≠ tag) ++ bs, ?_⟩
  have : rebuildSection tag d f ids ks = match mapE (newEntry tag d f) ids with | .error e => .error e | .ok es => .ok (ks.filter (fun e => e.tag ≠ tag) ++ es) := rfl
  rw [this, hb]

theorem split_three {t : Str} (h : ThreeParts t) : ∃ a b c, Str.split t c!":" = [a, b, c] := by
  obtain ⟨a, b, c, rfl, h1, h2, h3⟩ := h
  have := Str.split_join c!":" (by decide) [a, b, c] (by simp) (by
    intro x hx
    refine (Str.freeOf_singleton ':' x).2 ?_
    simp only [List.mem_cons, List.not_mem_nil, or_false] at hx
    rcases hx with rfl | rfl | rfl <;> assumption)
  refine ⟨a, b, c, ?_⟩
  have e : Str.join c!":" [a, b, c] = a ++ ':' :: (b ++ ':' :: c) := by simp [Str.join]
  rw [e] at this
  exact this

theorem putStart_total {d t y : Option Str} (ks : List Elem) (h : SavableStart d t y) : ∃ out, putStart d t y ks = .ok out := by
  cases d with
  | some d =>
    cases t with
    | some t =>
      unfold putStart
      simp only
      split
      · exact ⟨_, rfl⟩
      · split <;> exact ⟨_, rfl⟩
    | none =>
      unfold putStart
      simp only
      split
      · exact ⟨_, rfl⟩
      · split <;> exact ⟨_, rfl⟩
  | none =>
    cases t with
    | none =>
      unfold putStart
      simp only
      split
      · exact ⟨_, rfl⟩
      · split <;> exact ⟨_, rfl⟩
    | some t =>
      rcases h with ⟨h, _⟩ | h | ⟨h, h2⟩ | ⟨t', h, h2⟩
      · cases h
      · cases h
      · cases h
        rcases h2 with rfl | rfl
        · exact ⟨removeDateTime ks, rfl⟩
        · exact ⟨removeDateTime ks, rfl⟩
      · cases h
        obtain ⟨a, b, c, hs⟩ := split_three h2
        unfold putStart
        simp only [hs]
        split
        · exact ⟨_, rfl⟩
        · split <;> exact ⟨_, rfl⟩

theorem sceneOut_total {s : Scene} (ks : List Elem) (h1 : s.scType.getD 0 ≤ 3) (h2 : SavableStart s.date s.time s.day) : ∃ k, buildScene s ks = .ok k := by
  have : ∃ p, scTypeEncoding[s.scType.getD 0]? = some p := by
    generalize s.scType.getD 0 = i at h1
    match i, h1 with
    | 0, _ => exact ⟨_, rfl⟩
    | 1, _ => exact ⟨_, rfl⟩
    | 2, _ => exact ⟨_, rfl⟩
    | 3, _ => exact ⟨_, rfl⟩
  obtain ⟨⟨u, ty⟩, hp⟩ := this
  obtain ⟨o, ho⟩ := putStart_total (buildSceneA s u ty ks) h2
  unfold buildScene
  rw [hp]
  simp only [ho]
  exact ⟨_, rfl⟩

theorem buildScene_content {s : Scene} {ks k : List Elem} (h : buildScene s ks = .ok k) : hasTag c!"SceneContent" k = true := by
  have ho : sceneOut s ks = .ok (finishScene s.sceneContent k) := by unfold sceneOut; rw [h]
  have := scene_SceneContent ho
  rw [hasTag_iff]
  intro hn
  have hm : ∀ v, missSel c!"SceneContent" v (sel c!"SceneContent" ks) ≠ [] := by
    intro v hv
    unfold missSel at hv
    split at hv <;> cases hv
  have hf : sel c!"SceneContent" (finishScene s.sceneContent k) = [] := by
    unfold finishScene
    rw [sel_removeFirst_ne (by decide), sel_removeFirst_ne (by decide), sel_removeFirst_ne (by decide), sel_removeFirst_ne (by decide)]
    cases s.sceneContent with
    | none => exact hn
    | some c =>
      show sel c!"SceneContent" (modFirst c!"SceneContent" (setText (some c)) k) = []
      rw [sel_setText, hn]; rfl
  rw [hf] at this
  cases hc : s.sceneContent with
  | none => rw [hc] at this; exact hm none this.symm
  | some c =>
    rw [hc] at this
    simp only at this
    cases hq : missSel c!"SceneContent" (some c) (sel c!"SceneContent" ks) with
    | nil => exact hm _ hq
    | cons a r => rw [hq] at this; cases this

theorem prevDict_total {l : List Elem} (d : Dict Elem) (h : ∀ e ∈ l, ∃ id, textOf c!"ID" e.kids = some id) : ∃ r, prevDict d l = .ok r := by
  induction l generalizing d with
  | nil => exact ⟨d, rfl⟩
  | cons e r ih =>
    obtain ⟨id, hid⟩ := h e (by simp)
    rw [← idOf_ok_iff] at hid
    unfold prevDict
    rw [hid]
    exact ih _ (fun x hx => h x (by simp [hx]))

theorem buildScenes_total {n : Novel} {ks : List Elem} (hn : n.scenes.keys.Nodup) (hs : ∀ p ∈ n.scenes, p.2.scType.getD 0 ≤ 3 ∧ SavableStart p.2.date p.2.time p.2.day)
    (ht : ∀ e ∈ ks, e.tag = c!"SCENE" ∧ ∃ id, textOf c!"ID" e.kids = some id) : ∃ k1 k2, buildScenes n ks = .ok k1 ∧ finishScenes n k1 = .ok k2 := by
  obtain ⟨prev, hp⟩ := prevDict_total [] (l := ks) (fun e he => (ht e he).2)
  obtain ⟨k1, hk⟩ := mapE_total (f := sceneElem1 prev) (l := n.scenes) (by
    intro p hpm
    obtain ⟨k, hk⟩ := sceneOut_total (oldElem c!"SCENE" prev p.1).kids (hs p hpm).1 (hs p hpm).2
    unfold sceneElem1
    rw [hk]
    exact ⟨_, rfl⟩)
  have h1 : buildScenes n ks = .ok k1 := by
    unfold buildScenes
    rw [sel_eq_self (fun e he => (ht e he).1), filter_eq_nil_of_tag (fun e he => (ht e he).1), hp]
    show (match mapE (sceneElem1 prev) n.scenes with | .error x => Except.error x | .ok es => .ok ([] ++ es)) = _
    rw [hk]; rfl
  obtain ⟨k2, hk2⟩ := mapE_total (l := k1) (f := fun e =>
    match idOf e with
    | .error x => .error x
    | .ok id =>
      match n.scenes.get? id with
      | none => .error .keyError
      | some s =>
        if s.sceneContent ≠ none ∧ hasTag c!"SceneContent" e.kids = false then .error .attributeError
        else .ok (e.mapKids (finishScene s.sceneContent))) (by
    intro e he
    obtain ⟨p, hpm, hpe⟩ := mapE_mem' hk e he
    unfold sceneElem1 at hpe
    cases hb : buildScene p.2 (oldElem c!"SCENE" prev p.1).kids with
    | error x => rw [hb] at hpe; cases hpe
    | ok k =>
      rw [hb] at hpe
      cases hpe
      have hid : idOf (oldElem c!"SCENE" prev p.1) = .ok p.1 := by
        rcases oldElem_cases (tag := c!"SCENE") hp p.1 with h | h
        · rw [h]; rfl
        · exact h.2
      have hid2 : idOf ((oldElem c!"SCENE" prev p.1).mapKids (fun _ => k)) = .ok p.1 := by
        rw [idOf_ok_iff] at hid ⊢
        rw [Elem.kids_mapKids', textOf_eq, sel_ID_buildScene hb, ← textOf_eq]
        exact hid
      rw [hid2]
      simp only [get?_of_mem_nodup hn hpm, Elem.kids_mapKids', buildScene_content hb]
      exact ⟨_, if_neg (by simp)⟩)
  exact ⟨k1, k2, h1, hk2⟩

theorem buildChapters_total {n : Novel} {ks : List Elem} (hc : ∀ id ∈ n.srtChapters, ∃ c, n.chapters.get? id = some c ∧ c.chType.getD 0 ≤ 3)
    (ht : ∀ e ∈ ks, e.tag = c!"CHAPTER" ∧ ∃ id, textOf c!"ID" e.kids = some id) : ∃ k, buildChapters n ks = .ok k := by
  obtain ⟨prev, hp⟩ := prevDict_total [] (l := ks) (fun e he => (ht e he).2)
  obtain ⟨k1, hk⟩ := mapE_total (f := chapterElem n prev) (l := n.srtChapters) (by
    intro id hid
    obtain ⟨c, h1, h2⟩ := hc id hid
    have : ∃ k, buildChapter c (oldElem c!"CHAPTER" prev id).kids = .ok k := by
      unfold buildChapter
      generalize c.chType.getD 0 = i at h2
      match i, h2 with
      | 0, _ => exact ⟨_, rfl⟩
      | 1, _ => exact ⟨_, rfl⟩
      | 2, _ => exact ⟨_, rfl⟩
      | 3, _ => exact ⟨_, rfl⟩
    obtain ⟨k, hk⟩ := this
    unfold chapterElem
    rw [h1]
    simp only [hk]
    exact ⟨_, rfl⟩)
  refine ⟨k1, ?_⟩
  unfold buildChapters
  rw [sel_eq_self (fun e he => (ht e he).1), filter_eq_nil_of_tag (fun e he => (ht e he).1), hp]
  show (match mapE (chapterElem n prev) n.srtChapters with | .error x => Except.error x | .ok es => .ok ([] ++ es)) = _
  rw [hk]; rfl

theorem buildNotes_total {n : Novel} (rk : List Elem) (h : ∀ id ∈ n.srtPrjNotes, (n.projectNotes.get? id).isSome) : ∃ out, buildNotes n rk = .ok out := by
  unfold buildNotes
  split
  · exact ⟨_, rfl⟩
  · have : ∃ e, find c!"PROJECTNOTES" (if hasTag c!"PROJECTNOTES" rk then rk else rk ++ [node c!"PROJECTNOTES" none none []]) = some e := by
      split
      · rename_i hh
        unfold hasTag at hh
        exact Option.isSome_iff_exists.1 hh
      · rename_i hh
        unfold hasTag at hh
        exact ⟨_, find_append_of_none (e := node c!"PROJECTNOTES" none none []) rfl (by simpa using hh)⟩
    obtain ⟨e, he⟩ := this
    obtain ⟨ks, hk⟩ := rebuildSection_total (tag := c!"PROJECTNOTE") (f := buildNote) e.kids h
    exact onSection_total he hk

theorem buildProjectVars_total {sl sc : Str} {n : Novel} {rk : List Elem} (hl : (n.languages.getD []).Nodup)
    (hv : ∀ s, find c!"PROJECTVARS" rk = some s → ∀ e ∈ s.kids, VarElement e) : ∃ out, buildProjectVars sl sc n rk = .ok out := by
  unfold buildProjectVars
  split
  · exact ⟨_, rfl⟩
  · have : ∃ e, find c!"PROJECTVARS" (if hasTag c!"PROJECTVARS" rk then rk else rk ++ [node c!"PROJECTVARS" none none []]) = some e ∧ ∀ x ∈ e.kids, VarElement x := by
      split
      · rename_i hh
        unfold hasTag at hh
        obtain ⟨e, he⟩ := Option.isSome_iff_exists.1 hh
        exact ⟨e, he, hv e he⟩
      · rename_i hh
        unfold hasTag at hh
        exact ⟨_, find_append_of_none (e := node c!"PROJECTVARS" none none []) rfl (by simpa using hh), by simp⟩
    obtain ⟨e, he, hx⟩ := this
    obtain ⟨_, _, _, _, _, _, hb⟩ := buildVars_ok (lng := (n.checkLocale sl sc).languageCode) (ctr := (n.checkLocale sl sc).countryCode) hx hl
    exact onSection_total he hb

/-- **C51**: a project with a sound structure can be saved, over any tree with all the sections. -/
theorem C51_writable (sl sc : Str) (n : Novel) (tree : Option Elem) (hn : Savable n) (hl : (savedLanguages n).Nodup) (ht : SavableTree (tree.getD newRoot).kids) :
    ∃ out, writeTree sl sc n tree = .ok out := by
  obtain ⟨p1, p2, p3, p4, p5, p6, p7, p8, p9, p10⟩ := prepareNovel_fields n
  have hsl : (prepareNovel n).languages.getD [] = savedLanguages n := by
    obtain ⟨_, _, _, _, _, _, _, _, _, _, n1, n2, n3⟩ := prepareNovel_project n
    rw [n3]; unfold savedLanguages
    cases n.languages <;> rfl
  unfold writeTree
  simp only
  generalize tree.getD newRoot = root at ht
  have fnd : ∀ t ∈ [c!"PROJECT", c!"LOCATIONS", c!"ITEMS", c!"CHARACTERS", c!"SCENES", c!"CHAPTERS"], ∃ e, find t root.kids = some e :=
    fun t h => Option.isSome_iff_exists.1 (ht.sections t h)
  obtain ⟨e1, f1⟩ := fnd c!"PROJECT" (by simp)
  obtain ⟨e2, f2⟩ := fnd c!"LOCATIONS" (by simp)
  obtain ⟨e3, f3⟩ := fnd c!"ITEMS" (by simp)
  obtain ⟨e4, f4⟩ := fnd c!"CHARACTERS" (by simp)
  obtain ⟨e7, f7⟩ := fnd c!"SCENES" (by simp)
  obtain ⟨e8, f8⟩ := fnd c!"CHAPTERS" (by simp)
  obtain ⟨r1, h1⟩ := onSection_total (f := fun ks => .ok (buildProject (prepareNovel n) ks)) f1 rfl
  obtain ⟨_, _, _, _, _, n1⟩ := onSection_ok h1
  obtain ⟨k2, g2⟩ := rebuildSection_total (tag := c!"LOCATION") (d := (prepareNovel n).locations) (f := buildWorld) (ids := (prepareNovel n).srtLocations) e2.kids (by rw [p3, p4]; exact hn.locations)
  obtain ⟨r2, h2⟩ := onSection_total (t := c!"LOCATIONS") (rk := r1) (by rw [find_of_sel_eq (n1 _ (by decide))]; exact f2) g2
  obtain ⟨_, _, _, _, _, n2⟩ := onSection_ok h2
  obtain ⟨k3, g3⟩ := rebuildSection_total (tag := c!"ITEM") (d := (prepareNovel n).items) (f := buildWorld) (ids := (prepareNovel n).srtItems) e3.kids (by rw [p5, p6]; exact hn.items)
  obtain ⟨r3, h3⟩ := onSection_total (t := c!"ITEMS") (rk := r2) (by rw [find_of_sel_eq (n2 _ (by decide)), find_of_sel_eq (n1 _ (by decide))]; exact f3) g3
  obtain ⟨_, _, _, _, _, n3⟩ := onSection_ok h3
  obtain ⟨k4, g4⟩ := rebuildSection_total (tag := c!"CHARACTER") (d := (prepareNovel n).characters) (f := buildCharacter) (ids := (prepareNovel n).srtCharacters) e4.kids (by rw [p7, p8]; exact hn.characters)
  obtain ⟨r4, h4⟩ := onSection_total (t := c!"CHARACTERS") (rk := r3) (by rw [find_of_sel_eq (n3 _ (by decide)), find_of_sel_eq (n2 _ (by decide)), find_of_sel_eq (n1 _ (by decide))]; exact f4) g4
  obtain ⟨_, _, _, _, _, n4⟩ := onSection_ok h4
  obtain ⟨r5, h5⟩ := buildNotes_total (n := prepareNovel n) r4 (by rw [p9, p10]; exact hn.notes)
  have n5 : ∀ u, u ≠ c!"PROJECTNOTES" → sel u r5 = sel u r4 := by
    intro u hu
    unfold buildNotes at h5
    split at h5
    · cases h5
      exact sel_removeFirst_ne (Ne.symm hu) r4
    · obtain ⟨e, ks, _, _, _, hs⟩ := onSection_ok h5
      rw [hs u hu]
      split
      · rfl
      · simp [sel, List.filter_append, Ne.symm hu]
  obtain ⟨r6, h6⟩ := buildProjectVars_total (sl := sl) (sc := sc) (n := prepareNovel n) (rk := r5) (by rw [hsl]; exact hl) (by
    rw [find_of_sel_eq (n5 _ (by decide)), find_of_sel_eq (n4 _ (by decide)), find_of_sel_eq (n3 _ (by decide)), find_of_sel_eq (n2 _ (by decide)), find_of_sel_eq (n1 _ (by decide))]
    exact ht.vars)
  have n6 : ∀ u, u ≠ c!"PROJECTVARS" → sel u r6 = sel u r5 := by
    intro u hu
    unfold buildProjectVars at h6
    split at h6
    · cases h6; rfl
    · obtain ⟨e, ks, _, _, _, hs⟩ := onSection_ok h6
      rw [hs u hu]
      split
      · rfl
      · simp [sel, List.filter_append, Ne.symm hu]
  obtain ⟨k7, k9, g7, g9⟩ := buildScenes_total (n := prepareNovel n) (ks := e7.kids) (by rw [keys_prepareNovel]; exact hn.scKeys) (by
    intro p hp
    unfold prepareNovel at hp
    dsimp only at hp
    obtain ⟨q, hq, rfl⟩ := List.mem_map.1 hp
    have hq' : q ∈ n.scenes := by
      split at hq
      · unfold Novel.getLanguages at hq; exact hq
      · exact hq
    exact hn.scenes q hq') (ht.entries (c!"SCENES", c!"SCENE") (by simp) e7 f7)
  obtain ⟨r7, h7⟩ := onSection_total (t := c!"SCENES") (rk := r6) (by
    rw [find_of_sel_eq (n6 _ (by decide)), find_of_sel_eq (n5 _ (by decide)), find_of_sel_eq (n4 _ (by decide)), find_of_sel_eq (n3 _ (by decide)), find_of_sel_eq (n2 _ (by decide)), find_of_sel_eq (n1 _ (by decide))]
    exact f7) g7
  obtain ⟨x7, y7, a7, b7, c7, n7⟩ := onSection_ok h7
  obtain ⟨k8, g8⟩ := buildChapters_total (n := prepareNovel n) (ks := e8.kids) (by rw [p1, p2]; exact hn.chapters) (ht.entries (c!"CHAPTERS", c!"CHAPTER") (by simp) e8 f8)
  obtain ⟨r8, h8⟩ := onSection_total (t := c!"CHAPTERS") (rk := r7) (by
    rw [find_of_sel_eq (n7 _ (by decide)), find_of_sel_eq (n6 _ (by decide)), find_of_sel_eq (n5 _ (by decide)), find_of_sel_eq (n4 _ (by decide)), find_of_sel_eq (n3 _ (by decide)), find_of_sel_eq (n2 _ (by decide)), find_of_sel_eq (n1 _ (by decide))]
    exact f8) g8
  obtain ⟨_, _, _, _, _, n8⟩ := onSection_ok h8
  have a7' : find c!"SCENES" r6 = some e7 := by
    rw [find_of_sel_eq (n6 _ (by decide)), find_of_sel_eq (n5 _ (by decide)), find_of_sel_eq (n4 _ (by decide)), find_of_sel_eq (n3 _ (by decide)), find_of_sel_eq (n2 _ (by decide)), find_of_sel_eq (n1 _ (by decide))]
    exact f7
  rw [a7'] at a7
  cases a7
  rw [g7] at b7
  cases b7
  obtain ⟨r9, h9⟩ := onSection_total (t := c!"SCENES") (f := finishScenes (prepareNovel n)) (rk := r8) (by rw [find_of_sel_eq (n8 _ (by decide))]; exact c7) (by rw [Elem.kids_mapKids']; exact g9)
  have : buildRoot sl sc (prepareNovel n) root.kids = .ok r9 := by
    unfold buildRoot
    rw [h1]
    show (onSection _ _ r1 >>= _) = _
    rw [h2]
    show (onSection _ _ r2 >>= _) = _
    rw [h3]
    show (onSection _ _ r3 >>= _) = _
    rw [h4]
    show (buildNotes _ r4 >>= _) = _
    rw [h5]
    show (buildProjectVars _ _ _ r5 >>= _) = _
    rw [h6]
    show (onSection _ _ r6 >>= _) = _
    rw [h7]
    show (onSection _ _ r7 >>= _) = _
    rw [h8]
    exact h9
  rw [this]
  exact ⟨_, rfl⟩

/-! ### What has been read -/

theorem readSection_found {α : Type} {t : Str} {f : List Elem → Except Exc α} {d : Dict α} {rk : List Elem} {res : List Str × Dict α}
    (h : readSection t f d rk = .ok res) : ∃ s, find t rk = some s ∧ ∀ e ∈ s.kids, ∃ id, textOf c!"ID" e.kids = some id := by
  unfold readSection at h
  cases hf : find t rk with
  | none => rw [hf] at h; cases h
  | some s =>
    rw [hf] at h
    obtain ⟨ids, h1, _⟩ := readEntries_ok h
    refine ⟨s, rfl, fun e he => ?_⟩
    obtain ⟨id, _, hid⟩ := mapE_mem h1 e he
    exact ⟨id, (idOf_ok_iff e id).1 hid⟩

theorem readTree_found {lib : PyLib} {x : Elem} {n : Novel} (h : readTree lib x = .ok n) :
    (find c!"PROJECT" x.kids).isSome ∧ ∀ t ∈ [c!"LOCATIONS", c!"ITEMS", c!"CHARACTERS", c!"SCENES", c!"CHAPTERS"],
      ∃ s, find t x.kids = some s ∧ ∀ e ∈ s.kids, ∃ id, textOf c!"ID" e.kids = some id := by
  unfold readTree readRoot at h
  cases hpf : find c!"PROJECT" x.kids with
  | none => rw [hpf] at h; cases h
  | some pe =>
  rw [hpf] at h
  simp only at h
  obtain ⟨_, _, h⟩ := bind_ok h
  obtain ⟨l, h2, h⟩ := bind_ok h
  obtain ⟨i, h3, h⟩ := bind_ok h
  obtain ⟨c, h4, h⟩ := bind_ok h
  obtain ⟨s, h5, h⟩ := bind_ok h
  obtain ⟨k, h6, h⟩ := bind_ok h
  refine ⟨?_, ?_⟩
  · rfl
  · intro t ht
    simp only [List.mem_cons, List.not_mem_nil, or_false] at ht
    rcases ht with rfl | rfl | rfl | rfl | rfl
    · exact readSection_found h2
    · exact readSection_found h3
    · exact readSection_found h4
    · exact readSection_found h5
    · exact readSection_found h6

theorem fieldSceneType_le (fs : List Elem) : fieldSceneType fs ≤ 3 := by
  unfold fieldSceneType
  suffices h : ∀ acc, acc ≤ 3 → fs.foldl (fun acc f =>
      match find c!"Field_SceneType" f.kids with
      | some e => if e.text = some c!"1" then 1 else if e.text = some c!"2" then 2 else acc
      | none => acc) acc ≤ 3 from h 0 (by omega)
  induction fs with
  | nil => intro acc h; exact h
  | cons f r ih =>
    intro acc h
    rw [List.foldl_cons]
    refine ih _ ?_
    split
    · split
      · omega
      · split <;> omega
    · exact h

theorem readChType_max (ks : List Elem) : readChapterType ks ≤ 3 := by
  unfold readChapterType
  split
  · split
    · omega
    · split
      · omega
      · split <;> omega
  · split
    · split
      · omega
      · split <;> omega
    · omega

theorem zfill2_colon {t : Str} (h : ':' ∉ t) : ':' ∉ zfill2 t := by
  unfold zfill2
  split
  · decide
  · rename_i c
    have hc : c ≠ ':' := fun e => h (by simp [e])
    split
    · simp [Ne.symm hc]
    · simp [Ne.symm hc]
  · exact h

theorem readHM_colon {t : Str} {ks : List Elem} {v : Option Str} (h : readHM t ks = .ok v) (hc : ':' ∉ (textOf t ks).getD []) : ':' ∉ v.getD c!"00" := by
  unfold readHM at h
  unfold textOf at hc
  split at h
  · cases h; decide
  · rename_i e he
    rw [he] at hc
    split at h
    · cases h
    · rename_i s hs
      cases h
      refine zfill2_colon ?_
      simpa [hs] using hc

theorem readScene_type {lib : PyLib} {a b c : List Str} {ks : List Elem} {x : Scene} (h : readScene lib a b c ks = .ok x) :
    ∃ t, x.scType = some t ∧ t ≤ 3 := by
  have hle : readSceneType ks ≤ 3 := by
    unfold readSceneType
    split
    · omega
    · exact fieldSceneType_le _
  exact ⟨_, (readScene_read h).scType, hle⟩

/-- What is read as the start of a scene can be saved, unless there are colons in the hours or minutes. -/
theorem readStart_savable {lib : PyLib} {ks : List Elem} {d t y : Option Str} (h : readStart lib ks = .ok (d, t, y))
    (hc : ∀ u ∈ [c!"Hour", c!"Minute"], ':' ∉ (textOf u ks).getD []) : SavableStart d t y := by
  unfold readStart at h
  split at h
  · split at h
    · cases h; exact Or.inl ⟨rfl, rfl⟩
    · split at h <;> (cases h; exact Or.inl ⟨rfl, rfl⟩)
  · split at h
    · cases h
    · split at h
      · cases h
      · rename_i hour hh
        split at h
        · cases h
        · rename_i minute hm
          have h1 := readHM_colon hh (hc _ (by simp))
          have h2 := readHM_colon hm (hc _ (by simp))
          split at h
          · cases h
            exact Or.inr (Or.inr (Or.inr ⟨_, rfl, _, _, c!"00", rfl, h1, h2, by decide⟩))
          · cases h
            exact Or.inr (Or.inl rfl)

/-- A project that was read and has only starts that can be saved is savable, and so is its tree. -/
theorem read_savable (lib : PyLib) (x : Elem) (n : Novel) (ht : ProjectTree x.kids) (hp : ProjectNode x.kids) (h0 : readTree lib x = .ok n) (hn : GoodIds n)
    (hc : ∀ p ∈ n.scenes, SavableStart p.2.date p.2.time p.2.day) :
    Savable n ∧ SavableTree x.kids := by
  obtain ⟨f1, f2⟩ := readTree_found h0
  have f := readFrom h0
  refine ⟨?_, ?_, ?_, hp.vars⟩
  · have has : ∀ {α : Type} {d : Dict α} {l : List Str}, d.keys = l → ∀ id ∈ l, (d.get? id).isSome := by
      intro α d l hk id hid
      rw [← hk] at hid
      exact Option.isSome_iff_exists.2 ((Dict.mem_keys_iff d id).1 hid)
    obtain ⟨sec, c1, c2, c3, c4⟩ := f.chapters
    have chTy : ∀ id c, n.chapters.get? id = some c → c.chType.getD 0 ≤ 3 := by
      intro id c hcg
      obtain ⟨e, _, _, rfl⟩ := c4 id c hcg
      exact readChType_max e.kids
    refine ⟨hn.sound.scKeys, ?_, has (f.locations.1 hn.locations.1), has (f.items.1 hn.items.1), has (f.characters.1 hn.characters.1), has (f.notes.1 hn.notes.1), ?_⟩
    · intro id hid
      obtain ⟨c, hcg⟩ := Option.isSome_iff_exists.1 (has (c3 hn.sound.chNodup) id hid)
      exact ⟨c, hcg, chTy id c hcg⟩
    · intro p hpm
      obtain ⟨sec, s1, s2⟩ := f.scenes
      obtain ⟨e, e1, e2, y, e3, e4⟩ := s2 p.1 p.2 (get?_of_mem_nodup hn.sound.scKeys hpm)
      have hst := hc p hpm
      have hty : y.scType.getD 0 ≤ 3 := by
        obtain ⟨z, hz, hrest⟩ := readScene_type e3
        rw [hz]; exact hrest
      refine ⟨?_, hst⟩
      rw [e4]
      cases hg : governing n p.1 with
      | none => exact hty
      | some ch =>
        show (typeOf n ch).getD 0 ≤ 3
        unfold typeOf
        cases hcg : n.chapters.get? ch with
        | none => decide
        | some c => exact chTy ch c hcg
  · intro t htm
    simp only [List.mem_cons, List.not_mem_nil, or_false] at htm
    rcases htm with rfl | rfl | rfl | rfl | rfl | rfl
    · exact f1
    · obtain ⟨s, hs, _⟩ := f2 c!"LOCATIONS" (by simp)
      exact Option.isSome_iff_exists.2 ⟨s, hs⟩
    · obtain ⟨s, hs, _⟩ := f2 c!"ITEMS" (by simp)
      exact Option.isSome_iff_exists.2 ⟨s, hs⟩
    · obtain ⟨s, hs, _⟩ := f2 c!"CHARACTERS" (by simp)
      exact Option.isSome_iff_exists.2 ⟨s, hs⟩
    · obtain ⟨s, hs, _⟩ := f2 c!"SCENES" (by simp)
      exact Option.isSome_iff_exists.2 ⟨s, hs⟩
    · obtain ⟨s, hs, _⟩ := f2 c!"CHAPTERS" (by simp)
      exact Option.isSome_iff_exists.2 ⟨s, hs⟩
  · intro p hpm s hs e he
    simp only [List.mem_cons, List.not_mem_nil, or_false] at hpm
    rcases hpm with rfl | rfl
    · obtain ⟨s', h1, h2⟩ := f2 c!"SCENES" (by simp)
      have hs' := h1.symm.trans hs; cases hs'
      exact ⟨ht.entries (c!"SCENES", c!"SCENE") (by simp [sectionTags]) s h1 e he, h2 e he⟩
    · obtain ⟨s', h1, h2⟩ := f2 c!"CHAPTERS" (by simp)
      have hs' := h1.symm.trans hs; cases hs'
      exact ⟨ht.entries (c!"CHAPTERS", c!"CHAPTER") (by simp [sectionTags]) s h1 e he, h2 e he⟩

/-- A project that was read and has only starts that can be saved can be saved. -/
theorem read_writable (lib : PyLib) (sl sc : Str) (x : Elem) (n : Novel) (ht : ProjectTree x.kids) (hp : ProjectNode x.kids) (h0 : readTree lib x = .ok n) (hn : GoodIds n)
    (hl : (savedLanguages n).Nodup)
    (hc : ∀ p ∈ n.scenes, SavableStart p.2.date p.2.time p.2.day) :
    ∃ out, writeTree sl sc n (some x) = .ok out := by
  obtain ⟨h1, h2⟩ := read_savable lib x n ht hp h0 hn hc
  exact C51_writable sl sc n (some x) h1 hl h2

/-- **C51**: a project that has been read from a regular file can be saved again, if its IDs are distinct and there are no colons in the hours and minutes. -/
theorem C51_read_partial (lib : PyLib) (sl sc : Str) (x : Elem) (n : Novel) (ht : ProjectTree x.kids) (hp : ProjectNode x.kids) (h0 : readTree lib x = .ok n) (hn : GoodIds n)
    (hl : (savedLanguages n).Nodup)
    (hc : ∀ s, find c!"SCENES" x.kids = some s → ∀ e ∈ s.kids, ∀ u ∈ [c!"Hour", c!"Minute"], ':' ∉ (textOf u e.kids).getD []) :
    ∃ out, writeTree sl sc n (some x) = .ok out := by
  refine read_writable lib sl sc x n ht hp h0 hn hl ?_
  intro p hpm
  obtain ⟨sec, s1, s2⟩ := (readFrom h0).scenes
  obtain ⟨e, e1, e2, y, e3, e4⟩ := s2 p.1 p.2 (get?_of_mem_nodup hn.sound.scKeys hpm)
  have hst := readStart_savable (readScene_read e3).start (hc sec s1 e e1)
  rw [e4]
  cases hg : governing n p.1 with
  | none => exact hst
  | some ch => exact hst

/-- A settled project can be saved. -/
theorem C51_settled_partial (lib : PyLib) (sl sc : Str) (x : Elem) (n : Novel) (ht : RegularTree x.kids) (h0 : readTree lib x = .ok n) (hset : SettledNovel lib n) :
    ∃ out, writeTree sl sc n (some x) = .ok out := by
  refine read_writable lib sl sc x n ht.tree ht.node h0 hset.ids (settled_languages hset) ?_
  intro p hpm
  rcases (hset.scenes p.1 p.2 (get?_of_mem_nodup hset.ids.sound.scKeys hpm)).start with ⟨d, t, h1, h2, _⟩ | ⟨_, h2, _⟩ | ⟨_, y, _, _, _, _, h2 | ⟨t, hh, mm, h2, h3⟩⟩
  · exact Or.inl ⟨by rw [h1]; rfl, by rw [h2]; rfl⟩
  · exact Or.inr (Or.inl h2)
  · exact Or.inr (Or.inl h2)
  · obtain ⟨g1, _, _, g2, g3, g4, _⟩ := h3
    exact Or.inr (Or.inr (Or.inr ⟨t, h2, hh, mm, _, g1, g2, g3, g4⟩))

/-! ### Examples -/

/-- The example project has been read and can be saved, whatever the locale of the system is. -/
example (sl sc : Str) : ∃ out, writeTree sl sc stPrj (some stTree) = .ok out := by
  refine C51_read_partial exLib sl sc stTree stPrj st_regular.tree st_regular.node st_read st_settled.ids (settled_languages st_settled) ?_
  have h : (match find c!"SCENES" stTree.kids with
      | none => true
      | some s => s.kids.all (fun e => [c!"Hour", c!"Minute"].all (fun u => decide (':' ∉ (textOf u e.kids).getD [])))) = true := by decide +kernel
  intro s hs e he u hu
  rw [hs] at h
  exact of_decide_eq_true (List.all_eq_true.1 (List.all_eq_true.1 h e he) u hu)

/-- A new project can be saved as well. -/
theorem savableTree_newRoot : SavableTree newRoot.kids := by
  refine ⟨by decide, ?_, regular_newRoot.node.vars⟩
  intro p hp s hs e he
  simp only [List.mem_cons, List.not_mem_nil, or_false] at hp
  rcases hp with rfl | rfl
  · have : find c!"SCENES" newRoot.kids = some (node c!"SCENES" none none []) := rfl
    simp only at hs
    rw [this] at hs; cases hs; cases he
  · have : find c!"CHAPTERS" newRoot.kids = some (node c!"CHAPTERS" none none []) := rfl
    simp only at hs
    rw [this] at hs; cases hs; cases he

/-- A scene element with a colon in the hours. -/
def badHour : List Elem := [leaf c!"ID" (some c!"1"), leaf c!"Status" (some c!"1"), leaf c!"Hour" (some c!"1:5")]

/-- **C51 is false in general**: a scene with a colon in the hours can be read, but not saved any more: the save raises `ValueError`. -/
theorem C51_colon_false (lib : PyLib) (a b c : List Str) (hi : lib.int c!"1" = some 1) :
    ∃ s, readScene lib a b c badHour = .ok s ∧ s.time = some c!"1:5:00:00" ∧ ∀ ks, buildScene s ks = .error .valueError := by
  have h1 : readStatus lib badHour = .ok (some 1) := by
    unfold readStatus
    simp only [show find c!"Status" badHour = some (leaf c!"Status" (some c!"1")) from rfl, show (leaf c!"Status" (some c!"1")).text = some c!"1" from rfl, hi]
  have h2 : readStart lib badHour = .ok (none, some c!"1:5:00:00", none) := rfl
  have h3 : ∃ s, readScene lib a b c badHour = .ok s ∧ s.time = some c!"1:5:00:00" ∧ s.date = none ∧ s.day = none ∧ s.scType = some 0 := by
    unfold readScene
    rw [h1, h2]
    exact ⟨_, rfl, rfl, rfl, rfl, rfl⟩
  obtain ⟨s, h3, h4, h5, h6, h7⟩ := h3
  refine ⟨s, h3, h4, ?_⟩
  intro ks
  unfold buildScene
  simp only [h4, h5, h6, h7]
  rfl

end Verif
