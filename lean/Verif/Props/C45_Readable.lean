/-
C45: a saved project can be opened again; C13-C17 for whole projects.
-/
import Verif.Props.C23_World

namespace Verif
open Xml Elem Spec

namespace Spec

/-- The scene `s`, saved over the scene element `old`, can be read again: status, day, hour and minute in
the old element have a text, and the new start is usable. -/
structure ReadableScene (lib : PyLib) (s : Scene) (old : List Elem) : Prop where
  texts : ∀ t ∈ [c!"Status", c!"Day", c!"Hour", c!"Minute"], ∀ e ∈ sel t old,
    ∃ v, e.text = some v ∧ v ≠ [] ∧ PlainStr v
  status : ∀ e ∈ sel c!"Status" old, ∀ v, e.text = some v → (lib.int v).isSome
  start : (s.date ≠ none ∧ s.time ≠ none) ∨
    ((∀ y, s.day = some y → PlainStr y ∧ (y = [] → s.time = none ∨ s.time = some [])) ∧
     (∀ t, s.time = some t → t = [] ∨ ∃ h m x, HMS t h m x))

end Spec

/-- Elements without children and with a plain text. -/
def GoodTexts (l : List Elem) : Prop := ∀ e ∈ l, e.kids = [] ∧ ∃ v, e.text = some v ∧ v ≠ [] ∧ PlainStr v

theorem goodTexts_alwaysSel {t : Str} {v : Option Str} {l : List Elem} (hl : GoodTexts l)
    (hv : ∀ s, v = some s → s ≠ [] ∧ PlainStr s) : GoodTexts (alwaysSel t v l) := by
  cases v with
  | none => exact hl
  | some s =>
    cases l with
    | nil =>
      intro e he
      simp only [alwaysSel, List.mem_cons, List.not_mem_nil, or_false] at he
      subst he
      exact ⟨rfl, s, rfl, hv s rfl⟩
    | cons a r =>
      intro e he
      simp only [alwaysSel, List.mem_cons] at he
      rcases he with rfl | he
      · refine ⟨?_, s, text_setText _ _, hv s rfl⟩
        have := (hl a (by simp)).1
        cases a; exact this
      · exact hl e (by simp [he])

theorem goodTexts_find {out r : List Elem} {t : Str} (hr : ReloadedL out r) (hg : GoodTexts (sel t out)) :
    find t r = none ∨ ∃ e s, find t r = some e ∧ e.text = some s ∧ textOf t out = some s := by
  cases ho : find t out with
  | none => exact Or.inl (hr.find_none ho)
  | some e =>
    right
    obtain ⟨e', h1, h2⟩ := hr.find ho
    have hmem : e ∈ sel t out := by
      obtain ⟨m1, m2⟩ := find_mem ho
      unfold sel; simp [m1, m2]
    obtain ⟨hk, v, hv1, hv2, hv3⟩ := hg e hmem
    have hc := h2.text hk
    have := carried_literal hc (Or.inr (by intro s hs; rw [hv1] at hs; cases hs; exact hv3))
    rw [hv1, readText_ne hv2] at this
    refine ⟨e', v, h1, this, ?_⟩
    unfold textOf; rw [ho]; exact hv1

theorem readHM_good {out r : List Elem} {t : Str} (hr : ReloadedL out r) (hg : GoodTexts (sel t out)) :
    ∃ o, readHM t r = .ok o := by
  unfold readHM
  rcases goodTexts_find hr hg with h | ⟨e, s, h1, h2, _⟩
  · rw [h]; exact ⟨_, rfl⟩
  · rw [h1]; simp only; rw [h2]; exact ⟨_, rfl⟩

theorem readDay_good {lib : PyLib} {out r : List Elem} (hr : ReloadedL out r)
    (hg : GoodTexts (sel c!"Day" out)) : ∃ o, readDay lib r = .ok o := by
  unfold readDay
  rcases goodTexts_find hr hg with h | ⟨e, s, h1, h2, _⟩
  · rw [h]; exact ⟨_, rfl⟩
  · rw [h1]; simp only; rw [h2]; exact ⟨_, rfl⟩

theorem readStart_good {lib : PyLib} {out r : List Elem} (hr : ReloadedL out r)
    (h1 : GoodTexts (sel c!"Day" out)) (h2 : GoodTexts (sel c!"Hour" out))
    (h3 : GoodTexts (sel c!"Minute" out)) : ∃ st, readStart lib r = .ok st := by
  obtain ⟨o1, e1⟩ := readDay_good (lib := lib) hr h1
  obtain ⟨o2, e2⟩ := readHM_good hr h2
  obtain ⟨o3, e3⟩ := readHM_good hr h3
  unfold readStart
  cases hf : find c!"SpecificDateTime" r with
  | some e =>
    simp only
    split
    · exact ⟨_, rfl⟩
    · split <;> exact ⟨_, rfl⟩
  | none =>
    simp only
    rw [e1]; simp only; rw [e2]; simp only; rw [e3]; simp only
    split <;> exact ⟨_, rfl⟩

theorem readStart_specific_ok {lib : PyLib} {r : List Elem} (h : hasTag c!"SpecificDateTime" r = true) :
    ∃ st, readStart lib r = .ok st := by
  unfold hasTag at h
  unfold readStart
  cases hf : find c!"SpecificDateTime" r with
  | some e =>
    simp only
    split
    · exact ⟨_, rfl⟩
    · split <;> exact ⟨_, rfl⟩
  | none => rw [hf] at h; cases h

theorem hasTag_of_sel {t : Str} {a b : List Elem} (h : sel t a = sel t b) : hasTag t a = hasTag t b := by
  rw [hasTag_eq, hasTag_eq, h]

/-- The start of a readable scene can be read. -/
theorem start_readable {lib : PyLib} {s : Scene} {ks out r : List Elem} (hk : SceneElement ks)
    (hs : sceneOut s ks = .ok out) (hr : ReloadedL out r) (hrd : ReadableScene lib s ks) :
    ∃ st, readStart lib r = .ok st := by
  obtain ⟨a, mid, hp, hsel⟩ := scene_dates hs
  have hold : ∀ t ∈ [c!"Day", c!"Hour", c!"Minute"], GoodTexts (sel t ks) := by
    intro t ht e he
    have htd : t ∈ dateTags := by
      simp only [List.mem_cons, List.not_mem_nil, or_false] at ht
      rcases ht with rfl | rfl | rfl <;> decide
    exact ⟨(dates_plain hk htd).2 e he, hrd.texts t (by simp only [List.mem_cons] at ht ⊢; exact Or.inr ht) e he⟩
  have hremoved : mid = removeDateTime a → ∃ st, readStart lib r = .ok st := by
    intro hmid
    refine ⟨_, readStart_none ?_⟩
    intro t ht
    obtain ⟨ha, ho⟩ := hsel t ht
    refine reloaded_sel_nil hr ?_
    rw [ho, hmid]
    exact sel_removeDateTime ht (by rw [ha]; exact (dates_plain hk ht).1)
  obtain ⟨a0, o0⟩ := hsel c!"SpecificDateTime" (by decide)
  obtain ⟨a1, o1⟩ := hsel c!"Day" (by decide)
  obtain ⟨a2, o2⟩ := hsel c!"Hour" (by decide)
  obtain ⟨a3, o3⟩ := hsel c!"Minute" (by decide)
  have hrel : (∀ y, s.day = some y → PlainStr y ∧ (y = [] → s.time = none ∨ s.time = some [])) →
      (∀ t, s.time = some t → t = [] ∨ ∃ h m x, HMS t h m x) →
      (if s.day = none ∧ s.time = none then Except.ok a
        else if falsy s.day ∧ falsy s.time then .ok (removeDateTime a)
        else match s.time with
          | none => .ok (putAlways c!"Day" s.day
              (removeFirst c!"SpecificDateMode" (removeFirst c!"SpecificDateTime" a)))
          | some t =>
            match Str.split t c!":" with
            | [hours, minutes, _] =>
              .ok (putAlways c!"Minute" (some minutes) (putAlways c!"Hour" (some hours) (putAlways c!"Day" s.day
                (removeFirst c!"SpecificDateMode" (removeFirst c!"SpecificDateTime" a)))))
            | _ => .error Exc.valueError) = .ok mid → ∃ st, readStart lib r = .ok st := by
    intro hday htime hp
    split at hp
    · cases hp
      exact readStart_good hr (by rw [o1, a1]; exact hold _ (by simp)) (by rw [o2, a2]; exact hold _ (by simp))
        (by rw [o3, a3]; exact hold _ (by simp))
    · split at hp
      · cases hp; exact hremoved rfl
      · rename_i hnf
        have hdn : ∀ y, s.day = some y → y ≠ [] ∧ PlainStr y := by
          intro y hy
          refine ⟨?_, (hday y hy).1⟩
          intro h0
          refine hnf ⟨by rw [hy, h0]; rfl, ?_⟩
          rcases (hday y hy).2 h0 with h | h <;> (rw [h]; rfl)
        have gday : GoodTexts (alwaysSel c!"Day" s.day (sel c!"Day" a)) :=
          goodTexts_alwaysSel (by rw [a1]; exact hold _ (by simp)) hdn
        split at hp
        · cases hp
          refine readStart_good hr ?_ ?_ ?_
          · rw [o1]; simp (disch := decide) only [sel_putAlways, sel_removeFirst_ne]; exact gday
          · rw [o2]; simp (disch := decide) only [sel_putAlways_ne, sel_removeFirst_ne]; rw [a2]; exact hold _ (by simp)
          · rw [o3]; simp (disch := decide) only [sel_putAlways_ne, sel_removeFirst_ne]; rw [a3]; exact hold _ (by simp)
        · rename_i t htt
          rcases htime t htt with h0 | ⟨h, m, x, hhms⟩
          · subst h0
            have h0 : Str.split [] c!":" = [[]] := by decide
            rw [h0] at hp
            cases hp
          · rw [split_hms hhms] at hp
            simp only [Except.ok.injEq] at hp
            subst hp
            obtain ⟨_, l1, l2, _, _, _, p1, p2⟩ := hhms
            have n1 : h ≠ [] := by intro h; subst h; simp at l1
            have n2 : m ≠ [] := by intro h; subst h; simp at l2
            refine readStart_good hr ?_ ?_ ?_
            · rw [o1]; simp (disch := decide) only [sel_putAlways_ne, sel_putAlways, sel_removeFirst_ne]; exact gday
            · rw [o2]; simp (disch := decide) only [sel_putAlways_ne, sel_putAlways, sel_removeFirst_ne]
              exact goodTexts_alwaysSel (by rw [a2]; exact hold _ (by simp)) (by intro s hs; cases hs; exact ⟨n1, p1⟩)
            · rw [o3]; simp (disch := decide) only [sel_putAlways_ne, sel_putAlways, sel_removeFirst_ne]
              exact goodTexts_alwaysSel (by rw [a3]; exact hold _ (by simp)) (by intro s hs; cases hs; exact ⟨n2, p2⟩)
  unfold putStart at hp
  cases hd : s.date with
  | none =>
    rw [hd] at hp
    rcases hrd.start with h | ⟨h1, h2⟩
    · exact absurd hd h.1
    · refine hrel h1 h2 ?_
      rw [← hp]
      cases s.time <;> rfl
  | some d =>
    cases ht : s.time with
    | none =>
      rw [hd, ht] at hp
      rcases hrd.start with h | ⟨h1, h2⟩
      · exact absurd ht h.2
      · refine hrel h1 h2 ?_
        rw [← hp, ht]
    | some t =>
      rw [hd, ht] at hp
      simp only at hp
      split at hp
      · cases hp; exact hremoved rfl
      · split at hp
        · rename_i hh
          cases hp
          refine readStart_specific_ok (lib := lib) ?_
          rw [hr.hasTag, hasTag_of_sel o0, hasTag_eq, sel_modFirst_self _ (by simp)]
          rw [hasTag_eq] at hh
          cases hq : sel c!"SpecificDateTime" a with
          | nil => rw [hq] at hh; simp at hh
          | cons q qs => rfl
        · cases hp
          refine readStart_specific_ok (lib := lib) ?_
          rw [hr.hasTag, hasTag_of_sel o0, hasTag_eq]
          simp (disch := decide) only [sel_removeFirst_ne]
          simp [sel, leaf]

theorem scene_readable {lib : PyLib} {chrs locs itms : List Str} {s : Scene} {ks out r : List Elem}
    (hk : SceneElement ks) (hs : sceneOut s ks = .ok out) (hr : ReloadedL out r)
    (hrd : ReadableScene lib s ks) : ∃ x, readScene lib chrs locs itms r = .ok x := by
  obtain ⟨⟨d, t, y⟩, hst⟩ := start_readable hk hs hr hrd
  have hg : GoodTexts (sel c!"Status" out) := by
    rw [scene_Status hs]
    refine goodTexts_alwaysSel ?_ ?_
    · intro e he
      exact ⟨(hk.plain c!"Status" (by decide)).2 e he, hrd.texts c!"Status" (by simp) e he⟩
    · intro v hv
      cases hi : s.status with
      | none => rw [hi] at hv; cases hv
      | some i => rw [hi] at hv; cases hv; exact ⟨ofInt_ne_nil i, plainStr_ofInt i⟩
  have hstat : ∃ o, readStatus lib r = .ok o := by
    unfold readStatus
    rcases goodTexts_find hr hg with h | ⟨e, v, h1, h2, h3⟩
    · rw [h]; exact ⟨_, rfl⟩
    · rw [h1]; simp only; rw [h2]; simp only
      have hi : (lib.int v).isSome := by
        rw [textOf_eq, scene_Status hs] at h3
        cases hi : s.status with
        | some i =>
          rw [hi] at h3
          simp only [Option.map_some, alwaysSel] at h3
          have : v = Str.ofInt i := by
            revert h3
            cases sel c!"Status" ks with
            | nil => intro h3; simpa [leaf] using h3.symm
            | cons q qs => intro h3; simpa using h3.symm
          rw [this, lib.int_str]; rfl
        | none =>
          rw [hi] at h3
          simp only [Option.map_none, alwaysSel] at h3
          cases hq : sel c!"Status" ks with
          | nil => rw [hq] at h3; cases h3
          | cons q qs =>
            rw [hq] at h3
            exact hrd.status q (by rw [hq]; simp) v h3
      cases hv : lib.int v with
      | none => rw [hv] at hi; cases hi
      | some i => exact ⟨_, rfl⟩
  obtain ⟨o, ho⟩ := hstat
  unfold readScene
  rw [ho, hst]
  exact ⟨_, rfl⟩


/-- A saved project can be read again if each of its saved scenes can. -/
theorem readable_of_scenes (lib : PyLib) (sl sc : Str) (n : Novel) (tree : Option Elem) (out x : Elem)
    (ht : ProjectTree (tree.getD newRoot).kids) (hn : GoodIds n)
    (hw : writeTree sl sc n tree = .ok out) (hr : Reloaded out x)
    (hs : ∀ id s old o r, n.scenes.get? id = some s → OldEntry (tree.getD newRoot).kids c!"SCENES" id old → SceneElement old →
      sceneOut (syncScene s) old = .ok o → ReloadedL o r → ∀ a b c, ∃ y, readScene lib a b c r = .ok y) :
    ∃ m, readTree lib x = .ok m := by
  unfold writeTree at hw
  simp only at hw
  generalize tree.getD newRoot = root at ht hw hs ⊢
  cases hb : buildRoot sl sc (prepareNovel n) root.kids with
  | error e => rw [hb] at hw; cases hw
  | ok rk =>
  rw [hb] at hw
  simp only [Except.ok.injEq] at hw
  subst hw
  have hr' := (reloaded_indent 0 _ _ hr).kids
  rw [Elem.kids_mapKids'] at hr'
  obtain ⟨⟨pe, _, bP⟩, bL, bI, bC, _, _, bS, bH⟩ := buildRoot_ok hb
  obtain ⟨p1, p2, p3, p4, p5, p6, p7, p8, p9, p10⟩ := prepareNovel_fields n
  rw [p3, p4] at bL
  rw [p5, p6] at bI
  rw [p7, p8] at bC
  obtain ⟨pe', hp, _⟩ := hr'.find bP
  have tot : ∀ {α β : Type} {sec tag : Str} {d : Dict α} {f : α → List Elem → List Elem} {ids : List Str}
      (g : List Elem → β), (∀ a ks, sel c!"ID" (f a ks) = sel c!"ID" ks) → (∀ id ∈ ids, GoodId id) →
      (∀ s, find sec root.kids = some s → ∀ e ∈ s.kids, e.tag = tag) →
      (∃ e ks, find sec root.kids = some e ∧ rebuildSection tag d f ids e.kids = .ok ks ∧
        find sec rk = some (e.mapKids (fun _ => ks))) → ∀ d0 : Dict β,
      ∃ res, readSection sec (fun ks => .ok (g ks)) d0 x.kids = .ok res := by
    intro α β sec tag d f ids g hf hids htag hb d0
    obtain ⟨e, ks, h1, h2, h3⟩ := hb
    obtain ⟨e', h5, h6⟩ := hr'.find h3
    have h7 := h6.kids
    rw [Elem.kids_mapKids'] at h7
    obtain ⟨_, _, g3⟩ := reload_section (key := id) (rebuildSection_ok h2 (htag e h1))
      (fun id _ e he => newEntry_hasId hf he) (fun id hid => hids id hid) h7
    unfold readSection
    rw [h5]
    refine readEntries_total _ ?_
    intro y hy
    obtain ⟨b, _, _, _, _, hb⟩ := g3 y hy
    exact ⟨⟨_, hb⟩, _, rfl⟩
  obtain ⟨l, hl⟩ := tot readWorld sel_ID_buildWorld hn.locations.2
    (fun s hs => ht.entries (c!"LOCATIONS", c!"LOCATION") (by simp [sectionTags]) s hs) bL []
  obtain ⟨i, hi⟩ := tot readWorld sel_ID_buildWorld hn.items.2
    (fun s hs => ht.entries (c!"ITEMS", c!"ITEM") (by simp [sectionTags]) s hs) bI []
  obtain ⟨c, hc⟩ := tot readCharacter sel_ID_buildCharacter hn.characters.2
    (fun s hs => ht.entries (c!"CHARACTERS", c!"CHARACTER") (by simp [sectionTags]) s hs) bC []
  have hscene : ∃ res, readSection c!"SCENES" (readScene lib c.1 l.1 i.1) [] x.kids = .ok res := by
    obtain ⟨e, k1, k2, h1, h2, h3, h4⟩ := bS
    have hnd : (prepareNovel n).scenes.keys.Nodup := by rw [keys_prepareNovel]; exact hn.sound.scKeys
    obtain ⟨prev, h5, h6⟩ := scenesSection_ok hnd
      (ht.entries (c!"SCENES", c!"SCENE") (by simp [sectionTags]) e h1) h2 h3
    obtain ⟨e', h7, h8⟩ := hr'.find h4
    have h9 := h8.kids
    rw [Elem.kids_mapKids'] at h9
    obtain ⟨_, _, g3⟩ := reload_section (key := Prod.fst) h6
      (fun p _ e he => sceneElem_hasId h5 (ht.ids c!"SCENES" (by simp) _ h1) he)
      (fun p hp => hn.scenes p.1 (by rw [← keys_prepareNovel]; exact List.mem_map.2 ⟨p, hp, rfl⟩)) h9
    unfold readSection
    rw [h7]
    refine readEntries_total _ ?_
    intro y hy
    obtain ⟨⟨id, s⟩, hb, z, hz1, hz2, hz3⟩ := g3 y hy
    refine ⟨⟨_, hz3⟩, ?_⟩
    unfold sceneElem at hz1
    cases hd : sceneOut s (oldElem c!"SCENE" prev id).kids with
    | error w => rw [hd] at hz1; cases hz1
    | ok k =>
      rw [hd] at hz1; cases hz1
      have hzk := hz2.kids
      rw [Elem.kids_mapKids'] at hzk
      have hget := get?_of_mem_nodup hnd hb
      rw [get?_prepareNovel] at hget
      cases hg : n.scenes.get? id with
      | none => rw [hg] at hget; cases hget
      | some s0 =>
        rw [hg] at hget
        simp only [Option.map_some, Option.some.injEq] at hget
        have hold := oldElem_oldEntry (tag := c!"SCENE") h1 h5 id
        have hse : SceneElement (oldElem c!"SCENE" prev id).kids := by
          rcases oldElem_cases (tag := c!"SCENE") h5 id with h | h
          · rw [h]; exact newScene id
          · exact ht.scenes e h1 _ h.1
        subst hget
        exact hs id s0 _ _ _ hg hold hse hd hzk _ _ _
  obtain ⟨s, hsc⟩ := hscene
  have hchap : ∃ res, readSection c!"CHAPTERS" (fun ks => .ok (readChapter s.2.keys ks)) [] x.kids = .ok res := by
    obtain ⟨e, k2, h1, h2, h4⟩ := bH
    obtain ⟨prev, h5, h6⟩ := chaptersSection_ok
      (ht.entries (c!"CHAPTERS", c!"CHAPTER") (by simp [sectionTags]) e h1) h2
    obtain ⟨e', h7, h8⟩ := hr'.find h4
    have h9 := h8.kids
    rw [Elem.kids_mapKids'] at h9
    obtain ⟨_, _, g3⟩ := reload_section (key := id) h6
      (fun p _ e he => chapterElem_hasId h5 (ht.ids c!"CHAPTERS" (by simp) _ h1) he)
      (fun p hp => hn.chapters p (by rw [← p2]; exact hp)) h9
    unfold readSection
    rw [h7]
    refine readEntries_total _ ?_
    intro y hy
    obtain ⟨b, _, _, _, _, hb⟩ := g3 y hy
    exact ⟨⟨_, hb⟩, _, rfl⟩
  obtain ⟨h, hch⟩ := hchap
  have hsec := chapters_section (n := prepareNovel n) (by rw [p2]; exact hn.sound.chNodup)
    (by rw [p2]; exact hn.chapters)
    (fun s hs => ht.entries (c!"CHAPTERS", c!"CHAPTER") (by simp [sectionTags]) s hs)
    (ht.ids c!"CHAPTERS" (by simp)) bH hr' hch
  unfold readTree readRoot
  simp only [bind, Except.bind]
  rw [hp]; simp only
  have q1 : (readProject lib {} pe'.kids).locations = [] := rfl
  have q2 : (readProject lib {} pe'.kids).items = [] := rfl
  have q3 : (readProject lib {} pe'.kids).characters = [] := rfl
  have q4 : (readProject lib {} pe'.kids).scenes = [] := rfl
  have q5 : (readProject lib {} pe'.kids).chapters = [] := rfl
  rw [q1, q2, q3, q4, q5]
  rw [hl]; simp only; rw [hi]; simp only; rw [hc]; simp only; rw [hsc]; simp only; rw [hch]; simp only
  rw [C39_success_iff]
  intro ch hch'
  simp only at hch' ⊢
  rw [hsec.1] at hch'
  obtain ⟨c', old, o, ks, _, _, _, _, hget⟩ := hsec.2.2 ch hch'
  refine ⟨_, hget, fun _ => ?_⟩
  intro s' hs'
  unfold readChapter at hs'
  simp only at hs'
  split at hs'
  · cases hs'
  · exact by simpa using (List.mem_filter.1 hs').2

/-- **C45**: a saved project can be read again, if its scenes are readable. -/
theorem C45_readable (lib : PyLib) (sl sc : Str) (n : Novel) (tree : Option Elem) (out x : Elem)
    (ht : ProjectTree (tree.getD newRoot).kids) (hn : GoodIds n)
    (hw : writeTree sl sc n tree = .ok out) (hr : Reloaded out x)
    (hs : ∀ id s old, n.scenes.get? id = some s → OldEntry (tree.getD newRoot).kids c!"SCENES" id old →
      ReadableScene lib s old) :
    ∃ m, readTree lib x = .ok m := by
  refine readable_of_scenes lib sl sc n tree out x ht hn hw hr ?_
  intro id s old o r hg hold hse hd hzk a b c
  have hrd := hs id s old hg hold
  exact scene_readable hse hd hzk ⟨hrd.texts, hrd.status, hrd.start⟩

end Verif
