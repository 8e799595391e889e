/-
C13-C17 for whole projects: what becomes of each scene and each chapter when a project is saved and read
again.
-/
import Verif.Props.C45_Readable

namespace Verif
open Xml Elem Spec

theorem governing_eq {m : Novel} (hn : (narrative m).Nodup) {ch id : Str} (hch : ch ∈ m.srtChapters)
    (hid : id ∈ scenesOf m.chapters ch) : governing m id = if nonNormal m ch then some ch else none := by
  have huniq : ∀ b ∈ m.srtChapters, id ∈ scenesOf m.chapters b → b = ch := by
    intro b hb hib
    unfold narrative at hn
    exact nodup_flatMap_unique _ _ hn id b ch hb hch hib hid
  unfold governing
  by_cases h0 : nonNormal m ch = true
  · rw [if_pos h0]
    have hmem : ch ∈ m.srtChapters.filter (fun b => nonNormal m b && decide (id ∈ scenesOf m.chapters b)) := by
      rw [List.mem_filter]
      exact ⟨hch, by simp [h0, hid]⟩
    cases hl : (m.srtChapters.filter (fun b => nonNormal m b && decide (id ∈ scenesOf m.chapters b))).getLast? with
    | none =>
      rw [List.getLast?_eq_none_iff] at hl
      rw [hl] at hmem; simp at hmem
    | some b =>
      have hb := List.mem_of_getLast? hl
      rw [List.mem_filter] at hb
      simp only [Bool.and_eq_true, decide_eq_true_eq] at hb
      rw [huniq b hb.1 hb.2.2]
  · rw [if_neg h0, List.getLast?_eq_none_iff, List.filter_eq_nil_iff]
    intro b hb hcon
    simp only [Bool.and_eq_true, decide_eq_true_eq] at hcon
    have := huniq b hb hcon.2
    subst this
    exact h0 hcon.1

theorem governing_none {m : Novel} {id : Str} (h : id ∉ narrative m) : governing m id = none := by
  unfold governing
  rw [List.getLast?_eq_none_iff, List.filter_eq_nil_iff]
  intro b hb hcon
  simp only [Bool.and_eq_true, decide_eq_true_eq] at hcon
  exact h (List.mem_flatMap.2 ⟨b, hb, hcon.2⟩)

/-- **C14, whole project**: every chapter is read back with its type, level, flags and texts. -/
theorem C14_project (lib : PyLib) (sl sc : Str) (n m : Novel) (tree : Option Elem) (out x : Elem)
    (ht : ProjectTree (tree.getD newRoot).kids) (hn : GoodIds n)
    (hw : writeTree sl sc n tree = .ok out) (hr : Reloaded out x) (hm : readTree lib x = .ok m) :
    ∀ ch ∈ n.srtChapters, ∃ c old y, n.chapters.get? ch = some c ∧ m.chapters.get? ch = some y ∧
      OldEntry (tree.getD newRoot).kids c!"CHAPTERS" ch old ∧
      y.chType = some (c.chType.getD 0) ∧
      (∀ l, c.chLevel = some l → l ≤ 1 → y.chLevel = some l) ∧
      y.isTrash.getD false = c.isTrash.getD false ∧
      y.suppressChapterBreak.getD false = c.suppressChapterBreak.getD false ∧
      y.suppressChapterTitle = some (c.suppressChapterTitle.getD false ||
        match y.title with
        | some t => Str.startsWith t c!"@"
        | none => false) ∧
      y.title = saved (textOf c!"Title" old) c.title ∧ y.desc = saved (textOf c!"Desc" old) c.desc ∧
      y.srtScenes = c.srtScenes := by
  intro ch hch
  have h := readBack lib sl sc n m tree out x ht hn hw hr hm
  have hst := C22_structure lib sl sc n m tree out x ht hn hw hr hm
  obtain ⟨c, old, o, ks, h1, h2, h3, h4, h5⟩ := h.chapters.2.2 ch hch
  have hk : ChapterElement old := by
    rcases h2 with ⟨s, e, g1, g2, g3, rfl⟩ | ⟨_, rfl⟩
    · exact ht.chapters s g1 e g2
    · exact newChapter ch
  obtain ⟨a1, a2, a3, a4, a5⟩ := C14_chapter c n.scenes.keys old o ks hk h3 h4
  obtain ⟨b1, b2⟩ := C14_texts c n.scenes.keys old o ks hk h3 h4
  refine ⟨c, old, _, h1, h5, h2, a1, a2, a3, a4, a5, b1, b2, ?_⟩
  have := hst.chapterScenes ch hch
  unfold scenesOf at this
  rw [h1, h5] at this
  exact this

/-- **C13, C15, C16, C17, whole project**: what is read back for every scene of a saved project. -/
theorem C15_project (lib : PyLib) (sl sc : Str) (n m : Novel) (tree : Option Elem) (out x : Elem)
    (ht : ProjectTree (tree.getD newRoot).kids) (hn : GoodIds n)
    (hw : writeTree sl sc n tree = .ok out) (hr : Reloaded out x) (hm : readTree lib x = .ok m) :
    ∀ id s, n.scenes.get? id = some s → ∃ old y, m.scenes.get? id = some y ∧
      OldEntry (tree.getD newRoot).kids c!"SCENES" id old ∧
      SceneTexts old s y ∧ (PlainValues old s → ScenePlainTexts old s y) ∧
      y.appendToPrev = some (s.appendToPrev.getD false) ∧
      y.isReactionScene = some (s.isReactionScene.getD false) ∧
      y.isSubPlot = some (s.isSubPlot.getD false) ∧
      (∀ b, s.doNotExport = some b → y.doNotExport = some b) ∧
      (∀ i, s.status = some i → y.status = some i) ∧
      (∀ l, s.tags = some l → GoodTags l → y.tags = readList l) ∧
      ((∀ i ∈ s.characters.getD [], i ∈ n.srtCharacters) → y.characters = readList (s.characters.getD [])) ∧
      ((∀ i ∈ s.locations.getD [], i ∈ n.srtLocations) → y.locations = readList (s.locations.getD [])) ∧
      y.items = none ∧
      (∀ d t, s.date = some d → s.time = some t → PlainStr (d ++ ' ' :: t) → 2 ≤ (d ++ ' ' :: t).count ':' →
        lib.fromIso (d ++ ' ' :: t) = some (d, t) → y.date = some d ∧ y.time = some t ∧ y.day = none) ∧
      (∀ d t hh mm, s.date = none → s.day = some d → d ≠ [] → PlainStr d → (lib.int d).isSome →
        s.time = some t → HMS t hh mm c!"00" → y.date = none ∧ y.time = some t ∧ y.day = some d) ∧
      (∀ ch c, ch ∈ n.srtChapters → n.chapters.get? ch = some c → id ∈ c.srtScenes →
        y.scType = some (if c.chType.getD 0 = 0 then s.scType.getD 0 else c.chType.getD 0)) ∧
      (id ∉ narrative n → y.scType = some (s.scType.getD 0)) := by
  intro id s hs
  have h := readBack lib sl sc n m tree out x ht hn hw hr hm
  have hst := C22_structure lib sl sc n m tree out x ht hn hw hr hm
  obtain ⟨old, o, ks, z, h1, h2, h3, h4, h5⟩ := h.scenes.2 id s hs
  have hk : SceneElement old := by
    rcases h1 with ⟨s, e, g1, g2, g3, rfl⟩ | ⟨_, rfl⟩
    · exact ht.scenes s g1 e g2
    · exact newScene id
  have hnar : narrative m = narrative n := by
    unfold narrative
    rw [hst.chapters.1]
    have : ∀ l : List Str, (∀ c ∈ l, scenesOf m.chapters c = scenesOf n.chapters c) →
        l.flatMap (scenesOf m.chapters) = l.flatMap (scenesOf n.chapters) := by
      intro l hl
      induction l with
      | nil => rfl
      | cons a r ih =>
        rw [List.flatMap_cons, List.flatMap_cons, hl a (by simp), ih (fun c hc => hl c (by simp [hc]))]
    exact this _ hst.chapterScenes
  have tx := C15_texts lib _ _ _ _ z old o ks hk h2 h3 h4
  have px := fun hp => C15_plain_partial lib _ _ _ _ z old o ks hk h2 h3 h4 hp
  obtain ⟨m1, m2, m3, m4, m5, m6, m7⟩ := C15_metadata lib _ _ _ _ z old o ks hk h2 h3 h4
  have it := C16_items_lost lib _ _ _ _ z old o ks hk h2 h3 h4
  obtain ⟨t1, t2, _⟩ := C13_scene_type _ old o ks hk h2 h3
  obtain ⟨w, w1, _, _, _, _, _, _, _, _, _, _, _, _, _, _, _, _, _, _, _, _, _, _, w2, w3, w4, w5, _⟩ := readScene_ok h4
  have zty : z.scType = some (s.scType.getD 0) := by
    rw [w1]
    have : w.scType = some (s.scType.getD 0) := by rw [w2, t1]; rfl
    split
    · exact this
    · exact this
  have zdn : z.doNotExport = w.doNotExport := by rw [w1]; split <;> rfl
  have zst : z.date = w.date ∧ z.time = w.time ∧ z.day = w.day := by
    rw [w1]; split <;> exact ⟨rfl, rfl, rfl⟩
  obtain ⟨y, hy⟩ : ∃ y, m.scenes.get? id = some y := ⟨_, h5⟩
  rw [hy, Option.some.injEq] at h5
  have key : y.title = z.title ∧ y.desc = z.desc ∧ y.notes = z.notes ∧ y.goal = z.goal ∧ y.outcome = z.outcome ∧
      y.image = z.image ∧ y.sceneContent = z.sceneContent ∧ y.wordCount = z.wordCount ∧
      y.letterCount = z.letterCount ∧ y.conflict = z.conflict ∧ y.field1 = z.field1 ∧ y.field2 = z.field2 ∧
      y.field3 = z.field3 ∧ y.field4 = z.field4 ∧ y.lastsDays = z.lastsDays ∧ y.lastsHours = z.lastsHours ∧
      y.lastsMinutes = z.lastsMinutes ∧ y.appendToPrev = z.appendToPrev ∧
      y.isReactionScene = z.isReactionScene ∧ y.isSubPlot = z.isSubPlot ∧ y.doNotExport = z.doNotExport ∧
      y.status = z.status ∧ y.tags = z.tags ∧ y.characters = z.characters ∧ y.locations = z.locations ∧
      y.items = z.items ∧ y.date = z.date ∧ y.time = z.time ∧ y.day = z.day ∧
      y.scType = ((governing m id).map (typeOf m)).getD z.scType := by
    cases hg : governing m id with
    | none => rw [hg] at h5; simp only at h5; subst h5; simp
    | some ch => rw [hg] at h5; simp only at h5; subst h5; simp
  obtain ⟨k1, k2, k3, k4, k5, k6, k7, k8, k9, k10, k11, k12, k13, k14, k15, k16, k17, k18, k19, k20, k21, k22,
    k23, k24, k25, k26, k27, k28, k29, k30⟩ := key
  refine ⟨old, y, hy, h1, ?_, ?_, ?_, ?_, ?_, ?_, ?_, ?_, ?_, ?_, ?_, ?_, ?_, ?_, ?_⟩
  · exact ⟨by rw [k1]; exact tx.title, by rw [k2]; exact tx.desc, by rw [k3]; exact tx.notes,
      by rw [k4]; exact tx.goal, by rw [k5]; exact tx.outcome, by rw [k6]; exact tx.image,
      by rw [k7]; exact tx.content, by rw [k7, k8, k9]; exact tx.counts⟩
  · intro hp
    have px := px ⟨hp.conflict, hp.field1, hp.field2, hp.field3, hp.field4, hp.lastsDays, hp.lastsHours,
      hp.lastsMinutes⟩
    exact ⟨by rw [k10]; exact px.conflict, by rw [k11]; exact px.field1, by rw [k12]; exact px.field2,
      by rw [k13]; exact px.field3, by rw [k14]; exact px.field4, by rw [k15]; exact px.lastsDays,
      by rw [k16]; exact px.lastsHours, by rw [k17]; exact px.lastsMinutes⟩
  · rw [k18]; exact m1
  · rw [k19]; exact m2
  · rw [k20]; exact m3
  · intro b hb
    rw [k21, zdn, w3, t2 b hb]
  · intro i hi
    rw [k22]; exact m4 i hi
  · intro l hl hg
    rw [k23]; exact m5 l hl hg.1 hg.2
  · intro hc
    rw [k24]
    exact m6 (fun i hi => ⟨hc i hi, hn.characters.2 i (hc i hi)⟩)
  · intro hc
    rw [k25]
    exact m7 (fun i hi => ⟨hc i hi, hn.locations.2 i (hc i hi)⟩)
  · rw [k26]; exact it
  · intro d t hd htm hpl hcol hiso
    have := C17_specific lib (syncScene s) old o ks d t hk h2 h3 hd htm hpl hcol hiso
    rw [← w5] at this
    simp only [Except.ok.injEq, Prod.mk.injEq] at this
    rw [k27, k28, k29, zst.1, zst.2.1, zst.2.2]
    exact this
  · intro d t hh mm hd hy hyn hyp hyi htm hhms
    have := C17_relative_minutes_partial lib (syncScene s) old o ks d t hh mm hk h2 h3 hd hy htm hhms hyp hyn hyi
    rw [← w5] at this
    simp only [Except.ok.injEq, Prod.mk.injEq] at this
    rw [k27, k28, k29, zst.1, zst.2.1, zst.2.2, this.1, this.2.1, this.2.2]
    exact ⟨hd, htm, hy⟩
  · intro ch c hch hc hid
    have hids : id ∈ scenesOf m.chapters ch := by
      rw [hst.chapterScenes ch hch]; unfold scenesOf; rw [hc]; exact hid
    have hgov := governing_eq (m := m) (by rw [hnar]; exact hn.sound.scNodup)
      (by rw [hst.chapters.1]; exact hch) hids
    obtain ⟨c', old', y, g1, g2, g3, g4, _⟩ := C14_project lib sl sc n m tree out x ht hn hw hr hm ch hch
    rw [hc] at g1; cases g1
    rw [k30, hgov]
    have hnn : nonNormal m ch = decide (c.chType.getD 0 ≠ 0) := by
      unfold nonNormal
      rw [g2]
      simp only [g4, ne_eq, Option.some.injEq]
    rw [hnn]
    by_cases h0 : c.chType.getD 0 = 0
    · simp only [h0, ne_eq, not_true_eq_false, decide_false, Bool.false_eq_true, if_false, if_true]
      exact zty
    · simp only [h0, ne_eq, not_false_eq_true, decide_true, if_true, if_false]
      unfold typeOf
      simp only [Option.map_some, Option.getD_some, g2, Option.bind_some]
      exact g4
  · intro hid
    rw [k30, governing_none (by rw [hnar]; exact hid)]
    exact zty

end Verif
