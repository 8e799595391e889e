/-
Reading an exported manuscript: all its chapters.
-/
import Verif.Lemmas.ReadManuscript

namespace Verif
open Spec Re Template

variable {ls : List Str} {type : Nat}

/-! ### Specification: what comes back -/

/-- The project `m` after the import of the given scenes: the texts are those of the exporting project. -/
def scenesBack (type : Nat) : List (Str × Scene) → Novel → Novel
  | [], m => m
  | p :: r, m => scenesBack type r (sceneBack type p.1 (p.2.sceneContent.getD []) m)

/-- The project `m` after the import of the manuscript of `n`. -/
def novelBack (type : Nat) (n : Novel) : List Str → Novel → Novel
  | [], m => m
  | id :: r, m =>
    match n.chapters.get? id with
    | none => novelBack type n r m
    | some ch => novelBack type n r (if chapterShown n ch = true then scenesBack type (exportedIn n ch) (chapterBack type id m) else m)

/-! ### Invariants -/

theorem sceneBack_chapters (id t : Str) (m : Novel) : (sceneBack type id t m).chapters = m.chapters := rfl

theorem Spec.SceneIn.scene {m : Novel} {k : Str} (h : SceneIn m k) (id t : Str) : SceneIn (sceneBack type id t m) k := by
  obtain ⟨s, hs⟩ := h
  unfold SceneIn
  show ∃ s, ((m.scenes.modify id _).modify id _).get? k = some s
  rw [Dict.get?_modify, Dict.get?_modify, hs]
  split <;> exact ⟨_, rfl⟩

theorem Spec.SceneIn.chapter {m : Novel} {k : Str} (h : SceneIn m k) (id : Str) : SceneIn (chapterBack type id m) k := h

theorem Spec.TitledIn.chapter {m : Novel} {k : Str} (h : TitledIn m k) (id : Str) : TitledIn (chapterBack type id m) k := by
  obtain ⟨ch, h1, h2⟩ := h
  unfold TitledIn
  show ∃ ch, (m.chapters.modify id _).get? k = some ch ∧ _
  rw [Dict.get?_modify, h1]
  split
  · exact ⟨_, rfl, h2⟩
  · exact ⟨_, rfl, h2⟩

theorem scenesBack_chapters (l : List (Str × Scene)) (m : Novel) : (scenesBack type l m).chapters = m.chapters := by
  induction l generalizing m with
  | nil => rfl
  | cons p r ih =>
    unfold scenesBack
    rw [ih, sceneBack_chapters]

theorem Spec.SceneIn.scenes {m : Novel} {k : Str} (h : SceneIn m k) (l : List (Str × Scene)) : SceneIn (scenesBack type l m) k := by
  induction l generalizing m with
  | nil => exact h
  | cons p r ih => exact ih (h.scene _ _)

theorem Spec.TitledIn.scenes {m : Novel} {k : Str} (h : TitledIn m k) (l : List (Str × Scene)) : TitledIn (scenesBack type l m) k := by
  unfold TitledIn
  rw [scenesBack_chapters]
  exact h

theorem outside_novel {r : Rd} (hr : Outside r) {m : Novel} (hm : ∀ k, TitledIn r.novel k → TitledIn m k) : Outside (atNovel r m) where
  scene := hr.scene
  skip := hr.skip
  titled id hid := hm id (hr.titled id hid)

/-! ### Titles -/

theorem conv_title (e : DocEnv) (n : Novel) {o : Option Str} (ho : ∀ t, o = some t → Carriable t) :
    ∃ t' : Str, e.formattedBase.conv n o true = t'.flatMap escChar ∧ Carriable t' := by
  cases o with
  | none => exact ⟨[], rfl, by unfold Carriable; intro c hc; cases hc⟩
  | some t =>
    obtain ⟨t', h1, h2⟩ := convert_title (spanReplacements ++ commentReplacements n.authorName) (n.languages.getD []) t
    exact ⟨t', h1, fun c hc => ho t rfl c (h2.subset hc)⟩

/-! ### Scenes -/

theorem sceneMapping_values (e : DocEnv) {n : Novel} (hn : Exportable n) {id : Str} (hid : id ∈ narrative n) {s : Scene} (hs : n.scenes.get? id = some s) (k w l : Nat) :
    ∃ m, (odtManuscript e).sceneMapping n id k w l = .ok m ∧ m.get? c!"Title" = some (e.formattedBase.conv n s.title true) ∧ m.get? c!"ID" = some id ∧
      m.get? c!"SceneContent" = some (e.formattedBase.conv n s.sceneContent false) := by
  obtain ⟨m, hm⟩ := e.formattedBase.scene_total hn hid k w l
  refine ⟨Dict.set (Dict.set m c!"sceneTitle" c!"Scene") c!"Summary" c!"Summary", ?_, ?_⟩
  · show ((e.formattedBase.scene n id k w l >>= fun m => _) >>= fun m => _) = _
    rw [hm]
    rfl
  · obtain ⟨h1, h2, h3, _⟩ := Base.scene_content hs hm
    refine ⟨?_, ?_, ?_⟩ <;> rw [get?_set_other (by decide), get?_set_other (by decide)] <;> assumption

theorem Part.sceneText (e : DocEnv) {n : Novel} (hn : Exportable n) (hls : n.languages.getD [] = ls) (hL : ∀ l ∈ ls, LangCode l) (hd : (formats ls).Nodup) (hA : AuthorOk n.authorName)
    {r : Rd} (hr : Outside r) {p : Str × Scene} (hp : n.scenes.get? p.1 = some p.2) (hmem : p.1 ∈ narrative n) (hc : SceneCarried ls p)
    (hin : SceneIn r.novel p.1) (before : List (Str × Scene)) (first : Bool) :
    Part type ls (Spec.sceneText (odtManuscript e) n before first p).flatten r (atNovel r (sceneBack type p.1 (p.2.sceneContent.getD []) r.novel)) := by
  obtain ⟨ps, hps, hN⟩ := hc.text
  obtain ⟨s0, hs0⟩ := hin
  obtain ⟨m, hm, h1, h2, h3⟩ := sceneMapping_values e hn hmem hp (before ++ [p]).length (total (·.wordCount) (before ++ [p])) (total (·.letterCount) (before ++ [p]))
  obtain ⟨t', ht1, ht2⟩ := conv_title e n hc.title
  have h3' : m.get? c!"SceneContent" = some (formattedConvert (spanReplacements ++ commentReplacements n.authorName) ls (some (rawText ps)) false) := by
    rw [h3, ← hps, ← hls]
    cases hsc : p.2.sceneContent with
    | none => rfl
    | some t => rfl
  rw [ht1] at h1
  have key : ∀ st, st = indStyle ∨ st = bodyStyle → Part type ls ((h3Open ++ (t'.flatMap escChar ++ hEnd)) ++ (secOpen (c!"ScID:" ++ p.1) ++
      ((pOpen st ++ formattedConvert (spanReplacements ++ commentReplacements n.authorName) ls (some (rawText ps)) false ++ pEnd) ++ (c!"\n" ++ secEnd))))
      r (atNovel r (sceneBack type p.1 (p.2.sceneContent.getD []) r.novel)) := by
    intro st hst
    rw [hps]
    exact (Part.h3 hr ht2).append (Part.scene hr hc.number hs0 hL hd hA hN hst)
  unfold Spec.sceneText
  simp only [hm, filled]
  have body : Part type ls (subst (if (!first && p.2.appendToPrev == some true && decide ((odtManuscript e).appendedScene ≠ [])) = true then (odtManuscript e).appendedScene else (odtManuscript e).scene) m)
      r (atNovel r (sceneBack type p.1 (p.2.sceneContent.getD []) r.novel)) := by
    split
    · rw [show (odtManuscript e).appendedScene = manuscriptTemplates.appendedScene from rfl, subst_appended h1 h2 h3']
      exact key _ (.inl rfl)
    · rw [show (odtManuscript e).scene = manuscriptTemplates.scene from rfl, subst_scene h1 h2 h3']
      exact key _ (.inr rfl)
  rw [List.flatten_append]
  refine Part.append (r1 := r) ?_ ?_
  · split
    · exact Part.nil r
    · rw [List.flatten_cons, List.flatten_nil, List.append_nil]
      exact Part.divider hr
  · rw [List.flatten_cons, List.flatten_nil, List.append_nil]
    exact body

theorem Part.scenesText (e : DocEnv) {n : Novel} (hn : Exportable n) (hls : n.languages.getD [] = ls) (hL : ∀ l ∈ ls, LangCode l) (hd : (formats ls).Nodup) (hA : AuthorOk n.authorName)
    (l : List (Str × Scene)) {r : Rd} (hr : Outside r) (hp : ∀ p ∈ l, n.scenes.get? p.1 = some p.2 ∧ p.1 ∈ narrative n ∧ SceneCarried ls p)
    (hin : ∀ p ∈ l, SceneIn r.novel p.1) (before : List (Str × Scene)) (first : Bool) :
    Part type ls (Spec.scenesText (odtManuscript e) n before first l).flatten r (atNovel r (scenesBack type l r.novel)) := by
  induction l generalizing r before first with
  | nil => exact Part.nil r
  | cons p l ih =>
    unfold Spec.scenesText scenesBack
    rw [List.flatten_append]
    obtain ⟨h1, h2, h3⟩ := hp p (by simp)
    refine (Part.sceneText e hn hls hL hd hA hr h1 h2 h3 (hin p (by simp)) before first).append ?_
    exact ih (r := atNovel r (sceneBack type p.1 (p.2.sceneContent.getD []) r.novel)) (outside_novel hr (fun k hk => hk)) (fun q hq => hp q (by simp [hq]))
      (fun q hq => (hin q (by simp [hq])).scene _ _) _ _

/-! ### Chapters -/

theorem chapterMapping_values (e : DocEnv) {n : Novel} {id : Str} {ch : Chapter} (hc : n.chapters.get? id = some ch) (ht : ∀ t, ch.title = some t → Carriable t) (k : Nat) :
    ∃ m, ∃ t' : Str, (odtManuscript e).chapterMapping n id k = .ok m ∧ m.get? c!"Title" = some (t'.flatMap escChar) ∧ Carriable t' ∧ m.get? c!"ID" = some id := by
  obtain ⟨t', h1, h2⟩ := conv_title e n ht
  have hb : ∃ m, e.formattedBase.chapter n id k = .ok m ∧ m.get? c!"Title" = some (t'.flatMap escChar) ∧ m.get? c!"ID" = some id := by
    unfold Base.chapter
    rw [Dict.get!_of hc, ← h1]
    exact ⟨_, rfl, rfl, rfl⟩
  obtain ⟨m, e1, e2, e3⟩ := hb
  have e4 : (odtManuscript e).chapterMapping n id k = .ok (if ch.suppressChapterTitle = some true then Dict.set m c!"Title" [] else m) := by
    show chapterSuppressed e.formattedBase n id k = _
    unfold chapterSuppressed
    rw [e1, Dict.get!_of hc]
    rfl
  by_cases hs : ch.suppressChapterTitle = some true
  · rw [if_pos hs] at e4
    refine ⟨_, [], e4, ?_, (by unfold Carriable; intro c hc; cases hc), ?_⟩
    · exact Dict.get?_set_self _ _ _
    · rw [get?_set_other (by decide)]
      exact e3
  · rw [if_neg hs] at e4
    exact ⟨m, t', e4, e2, h2, e3⟩

theorem atNovel_self (r : Rd) : atNovel r r.novel = r := rfl

theorem Part.chapterText (e : DocEnv) {n : Novel} (hn : Exportable n) (hls : n.languages.getD [] = ls) (hL : ∀ l ∈ ls, LangCode l) (hd : (formats ls).Nodup) (hA : AuthorOk n.authorName)
    {r : Rd} (hr : Outside r) (hr0 : r.chId = none) {id : Str} {ch : Chapter} (hid : id ∈ n.srtChapters) (hch : n.chapters.get? id = some ch)
    (hsh : chapterShown n ch = true) (hc : ChapterCarried id ch) (ht : TitledIn r.novel id)
    (hp : ∀ p ∈ exportedIn n ch, SceneCarried ls p) (hin : ∀ p ∈ exportedIn n ch, SceneIn r.novel p.1) (before : List Str) :
    Part type ls (Spec.chapterText (odtManuscript e) n before id).flatten r (atNovel r (scenesBack type (exportedIn n ch) (chapterBack type id r.novel))) := by
  unfold Spec.chapterText
  rw [hch]
  simp only
  rw [if_pos hsh]
  obtain ⟨c0, hc0, hc1⟩ := ht
  obtain ⟨m, t', e1, e2, e3, e4⟩ := chapterMapping_values e hch hc.title
    (if isPart (odtManuscript e).toTemplates ch = true then 0 else (numberedChapters (odtManuscript e).toTemplates n before).length + 1)
  rw [e1]
  simp only [filled]
  obtain ⟨r1, hr1⟩ : ∃ r1, r1 = atChapter (atNovel r (chapterBack type id r.novel)) (some id) := ⟨_, rfl⟩
  have ho1 : Outside r1 := by
    rw [hr1]
    refine ⟨hr.scene, hr.skip, ?_⟩
    intro k hk
    cases hk
    exact TitledIn.chapter ⟨c0, hc0, hc1⟩ id
  have p1 : Part type ls (secOpen (c!"ChID:" ++ id)) r r1 := by
    rw [hr1]
    exact Part.chapterStart hr hc.number hc0
  have p2 : Part type ls (subst (if isPart (odtManuscript e).toTemplates ch = true then (odtManuscript e).part else (odtManuscript e).chapter) m) r r1 := by
    split
    · rw [show (odtManuscript e).part = manuscriptTemplates.part from rfl, subst_part e2 e4]
      exact p1.append (Part.h1 ho1 e3)
    · rw [show (odtManuscript e).chapter = manuscriptTemplates.chapter from rfl, subst_chapter e2 e4]
      exact p1.append (Part.h2 ho1 e3)
  have hmem : ∀ p ∈ exportedIn n ch, n.scenes.get? p.1 = some p.2 ∧ p.1 ∈ narrative n := by
    intro p hp
    unfold exportedIn at hp
    rw [List.mem_filter, List.mem_filterMap] at hp
    obtain ⟨⟨i, hi, h2⟩, _⟩ := hp
    cases hs : n.scenes.get? i with
    | none => rw [hs] at h2; cases h2
    | some s =>
      rw [hs] at h2
      cases h2
      refine ⟨hs, ?_⟩
      unfold narrative
      rw [List.mem_flatMap]
      exact ⟨id, hid, by unfold scenesOf; rw [hch]; exact hi⟩
  have p3 := Part.scenesText (type := type) e hn hls hL hd hA (exportedIn n ch) ho1 (fun p hq => ⟨(hmem p hq).1, (hmem p hq).2, hp p hq⟩)
    (fun p hq => by rw [hr1]; exact (hin p hq).chapter id) (exported n before) true
  obtain ⟨r2, hr2⟩ : ∃ r2, r2 = atNovel r1 (scenesBack type (exportedIn n ch) r1.novel) := ⟨_, rfl⟩
  rw [← hr2] at p3
  have ho2 : Outside r2 := by
    rw [hr2]
    exact outside_novel ho1 (fun k hk => hk.scenes _)
  have p4 : Part type ls secEnd r2 (atChapter r2 none) := Part.chapterEnd ho2 (id := id) (by rw [hr2, hr1]; rfl)
  have e5 : atChapter r2 none = atNovel r (scenesBack type (exportedIn n ch) (chapterBack type id r.novel)) := by
    rw [hr2, hr1]
    unfold atChapter atNovel
    simp only [hr0]
  rw [e5] at p4
  have e6 : (if (odtManuscript e).chapterEnd = [] then [] else [subst (odtManuscript e).chapterEnd m]) = [secEnd] := by
    rw [show (odtManuscript e).chapterEnd = secEnd from rfl, if_neg (by decide), subst_secEnd]
  rw [e6, List.flatten_append, List.flatten_append, List.flatten_cons, List.flatten_nil, List.append_nil, List.flatten_cons, List.flatten_nil, List.append_nil]
  exact (p2.append p3).append p4

/-- The chapters of a manuscript. -/
theorem Part.manuscript (e : DocEnv) {n : Novel} (hn : Exportable n) (hls : n.languages.getD [] = ls) (hL : ∀ l ∈ ls, LangCode l) (hd : (formats ls).Nodup) (hA : AuthorOk n.authorName)
    (ids : List Str) {r : Rd} (hr : Outside r) (hr0 : r.chId = none) (hids : ∀ id ∈ ids, id ∈ n.srtChapters)
    (hch : ∀ id ∈ ids, ∀ ch, n.chapters.get? id = some ch → chapterShown n ch = true → ChapterCarried id ch ∧ TitledIn r.novel id ∧
      ∀ p ∈ exportedIn n ch, SceneCarried ls p ∧ SceneIn r.novel p.1) (before : List Str) :
    Part type ls (Spec.manuscript (odtManuscript e) n before ids).flatten r (atNovel r (novelBack type n ids r.novel)) := by
  induction ids generalizing r before with
  | nil => exact Part.nil r
  | cons id ids ih =>
    unfold Spec.manuscript novelBack
    rw [List.flatten_append]
    obtain ⟨ch, hc⟩ := hn.chapters id (hids id (by simp))
    rw [hc]
    simp only
    by_cases hsh : chapterShown n ch = true
    · obtain ⟨h1, h2, h3⟩ := hch id (by simp) ch hc hsh
      rw [if_pos hsh]
      refine (Part.chapterText e hn hls hL hd hA hr hr0 (hids id (by simp)) hc hsh h1 h2 (fun p hp => (h3 p hp).1) (fun p hp => (h3 p hp).2) before).append ?_
      refine ih (r := atNovel r (scenesBack type (exportedIn n ch) (chapterBack type id r.novel))) ?_ hr0 (fun i hi => hids i (by simp [hi])) ?_ _
      · exact outside_novel hr (fun k hk => (hk.chapter id).scenes _)
      · intro i hi c' hc' hsh'
        obtain ⟨g1, g2, g3⟩ := hch i (by simp [hi]) c' hc' hsh'
        exact ⟨g1, (g2.chapter id).scenes _, fun p hp => ⟨(g3 p hp).1, ((g3 p hp).2.chapter id).scenes _⟩⟩
    · rw [if_neg hsh]
      have : Spec.chapterText (odtManuscript e) n before id = [] := by
        unfold Spec.chapterText
        rw [hc]
        simp only
        rw [if_neg hsh]
      rw [this]
      exact Part.append (r1 := r) (Part.nil r) (ih hr hr0 (fun i hi => hids i (by simp [hi])) (fun i hi => hch i (by simp [hi])) _)

end Verif
