/-
The structure of an imported project, for every document.
-/
import Verif.Lemmas.Import4
import Verif.Props.C06_C09_Splitter

namespace Verif
open Spec

/-- A scene as the import creates it. -/
structure NewScene (s : Scene) : Prop where
  fit : ∀ t, s.sceneContent = some t → s.wordCount = wordCountOf t ∧ s.letterCount = letterCountOf t
  type : s.scType = some 0
  status : s.status = some 1 ∨ s.status = some 2

/-- A chapter as the import creates it. -/
structure NewChapter (c : Chapter) : Prop where
  type : c.chType = some 0
  level : c.chLevel = some 0 ∨ c.chLevel = some 1

/-- What holds after each step of the import. -/
structure Built (r : Rd) : Prop where
  ch : Grown r.novel.chapters
  sc : Grown r.novel.scenes
  srt : r.novel.srtChapters = r.novel.chapters.keys
  chCount : r.chCount = r.novel.chapters.length
  scCount : r.scCount = r.novel.scenes.length
  cur : ∀ id, r.chId = some id → ∃ D c, r.novel.chapters = D ++ [(id, c)]
  narr : r.novel.chapters.flatMap (fun p => p.2.srtScenes) = ids r.novel.scenes.length
  scs : ∀ p ∈ r.novel.scenes, NewScene p.2
  chs : ∀ p ∈ r.novel.chapters, NewChapter p.2

theorem Built.same {r r' : Rd} (h : Built r) (h1 : r'.novel.chapters = r.novel.chapters) (h2 : r'.novel.scenes = r.novel.scenes)
    (h3 : r'.novel.srtChapters = r.novel.srtChapters) (h4 : r'.chCount = r.chCount) (h5 : r'.scCount = r.scCount)
    (h6 : r'.chId = r.chId ∨ r'.chId = none) : Built r' where
  ch := by rw [h1]; exact h.ch
  sc := by rw [h2]; exact h.sc
  srt := by rw [h3, h1]; exact h.srt
  chCount := by rw [h4, h1]; exact h.chCount
  scCount := by rw [h5, h2]; exact h.scCount
  cur := by
    intro id hid
    rw [h1]
    rcases h6 with h6 | h6
    · exact h.cur id (h6 ▸ hid)
    · rw [h6] at hid; cases hid
  narr := by rw [h1, h2]; exact h.narr
  scs := by rw [h2]; exact h.scs
  chs := by rw [h1]; exact h.chs

theorem length_modify {α : Type} (d : Dict α) (k : Str) (f : α → α) : (Dict.modify d k f).length = d.length := by
  induction d with
  | nil => rfl
  | cons p d ih =>
    obtain ⟨a, b⟩ := p
    rw [Dict.modify]
    split
    · simp
    · simp [ih]

theorem mem_modify {α : Type} {d : Dict α} {k : Str} {f : α → α} {p : Str × α} (h : p ∈ Dict.modify d k f) : p ∈ d ∨ ∃ q ∈ d, p = (q.1, f q.2) := by
  induction d with
  | nil => cases h
  | cons q d ih =>
    obtain ⟨a, b⟩ := q
    rw [Dict.modify] at h
    split at h
    · rcases List.mem_cons.1 h with rfl | h
      · exact .inr ⟨(a, b), by simp, rfl⟩
      · exact .inl (by simp [h])
    · rcases List.mem_cons.1 h with rfl | h
      · exact .inl (by simp)
      · rcases ih h with h | ⟨q, h1, h2⟩
        · exact .inl (by simp [h])
        · exact .inr ⟨q, by simp [h1], h2⟩

theorem Grown.modify {α : Type} {d : Dict α} (h : Grown d) (k : Str) (f : α → α) : Grown (Dict.modify d k f) := by
  unfold Grown
  rw [Dict.keys_modify, length_modify]
  exact h

theorem Grown.notLast {α : Type} {D : Dict α} {id : Str} {c : α} (h : Grown (D ++ [(id, c)])) : id ∉ D.keys := by
  unfold Grown at h
  rw [keys_snoc, List.length_append, List.length_singleton, ids_succ] at h
  obtain ⟨h1, h2⟩ := List.append_inj' h rfl
  injection h2 with h2
  rw [h1, h2]
  exact ids_fresh _

theorem Built.onSceneWith {r : Rd} (h : Built r) (id : Str) {f : Scene → Scene} (hf : ∀ s, NewScene s → NewScene (f s)) :
    Built { r with novel := { r.novel with scenes := r.novel.scenes.modify id f } } where
  ch := h.ch
  sc := h.sc.modify id f
  srt := h.srt
  chCount := h.chCount
  scCount := by show r.scCount = _; rw [h.scCount]; exact (length_modify _ _ _).symm
  cur := h.cur
  narr := by
    show r.novel.chapters.flatMap _ = ids (Dict.modify r.novel.scenes id f).length
    rw [length_modify]
    exact h.narr
  scs := by
    intro p hp
    rcases mem_modify hp with hp | ⟨q, hq, rfl⟩
    · exact h.scs p hp
    · exact hf _ (h.scs q hq)
  chs := h.chs

theorem Built.onScene {r r' : Rd} (h : Built r) {id : Str} {f : Scene → Scene} (hf : ∀ s, NewScene s → NewScene (f s)) (e : r.onScene id f = .ok r') :
    Built r' ∧ r'.novel.chapters.length = r.novel.chapters.length ∧ r'.novel.scenes.length = r.novel.scenes.length := by
  unfold Rd.onScene at e
  split at e
  · cases e
    exact ⟨h.onSceneWith id hf, rfl, length_modify _ _ _⟩
  · cases e

theorem Built.onChapter {r r' : Rd} (h : Built r) {id : Str} (hid : r.chId = some id) {f : Chapter → Chapter} (hf : ∀ c, NewChapter c → NewChapter (f c))
    (hs : ∀ c, (f c).srtScenes = c.srtScenes) (e : r.onChapter id f = .ok r') :
    Built r' ∧ r'.novel.chapters.length = r.novel.chapters.length ∧ r'.novel.scenes.length = r.novel.scenes.length := by
  unfold Rd.onChapter at e
  split at e
  · cases e
    obtain ⟨D, c, hD⟩ := h.cur id hid
    have hn : id ∉ Dict.keys D := (hD ▸ h.ch).notLast
    have hm : Dict.modify r.novel.chapters id f = D ++ [(id, f c)] := by rw [hD, modify_snoc hn]
    refine ⟨⟨h.ch.modify id f, h.sc, ?_, ?_, h.scCount, ?_, ?_, h.scs, ?_⟩, length_modify _ _ _, rfl⟩
    · show r.novel.srtChapters = (Dict.modify r.novel.chapters id f).keys
      rw [Dict.keys_modify]
      exact h.srt
    · show r.chCount = (Dict.modify r.novel.chapters id f).length
      rw [length_modify]
      exact h.chCount
    · intro id' hid'
      have hid' : r.chId = some id' := hid'
      rw [hid] at hid'
      cases hid'
      exact ⟨D, f c, hm⟩
    · show (Dict.modify r.novel.chapters id f).flatMap _ = _
      rw [hm]
      have := h.narr
      rw [hD] at this
      rw [List.flatMap_append] at this ⊢
      simp only [List.flatMap_cons, List.flatMap_nil, hs] at this ⊢
      exact this
    · intro p hp
      rcases mem_modify hp with hp | ⟨q, hq, rfl⟩
      · exact h.chs p hp
      · exact hf _ (h.chs q hq)
  · cases e

theorem Built.addChapter {r : Rd} (h : Built r) {level : Nat} (hl : level = 0 ∨ level = 1) :
    Built (addChapter r level) ∧ (Verif.addChapter r level).novel.chapters.length = r.novel.chapters.length + 1 ∧
      (Verif.addChapter r level).novel.scenes.length = r.novel.scenes.length := by
  have e : (Verif.addChapter r level).novel.chapters = r.novel.chapters ++ [(Str.ofNat (r.novel.chapters.length + 1), { chType := some 0, chLevel := some level })] := by
    show Dict.set r.novel.chapters (Str.ofNat (r.chCount + 1)) _ = _
    rw [h.chCount, h.ch.set]
  refine ⟨⟨?_, h.sc, ?_, ?_, h.scCount, ?_, ?_, h.scs, ?_⟩, ?_, rfl⟩
  · rw [e]; exact h.ch.snoc _
  · show r.novel.srtChapters ++ [Str.ofNat (r.chCount + 1)] = _
    rw [e, keys_snoc, h.srt, h.chCount]
  · show r.chCount + 1 = _
    rw [e, h.chCount, List.length_append, List.length_singleton]
  · intro id hid
    have hid : some (Str.ofNat (r.chCount + 1)) = some id := hid
    cases hid
    rw [e, h.chCount]
    exact ⟨_, _, rfl⟩
  · rw [e, List.flatMap_append]
    show _ ++ [] = ids r.novel.scenes.length
    rw [List.append_nil]
    exact h.narr
  · rw [e]
    intro p hp
    rcases List.mem_append.1 hp with hp | hp
    · exact h.chs p hp
    · rw [List.mem_singleton.1 hp]
      exact ⟨rfl, by rcases hl with rfl | rfl <;> simp⟩
  · rw [e, List.length_append, List.length_singleton]

theorem Built.newScene {r r' : Rd} (h : Built r) {id : Str} (hid : r.chId = some id) {s : Scene} (hs : NewScene s) {L : List Str}
    (e : Rd.onChapter { r with lines := L, scCount := r.scCount + 1, scId := some (Str.ofNat (r.scCount + 1)), novel := { r.novel with scenes := r.novel.scenes.set (Str.ofNat (r.scCount + 1)) s } } id
      (fun c => { c with srtScenes := c.srtScenes ++ [Str.ofNat (r.scCount + 1)] }) = .ok r') :
    Built r' ∧ r'.novel.chapters.length = r.novel.chapters.length ∧ r'.novel.scenes.length = r.novel.scenes.length + 1 := by
  unfold Rd.onChapter at e
  split at e
  · cases e
    obtain ⟨D, c, hD⟩ := h.cur id hid
    have hn : id ∉ Dict.keys D := (hD ▸ h.ch).notLast
    have hm : ∀ f : Chapter → Chapter, Dict.modify r.novel.chapters id f = D ++ [(id, f c)] := by intro f; rw [hD, modify_snoc hn]
    have hset : Dict.set r.novel.scenes (Str.ofNat (r.scCount + 1)) s = r.novel.scenes ++ [(Str.ofNat (r.novel.scenes.length + 1), s)] := by
      rw [h.scCount, h.sc.set]
    refine ⟨⟨h.ch.modify id _, ?_, ?_, ?_, ?_, ?_, ?_, ?_, ?_⟩, length_modify _ _ _, ?_⟩
    · show Grown (Dict.set r.novel.scenes _ s)
      rw [hset]
      exact h.sc.snoc _
    · show r.novel.srtChapters = (Dict.modify r.novel.chapters id _).keys
      rw [Dict.keys_modify]
      exact h.srt
    · show r.chCount = (Dict.modify r.novel.chapters id _).length
      rw [length_modify]
      exact h.chCount
    · show r.scCount + 1 = (Dict.set r.novel.scenes _ s).length
      rw [hset, h.scCount, List.length_append, List.length_singleton]
    · intro id' hid'
      have hid' : r.chId = some id' := hid'
      rw [hid] at hid'
      cases hid'
      exact ⟨D, _, hm _⟩
    · show (Dict.modify r.novel.chapters id _).flatMap _ = ids (Dict.set r.novel.scenes _ s).length
      rw [hm, hset, List.length_append, List.length_singleton, ids_succ, ← h.narr, hD, h.scCount]
      simp
    · show ∀ p ∈ Dict.set r.novel.scenes _ s, NewScene p.2
      rw [hset]
      intro p hp
      rcases List.mem_append.1 hp with hp | hp
      · exact h.scs p hp
      · rw [List.mem_singleton.1 hp]
        exact hs
    · intro p hp
      rcases mem_modify hp with hp | ⟨q, hq, rfl⟩
      · exact h.chs p hp
      · exact ⟨(h.chs q hq).type, (h.chs q hq).level⟩
    · show (Dict.set r.novel.scenes _ s).length = _
      rw [hset, List.length_append, List.length_singleton]
  · cases e

/-! ### The steps -/

/-- The state differs only in parts that the structure does not depend on. -/
structure SameFrame (r r' : Rd) : Prop where
  chapters : r'.novel.chapters = r.novel.chapters
  scenes : r'.novel.scenes = r.novel.scenes
  srt : r'.novel.srtChapters = r.novel.srtChapters
  chCount : r'.chCount = r.chCount
  scCount : r'.scCount = r.scCount
  chId : r'.chId = r.chId ∨ r'.chId = none

theorem SameFrame.built {r r' : Rd} (h : SameFrame r r') (hb : Built r) : Built r' := hb.same h.chapters h.scenes h.srt h.chCount h.scCount h.chId

theorem sameFrame_push (r : Rd) (s : Str) : SameFrame r (r.push s) := ⟨rfl, rfl, rfl, rfl, rfl, .inl rfl⟩

theorem sameFrame_startLanguage (r : Rd) (as : List (Str × Option Str)) : SameFrame r (r.startLanguage as) := by
  unfold Rd.startLanguage
  split
  · split
    · exact ⟨rfl, rfl, rfl, rfl, rfl, .inl rfl⟩
    · exact ⟨rfl, rfl, rfl, rfl, rfl, .inl rfl⟩
  · exact ⟨rfl, rfl, rfl, rfl, rfl, .inl rfl⟩

theorem sameFrame_stopLanguage (r : Rd) : SameFrame r r.stopLanguage ∧ r.stopLanguage.chId = r.chId := by
  unfold Rd.stopLanguage
  split
  · exact ⟨⟨rfl, rfl, rfl, rfl, rfl, .inl rfl⟩, rfl⟩
  · exact ⟨⟨rfl, rfl, rfl, rfl, rfl, .inl rfl⟩, rfl⟩

theorem sameFrame_startMeta (r : Rd) (as : List (Str × Option Str)) : SameFrame r (startMeta r as) := by
  unfold startMeta
  repeat' split
  all_goals exact ⟨rfl, rfl, rfl, rfl, rfl, .inl rfl⟩

theorem sameFrame_startBody (r : Rd) (as : List (Str × Option Str)) : SameFrame r (r.startBody as) ∧ (r.startBody as).chId = r.chId := by
  induction as generalizing r with
  | nil => exact ⟨⟨rfl, rfl, rfl, rfl, rfl, .inl rfl⟩, rfl⟩
  | cons a as ih =>
    obtain ⟨k, v⟩ := a
    have key : ∀ r1, SameFrame r r1 → r1.chId = r.chId → SameFrame r (r1.startBody as) ∧ (r1.startBody as).chId = r.chId := by
      intro r1 h1 h1'
      obtain ⟨h2, h2'⟩ := ih r1
      exact ⟨⟨h2.chapters.trans h1.chapters, h2.scenes.trans h1.scenes, h2.srt.trans h1.srt, h2.chCount.trans h1.chCount, h2.scCount.trans h1.scCount,
        .inl (h2'.trans h1')⟩, h2'.trans h1'⟩
    rcases v with _ | _ | ⟨x, v⟩
    · exact ih r
    · exact ih r
    · show SameFrame r (Rd.startBody (if k = c!"language" then { r with novel := { r.novel with languageCode := some (x :: v) } }
        else if k = c!"country" then { r with novel := { r.novel with countryCode := some (x :: v) } } else r) as) ∧ (Rd.startBody (if k = c!"language" then { r with novel := { r.novel with languageCode := some (x :: v) } }
        else if k = c!"country" then { r with novel := { r.novel with countryCode := some (x :: v) } } else r) as).chId = r.chId
      split
      · exact key _ ⟨rfl, rfl, rfl, rfl, rfl, .inl rfl⟩ rfl
      · split
        · exact key _ ⟨rfl, rfl, rfl, rfl, rfl, .inl rfl⟩ rfl
        · exact ih r

/-- The call begins the heading of a chapter. -/
def Call.isHead : Call → Bool
  | .start t _ => t == c!"h1" || t == c!"h2"
  | _ => false

/-- The call begins the heading of a scene. -/
def Call.isHead3 : Call → Bool
  | .start t _ => t == c!"h3"
  | _ => false

/-- The result of a step: the structure is kept, with `a` more chapters and `b` more scenes. -/
structure Adds (a b : Nat) (r r' : Rd) : Prop where
  built : Built r'
  chapters : r'.novel.chapters.length = r.novel.chapters.length + a
  scenes : r'.novel.scenes.length = r.novel.scenes.length + b

theorem SameFrame.adds {r r' : Rd} (h : SameFrame r r') (hb : Built r) : Adds 0 0 r r' :=
  ⟨h.built hb, by rw [h.chapters]; rfl, by rw [h.scenes]; rfl⟩

theorem adds_self {r : Rd} (hb : Built r) : Adds 0 0 r r := ⟨hb, rfl, rfl⟩

theorem adds_ok {a b : Nat} {r r1 r' : Rd} (h : Adds a b r r1) (e : Except.ok (ε := Exc) r1 = .ok r') : Adds a b r r' := by
  cases e
  exact h

theorem adds_of_ite {a b : Nat} {r r' : Rd} {c : Prop} [Decidable c] {x y : Except Exc Rd} (e : (if c then x else y) = .ok r')
    (h1 : x = .ok r' → Adds a b r r') (h2 : y = .ok r' → Adds a b r r') : Adds a b r r' := by
  split at e
  · exact h1 e
  · exact h2 e

theorem imStore_new (t : Str) {s : Scene} (h : NewScene s) : NewScene (imStore t s) where
  fit := by
    intro u hu
    have hu : some t = some u := hu
    cases hu
    exact ⟨rfl, rfl⟩
  type := h.type
  status := by
    show some (if (s.setContent t).wordCount < 10 then 1 else 2) = some 1 ∨ some (if (s.setContent t).wordCount < 10 then 1 else 2) = some 2
    split <;> simp

theorem imStop_built {r r' : Rd} (hb : Built r) {t : Str} (e : imStop r t = .ok r') : Adds 0 0 r r' := by
  unfold imStop at e
  by_cases c1 : t = c!"p" ∨ t = c!"blockquote"
  · rw [if_pos c1] at e
    have hb1 : Adds 0 0 r (r.stopLanguage.push c!"\n") := by
      have h1 := (sameFrame_stopLanguage r).1.adds hb
      have h2 := (sameFrame_push r.stopLanguage c!"\n").adds h1.built
      exact ⟨h2.built, h2.chapters.trans h1.chapters, h2.scenes.trans h1.scenes⟩
    generalize r.stopLanguage.push c!"\n" = r1 at e hb1
    simp only at e
    split at e
    · exact adds_ok hb1 e
    · obtain ⟨h1, h2, h3⟩ := hb1.built.onScene (fun s hs => imStore_new _ hs) e
      exact ⟨h1, h2.trans hb1.chapters, h3.trans hb1.scenes⟩
  rw [if_neg c1] at e
  refine adds_of_ite e (fun e => adds_ok ((sameFrame_push _ _).adds hb) e) (fun e => ?_)
  refine adds_of_ite e (fun e => adds_ok ((sameFrame_push _ _).adds hb) e) (fun e => ?_)
  refine adds_of_ite e (fun e => adds_ok ((sameFrame_stopLanguage _).1.adds hb) e) (fun e => ?_)
  refine adds_of_ite e (fun e => ?_) (fun e => ?_)
  · split at e
    · cases e
    · rename_i id hid
      obtain ⟨r1, h1, e⟩ := bind_ok e
      obtain ⟨g1, g2, g3⟩ := hb.onChapter (f := fun ch => { ch with title := some r.text }) hid (fun c hc => ⟨hc.type, hc.level⟩) (fun _ => rfl) h1
      cases e
      exact ⟨g1.same rfl rfl rfl rfl rfl (.inl rfl), g2, g3⟩
  refine adds_of_ite e (fun e => ?_) (fun e => adds_ok (adds_self hb) e)
  cases e
  exact SameFrame.adds ⟨rfl, rfl, rfl, rfl, rfl, .inl rfl⟩ hb

theorem imData_built {r : Rd} (hb : Built r) (s : Str) : Adds 0 0 r (imData r s) := by
  unfold imData
  split
  · exact SameFrame.adds ⟨rfl, rfl, rfl, rfl, rfl, .inl rfl⟩ hb
  · exact (sameFrame_push _ _).adds hb

theorem imComment_built {r : Rd} (hb : Built r) (s : Str) : Adds 0 0 r (imComment r s) := by
  unfold imComment
  split
  · exact adds_self hb
  · rename_i id _
    split
    · exact ⟨hb.onSceneWith id (fun s hs => ⟨hs.fit, hs.type, hs.status⟩), rfl, length_modify _ _ _⟩
    · exact (sameFrame_push _ _).adds hb

theorem imParagraph_built {r r' : Rd} (hb : Built r) {as : List (Str × Option Str)} (e : imParagraph r as = .ok r') : ∃ b, Adds 0 b r r' := by
  unfold imParagraph at e
  split at e
  · rename_i ch _ hch
    obtain ⟨r1, h1, e⟩ := bind_ok e
    cases e
    unfold imNewScene at h1
    obtain ⟨g1, g2, g3⟩ := hb.newScene hch ⟨(by intro t ht; cases ht), rfl, .inl rfl⟩ h1
    have h2 := (sameFrame_startLanguage r1 as).adds g1
    exact ⟨1, h2.built, h2.chapters.trans g2, h2.scenes.trans g3⟩
  · cases e
    exact ⟨0, (sameFrame_startLanguage r as).adds hb⟩

theorem addChapter_adds {r : Rd} (hb : Built r) {level : Nat} (hl : level = 0 ∨ level = 1) : Adds 1 0 r (addChapter r level) := by
  obtain ⟨h1, h2, h3⟩ := hb.addChapter hl
  exact ⟨h1, h2, h3⟩

theorem imStart_built {r r' : Rd} (hb : Built r) {t : Str} {as : List (Str × Option Str)} (e : imStart r t as = .ok r') :
    ∃ b, Adds (if Call.isHead (.start t as) then 1 else 0) b r r' := by
  unfold imStart at e
  by_cases c1 : t = c!"h1"
  · subst c1
    replace e : Except.ok { addChapter r 1 with heading := true } = .ok r' := e
    cases e
    have h1 := addChapter_adds hb (level := 1) (.inr rfl)
    exact ⟨0, h1.built.same rfl rfl rfl rfl rfl (.inl rfl), h1.chapters, h1.scenes⟩
  by_cases c2 : t = c!"h2"
  · subst c2
    replace e : Except.ok { addChapter r 0 with heading := true } = .ok r' := e
    cases e
    have h1 := addChapter_adds hb (level := 0) (.inl rfl)
    exact ⟨0, h1.built.same rfl rfl rfl rfl rfl (.inl rfl), h1.chapters, h1.scenes⟩
  have hf : Call.isHead (.start t as) = false := by
    show (t == c!"h1" || t == c!"h2") = false
    rw [Bool.or_eq_false_iff, beq_eq_false_iff_ne, beq_eq_false_iff_ne]
    exact ⟨c1, c2⟩
  rw [hf]
  show ∃ b, Adds 0 b r r'
  by_cases c3 : t = c!"p"
  · rw [if_pos c3] at e
    exact imParagraph_built hb e
  rw [if_neg c3] at e
  refine ⟨0, ?_⟩
  refine adds_of_ite e (fun e => adds_ok ((sameFrame_push _ _).adds hb) e) (fun e => ?_)
  refine adds_of_ite e (fun e => adds_ok ((sameFrame_push _ _).adds hb) e) (fun e => ?_)
  refine adds_of_ite e (fun e => adds_ok ((sameFrame_startLanguage _ _).adds hb) e) (fun e => ?_)
  rw [if_neg c1, if_neg c2] at e
  refine adds_of_ite e (fun e => ?_) (fun e => ?_)
  · cases e
    exact SameFrame.adds ⟨rfl, rfl, rfl, rfl, rfl, .inr rfl⟩ hb
  refine adds_of_ite e (fun e => adds_ok ((sameFrame_startMeta _ _).adds hb) e) (fun e => ?_)
  refine adds_of_ite e (fun e => ?_) (fun e => ?_)
  · cases e
    exact SameFrame.adds ⟨rfl, rfl, rfl, rfl, rfl, .inl rfl⟩ hb
  refine adds_of_ite e (fun e => adds_ok ((sameFrame_startBody _ _).1.adds hb) e) (fun e => ?_)
  refine adds_of_ite e (fun e => adds_ok ((sameFrame_push _ _).adds hb) e) (fun e => ?_)
  refine adds_of_ite e (fun e => ?_) (fun e => ?_)
  · have h1 := (sameFrame_push r c!"> ").adds hb
    have h2 := (sameFrame_startLanguage (r.push c!"> ") as).adds h1.built
    exact adds_ok ⟨h2.built, h2.chapters.trans h1.chapters, h2.scenes.trans h1.scenes⟩ e
  refine adds_of_ite e (fun e => adds_ok ((sameFrame_push _ _).adds hb) e) (fun e => adds_ok (adds_self hb) e)

theorem import_step {r r' : Rd} (hb : Built r) {c : Call} (e : importReader r c = .ok r') : ∃ b, Adds (if c.isHead then 1 else 0) b r r' := by
  cases c with
  | start t as => exact imStart_built hb e
  | stop t => exact ⟨0, imStop_built hb e⟩
  | data s => exact ⟨0, adds_ok (imData_built hb s) e⟩
  | comment s => exact ⟨0, adds_ok (imComment_built hb s) e⟩

/-! ### The outline -/

theorem olStop_built {r r' : Rd} (hb : Built r) {t : Str} (e : olStop r t = .ok r') : Adds 0 0 r r' := by
  unfold olStop at e
  refine adds_of_ite e (fun e => ?_) (fun e => ?_)
  · have hb1 : Built { r with lines := [Str.strip r.text ++ c!"\n"] } := hb.same rfl rfl rfl rfl rfl (.inl rfl)
    simp only at e
    split at e
    · rename_i id _
      obtain ⟨g1, g2, g3⟩ := hb1.onScene (id := id) (f := fun s => { s with desc := some (Str.strip r.text ++ c!"\n") }) (fun s hs => ⟨hs.fit, hs.type, hs.status⟩) e
      exact ⟨g1, g2, g3⟩
    · rename_i id _ hid
      obtain ⟨g1, g2, g3⟩ := hb1.onChapter (id := id) hid (f := fun ch => { ch with desc := some (Str.strip r.text ++ c!"\n") }) (fun c hc => ⟨hc.type, hc.level⟩) (fun _ => rfl) e
      exact ⟨g1, g2, g3⟩
    · cases e
      exact ⟨hb1, rfl, rfl⟩
  refine adds_of_ite e (fun e => ?_) (fun e => ?_)
  · split at e
    · cases e
    · rename_i id hid
      obtain ⟨r1, h1, e⟩ := bind_ok e
      obtain ⟨g1, g2, g3⟩ := hb.onChapter (f := fun ch => { ch with title := some (Str.strip r.text) }) hid (fun c hc => ⟨hc.type, hc.level⟩) (fun _ => rfl) h1
      cases e
      exact ⟨g1.same rfl rfl rfl rfl rfl (.inl rfl), g2, g3⟩
  refine adds_of_ite e (fun e => ?_) (fun e => ?_)
  · split at e
    · cases e
    · rename_i id hid
      obtain ⟨r1, h1, e⟩ := bind_ok e
      obtain ⟨g1, g2, g3⟩ := hb.onScene (id := id) (f := fun s => { s with title := some (Str.strip r.text) }) (fun s hs => ⟨hs.fit, hs.type, hs.status⟩) h1
      cases e
      exact ⟨g1.same rfl rfl rfl rfl rfl (.inl rfl), g2, g3⟩
  refine adds_of_ite e (fun e => ?_) (fun e => adds_ok (adds_self hb) e)
  cases e
  exact SameFrame.adds ⟨rfl, rfl, rfl, rfl, rfl, .inl rfl⟩ hb

theorem olNewScene_built {r r' : Rd} (hb : Built r) (e : olNewScene r = .ok r') : Adds 0 1 r r' := by
  unfold olNewScene Rd.listScene at e
  simp only at e
  split at e
  · cases e
  · rename_i id hid
    obtain ⟨g1, g2, g3⟩ := hb.newScene hid (s := { (({} : Scene).setContent []) with status := some 1, scType := some 0 })
      ⟨(by intro t ht; have ht : some [] = some t := ht; cases ht; exact ⟨rfl, rfl⟩), rfl, .inl rfl⟩ e
    exact ⟨g1, g2, g3⟩

theorem olStart_built {r r' : Rd} (hb : Built r) {t : Str} {as : List (Str × Option Str)} (e : olStart r t as = .ok r') :
    Adds (if Call.isHead (.start t as) then 1 else 0) (if Call.isHead3 (.start t as) then 1 else 0) r r' := by
  unfold olStart at e
  by_cases c1 : t = c!"h1"
  · subst c1
    exact adds_ok (addChapter_adds hb (level := 1) (.inr rfl)) e
  by_cases c2 : t = c!"h2"
  · subst c2
    exact adds_ok (addChapter_adds hb (level := 0) (.inl rfl)) e
  have hf : Call.isHead (.start t as) = false := by
    show (t == c!"h1" || t == c!"h2") = false
    rw [Bool.or_eq_false_iff, beq_eq_false_iff_ne, beq_eq_false_iff_ne]
    exact ⟨c1, c2⟩
  rw [hf, if_neg (by simp)]
  by_cases c3 : t = c!"h3"
  · subst c3
    exact olNewScene_built hb e
  have hf3 : Call.isHead3 (.start t as) = false := by
    show (t == c!"h3") = false
    rw [beq_eq_false_iff_ne]
    exact c3
  rw [hf3, if_neg (by simp)]
  rw [if_neg c1, if_neg c2, if_neg c3] at e
  refine adds_of_ite e (fun e => ?_) (fun e => ?_)
  · cases e
    exact SameFrame.adds ⟨rfl, rfl, rfl, rfl, rfl, .inr rfl⟩ hb
  refine adds_of_ite e (fun e => adds_ok ((sameFrame_startMeta _ _).adds hb) e) (fun e => ?_)
  refine adds_of_ite e (fun e => ?_) (fun e => ?_)
  · cases e
    exact SameFrame.adds ⟨rfl, rfl, rfl, rfl, rfl, .inl rfl⟩ hb
  refine adds_of_ite e (fun e => adds_ok ((sameFrame_startBody _ _).1.adds hb) e) (fun e => ?_)
  refine adds_of_ite e (fun e => adds_ok ((sameFrame_push _ _).adds hb) e) (fun e => adds_ok (adds_self hb) e)

theorem outline_step {r r' : Rd} (hb : Built r) {c : Call} (e : outlineReader r c = .ok r') :
    Adds (if c.isHead then 1 else 0) (if c.isHead3 then 1 else 0) r r' := by
  cases c with
  | start t as => exact olStart_built hb e
  | stop t => exact olStop_built hb e
  | data s => exact adds_ok ((sameFrame_push _ _).adds hb) e
  | comment s =>
    have h1 : Adds 0 0 r (r.baseComment s) := by
      unfold Rd.baseComment
      split
      · exact (sameFrame_push _ _).adds hb
      · exact adds_self hb
    exact adds_ok h1 e

/-! ### The whole document -/

theorem import_run {cs : List Call} {r r' : Rd} (hb : Built r) (e : Reader.run importReader r cs = .ok r') : ∃ b, Adds (cs.countP Call.isHead) b r r' := by
  induction cs generalizing r with
  | nil => cases e; exact ⟨0, adds_self hb⟩
  | cons c cs ih =>
    simp only [Reader.run] at e
    obtain ⟨r1, h1, e⟩ := bind_ok e
    obtain ⟨b1, g1⟩ := import_step hb h1
    obtain ⟨b2, g2⟩ := ih g1.built e
    refine ⟨b1 + b2, g2.built, ?_, ?_⟩
    · rw [g2.chapters, g1.chapters, List.countP_cons]
      omega
    · rw [g2.scenes, g1.scenes]
      omega

theorem outline_run {cs : List Call} {r r' : Rd} (hb : Built r) (e : Reader.run outlineReader r cs = .ok r') : Adds (cs.countP Call.isHead) (cs.countP Call.isHead3) r r' := by
  induction cs generalizing r with
  | nil => cases e; exact adds_self hb
  | cons c cs ih =>
    simp only [Reader.run] at e
    obtain ⟨r1, h1, e⟩ := bind_ok e
    have g1 := outline_step hb h1
    have g2 := ih g1.built e
    refine ⟨g2.built, ?_, ?_⟩
    · rw [g2.chapters, g1.chapters, List.countP_cons]
      omega
    · rw [g2.scenes, g1.scenes, List.countP_cons]
      omega

theorem built_start {n : Novel} (h1 : n.chapters = []) (h2 : n.scenes = []) (h3 : n.srtChapters = []) : Built { novel := n } where
  ch := by show Grown n.chapters; rw [h1]; rfl
  sc := by show Grown n.scenes; rw [h2]; rfl
  srt := by show n.srtChapters = n.chapters.keys; rw [h1, h3]; rfl
  chCount := by show 0 = n.chapters.length; rw [h1]; rfl
  scCount := by show 0 = n.scenes.length; rw [h2]; rfl
  cur := by intro id h; cases h
  narr := by show n.chapters.flatMap _ = ids n.scenes.length; rw [h1, h2]; rfl
  scs := by show ∀ p ∈ n.scenes, _; rw [h2]; intro p hp; cases hp
  chs := by show ∀ p ∈ n.chapters, _; rw [h1]; intro p hp; cases hp

end Verif
