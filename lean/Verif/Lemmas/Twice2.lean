/-
Two runs of an ODT reader on the same document: the first one on any project, the second one on the result of the first one. At each moment
a field of a scene or a chapter in the second run has the value that it has in the first run, or the final one.
-/
import Verif.Lemmas.Twice
import Verif.Model.OdtRead

namespace Verif.Twice
open Verif

/-- The fields of a scene that the readers change, and the others. -/
def sceneFields : List (Field Scene) :=
  [fun a b => a.title = b.title, fun a b => a.desc = b.desc, fun a b => a.sceneContent = b.sceneContent, fun a b => a.wordCount = b.wordCount,
   fun a b => a.letterCount = b.letterCount, fun a b => a.scType = b.scType,
   fun a b => ({ a with title := none, desc := none, sceneContent := none, wordCount := 0, letterCount := 0, scType := none } : Scene) =
     { b with title := none, desc := none, sceneContent := none, wordCount := 0, letterCount := 0, scType := none }]

/-- The fields of a chapter that the readers change, and the others; without the list of scenes. -/
def chapterFields : List (Field Chapter) :=
  [fun a b => a.title = b.title, fun a b => a.desc = b.desc, fun a b => a.chType = b.chType,
   fun a b => ({ a with title := none, desc := none, chType := none, srtScenes := [] } : Chapter) =
     { b with title := none, desc := none, chType := none, srtScenes := [] }]

/-- The list of scenes of a chapter in the second run is the final one from the beginning. -/
def ChR (a b m : Chapter) : Prop := Mix chapterFields a b m ∧ b.srtScenes = m.srtScenes

theorem scene_start (a m : Scene) : Mix sceneFields a m m := by
  intro E hE
  simp only [sceneFields, List.mem_cons, List.not_mem_nil, or_false] at hE
  rcases hE with rfl | rfl | rfl | rfl | rfl | rfl | rfl <;> exact .inr rfl

theorem chapter_start (a m : Chapter) : ChR a m m := by
  refine ⟨?_, rfl⟩
  intro E hE
  simp only [chapterFields, List.mem_cons, List.not_mem_nil, or_false] at hE
  rcases hE with rfl | rfl | rfl | rfl <;> exact .inr rfl

theorem scene_done {b m : Scene} (h : Mix sceneFields m b m) : b = m := by
  simp only [Mix, sceneFields, List.mem_cons, List.not_mem_nil, or_false, forall_eq_or_imp, forall_eq, or_self] at h
  obtain ⟨h1, h2, h3, h4, h5, h6, h7⟩ := h
  cases b
  cases m
  simp_all

theorem chapter_done {b m : Chapter} (h : ChR m b m) : b = m := by
  obtain ⟨h, h0⟩ := h
  simp only [Mix, chapterFields, List.mem_cons, List.not_mem_nil, or_false, forall_eq_or_imp, forall_eq, or_self] at h
  obtain ⟨h1, h2, h3, h4⟩ := h
  cases b
  cases m
  simp_all

/-- What the readers change of a project, apart from the list of chapters. -/
def zap (n : Novel) : Novel := { n with scenes := [], chapters := [], languages := none, languageCode := none, countryCode := none }

/-- The project in the first run, the project in the second run, and the final one. -/
structure NMix (n1 n2 m : Novel) : Prop where
  scenes : DMix (Mix sceneFields) n1.scenes n2.scenes m.scenes
  chapters : DMix ChR n1.chapters n2.chapters m.chapters
  langs : n2.languages = n1.languages
  code : n2.languageCode = n1.languageCode ∨ n2.languageCode = m.languageCode
  country : n2.countryCode = n1.countryCode ∨ n2.countryCode = m.countryCode
  rest : zap n2 = zap m

/-- The numbers of words and letters of a scene belong to its text. -/
def Fit (s : Scene) : Prop := ∀ t, s.sceneContent = some t → s.wordCount = wordCountOf t ∧ s.letterCount = letterCountOf t

/-- The chapters that are listed exist, and so do the scenes that are listed there; the numbers of words and letters belong to the text. -/
structure Inv (n : Novel) : Prop where
  fit : ∀ k s, n.scenes.get? k = some s → Fit s
  listed : ∀ c ∈ n.srtChapters, n.chapters.has c = true
  inside : ∀ c ∈ n.srtChapters, ∀ ch, n.chapters.get? c = some ch → ∀ s ∈ ch.srtScenes, n.scenes.has s = true

/-- What a run keeps: nothing is removed, and a title that is not blank stays. -/
structure Grow (blank : Option Str → Bool) (n m : Novel) : Prop where
  scenes : ∀ k, n.scenes.has k = true → m.scenes.has k = true
  chapters : ∀ k a, n.chapters.get? k = some a → ∃ a', m.chapters.get? k = some a' ∧ (blank a.title = false → a'.title = a.title)
  scKeys : n.scenes.keys.Nodup → m.scenes.keys.Nodup
  chKeys : n.chapters.keys.Nodup → m.chapters.keys.Nodup
  inv : Inv n → Inv m

theorem Grow.refl (blank : Option Str → Bool) (n : Novel) : Grow blank n n := ⟨fun _ h => h, fun _ a h => ⟨a, h, fun _ => rfl⟩, id, id, id⟩

theorem Grow.trans {blank : Option Str → Bool} {a b c : Novel} (h1 : Grow blank a b) (h2 : Grow blank b c) : Grow blank a c := by
  refine ⟨fun k h => h2.scenes k (h1.scenes k h), ?_, h2.scKeys ∘ h1.scKeys, h2.chKeys ∘ h1.chKeys, h2.inv ∘ h1.inv⟩
  intro k x hx
  obtain ⟨y, hy, h3⟩ := h1.chapters k x hx
  obtain ⟨z, hz, h4⟩ := h2.chapters k y hy
  refine ⟨z, hz, fun hb => ?_⟩
  have h5 := h3 hb
  rw [← h5]
  exact h4 (by rw [h5]; exact hb)

theorem Grow.hasChapter {blank : Option Str → Bool} {n m : Novel} (h : Grow blank n m) {k : Str} (hk : n.chapters.has k = true) :
    m.chapters.has k = true := by
  obtain ⟨a, ha⟩ := Option.isSome_iff_exists.1 hk
  obtain ⟨a', ha', _⟩ := h.chapters k a ha
  exact Option.isSome_iff_exists.2 ⟨a', ha'⟩

theorem NMix.start (n m : Novel) : NMix n { m with languages := n.languages } m :=
  ⟨DMix.start scene_start _ _, DMix.start chapter_start _ _, rfl, .inr rfl, .inr rfl, rfl⟩

theorem NMix.done {n2 m : Novel} (h : NMix m n2 m) (hs : m.scenes.keys.Nodup) (hc : m.chapters.keys.Nodup) : n2 = m := by
  have h1 := h.scenes.done hs (fun _ _ => scene_done)
  have h2 := h.chapters.done hc (fun _ _ => chapter_done)
  have h3 := h.langs
  have h4 := h.code
  have h5 := h.country
  have h6 := h.rest
  simp only [or_self] at h4 h5
  cases n2
  cases m
  simp only [zap] at h6
  simp_all

/-- A step that depends on the project: it keeps what is there, and the second run follows the first one. -/
def G (blank : Option Str → Bool) (f : Novel → Except Exc Rd) (n : Novel) : Prop :=
  ∀ r', f n = .ok r' → Grow blank n r'.novel ∧
    ∀ n2 m, Grow blank r'.novel m → NMix n n2 m → ∃ n2', f n2 = .ok { r' with novel := n2' } ∧ NMix r'.novel n2' m

section
variable {blank : Option Str → Bool}

theorem G.pure (lines : List Str) (scId chId : Option Str) (language : Str) (skipData : Bool) (elId sect : Option Str) (chCount scCount : Nat)
    (heading : Bool) (n : Novel) :
    G blank (fun n => .ok ⟨n, lines, scId, chId, language, skipData, elId, sect, chCount, scCount, heading⟩) n := by
  intro r' h
  cases h
  exact ⟨Grow.refl _ _, fun n2 m _ h => ⟨n2, rfl, h⟩⟩

theorem G.error (e : Exc) (n : Novel) : G blank (fun _ => .error e) n := by
  intro r' h
  exact nomatch h

theorem G.bind {f : Novel → Except Exc Rd} {k : Rd → Except Exc Rd} {n : Novel} (hf : G blank f n)
    (hk : ∀ r, f n = .ok r → G blank (fun n => k { r with novel := n }) r.novel) : G blank (fun n => f n >>= k) n := by
  intro r' h
  cases e : f n with
  | error x => simp only [e] at h; exact nomatch h
  | ok r =>
    simp only [e] at h
    obtain ⟨g1, t1⟩ := hf r e
    obtain ⟨g2, t2⟩ := hk r e r' h
    refine ⟨g1.trans g2, fun n2 m hg hx => ?_⟩
    obtain ⟨n3, e3, h3⟩ := t1 n2 m (g2.trans hg) hx
    obtain ⟨n4, e4, h4⟩ := t2 n3 m hg h3
    refine ⟨n4, ?_, h4⟩
    simp only [e3]
    exact e4

theorem modify_grow {n : Novel} {id : Str} {F : Scene → Scene} (hF : ∀ s, Fit s → Fit (F s)) :
    Grow blank n { n with scenes := n.scenes.modify id F } := by
  refine ⟨fun k h => ?_, fun _ a h => ⟨a, h, fun _ => rfl⟩, fun h => ?_, fun h => h, fun hi => ⟨fun k s h => ?_, hi.listed, fun c hc ch h s hs => ?_⟩⟩
  · simpa only [has_modify] using h
  · simpa only [Dict.keys_modify] using h
  · rw [Dict.get?_modify] at h
    split at h
    · obtain ⟨s0, h0, rfl⟩ := Option.map_eq_some_iff.1 h
      exact hF _ (hi.fit _ _ h0)
    · exact hi.fit _ _ h
  · simp only [has_modify]
    exact hi.inside c hc ch h s hs

/-- A change of a scene that is in the project. -/
theorem G.scene (r : Rd) (id : Str) (F : Novel → Scene → Scene) (n : Novel) (hF : ∀ n2, n2.languages = n.languages → F n2 = F n)
    (hp : Plain sceneFields (F n)) (hfit : ∀ s, Fit s → Fit (F n s)) : G blank (fun n => Rd.onScene { r with novel := n } id (F n)) n := by
  intro r' h
  simp only [Rd.onScene] at h
  split at h
  · rename_i hk
    cases h
    refine ⟨modify_grow hfit, fun n2 m hg hx => ?_⟩
    have hk2 : n2.scenes.has id = true := by
      rw [hx.scenes.has]
      exact hg.scenes id (by simpa only [has_modify] using hk)
    refine ⟨{ n2 with scenes := n2.scenes.modify id (F n) }, ?_, ?_⟩
    · simp only [Rd.onScene, hk2, ↓reduceIte, hF n2 hx.langs]
    · exact ⟨hx.scenes.both hk (fun a b m _ _ h => h.plain hp), hx.chapters, hx.langs, hx.code, hx.country, hx.rest⟩
  · exact nomatch h

theorem chapter_grow {n : Novel} {id : Str} {F : Chapter → Chapter} (hF : ∀ a, blank a.title = false → (F a).title = a.title)
    (hS : ∀ a, (F a).srtScenes = a.srtScenes) : Grow blank n { n with chapters := n.chapters.modify id F } := by
  refine ⟨fun k h => h, fun k a h => ?_, fun h => h, fun h => ?_, fun hi => ⟨hi.fit, fun c hc => ?_, fun c hc ch h s hs => ?_⟩⟩
  · by_cases e : id = k
    · subst e
      exact ⟨F a, by rw [Dict.get?_modify_self, h]; rfl, hF a⟩
    · exact ⟨a, by rw [Dict.get?_modify_ne _ _ e]; exact h, fun _ => rfl⟩
  · simpa only [Dict.keys_modify] using h
  · simp only [has_modify]
    exact hi.listed c hc
  · simp only at h
    rw [Dict.get?_modify] at h
    split at h
    · obtain ⟨s0, h0, rfl⟩ := Option.map_eq_some_iff.1 h
      rw [hS] at hs
      exact hi.inside c hc _ h0 s hs
    · exact hi.inside c hc ch h s hs

/-- A change of a chapter. -/
theorem G.chapter (r : Rd) (id : Str) (F : Chapter → Chapter) (n : Novel) (hF : ∀ a, blank a.title = false → (F a).title = a.title)
    (hS : ∀ a, (F a).srtScenes = a.srtScenes)
    (hR : ∀ a b m, (blank a.title = false → m.title = a.title) → ChR a b m → ChR (F a) (F b) m) :
    G blank (fun n => Rd.onChapter { r with novel := n } id F) n := by
  intro r' h
  simp only [Rd.onChapter] at h
  split at h
  · rename_i hk
    cases h
    have hg0 : Grow blank n { n with chapters := n.chapters.modify id F } := chapter_grow hF hS
    refine ⟨hg0, fun n2 m hg hx => ?_⟩
    have hg1 := hg0.trans hg
    have hk2 : n2.chapters.has id = true := by
      rw [hx.chapters.has]
      exact hg1.hasChapter hk
    refine ⟨{ n2 with chapters := n2.chapters.modify id F }, ?_, ?_⟩
    · simp only [Rd.onChapter, hk2, ↓reduceIte]
    · refine ⟨hx.scenes, hx.chapters.both hk (fun a b m' ha hm h => hR a b m' ?_ h), hx.langs, hx.code, hx.country, hx.rest⟩
      intro hb
      obtain ⟨a', ha', ht⟩ := hg1.chapters id a ha
      rw [hm] at ha'
      cases ha'
      exact ht hb
  · exact nomatch h

theorem ChR.plain {f : Chapter → Chapter} (hf : Plain chapterFields f) (hs : ∀ a, (f a).srtScenes = a.srtScenes) {a b m : Chapter} (h : ChR a b m) :
    ChR (f a) (f b) m := ⟨h.1.plain hf, by rw [hs]; exact h.2⟩

/-- The title of a chapter is set if it is blank. -/
def setTitle (blank : Option Str → Bool) (t : Str) (c : Chapter) : Chapter := if blank c.title = true then { c with title := some t } else c

theorem setTitle_rel (t : Str) (a b m : Chapter) (hm : blank a.title = false → m.title = a.title) (h : ChR a b m) :
    ChR (setTitle blank t a) (setTitle blank t b) m := by
  obtain ⟨h, hs⟩ := h
  have ht := h (fun a b => a.title = b.title) (by simp [chapterFields])
  have h1 := h (fun a b => a.desc = b.desc) (by simp [chapterFields])
  have h2 := h (fun a b => a.chType = b.chType) (by simp [chapterFields])
  have h3 := h (fun a b => ({ a with title := none, desc := none, chType := none, srtScenes := [] } : Chapter) =
     { b with title := none, desc := none, chType := none, srtScenes := [] }) (by simp [chapterFields])
  have ht' : (setTitle blank t b).title = (setTitle blank t a).title ∨ (setTitle blank t b).title = m.title := by
    rcases ht with ht | ht
    · left
      simp only [setTitle, ht]
      split
      · rfl
      · exact ht
    · simp only [setTitle, ht]
      cases ea : blank a.title with
      | false => rw [hm ea, ea]; exact .inr (by simp only [Bool.false_eq_true, ↓reduceIte]; rw [ht, hm ea])
      | true =>
        cases em : blank m.title with
        | true => exact .inl rfl
        | false => exact .inr (by simp only [Bool.false_eq_true, ↓reduceIte]; exact ht)
  have k : ∀ c : Chapter, (setTitle blank t c).desc = c.desc ∧ (setTitle blank t c).chType = c.chType ∧
      (setTitle blank t c).srtScenes = c.srtScenes ∧
      ({ setTitle blank t c with title := none, desc := none, chType := none, srtScenes := [] } : Chapter) =
        { c with title := none, desc := none, chType := none, srtScenes := [] } := by
    intro c
    unfold setTitle
    split <;> exact ⟨rfl, rfl, rfl, rfl⟩
  obtain ⟨a1, a2, _, a4⟩ := k a
  obtain ⟨b1, b2, b3, b4⟩ := k b
  refine ⟨?_, by rw [b3]; exact hs⟩
  intro E hE
  simp only [chapterFields, List.mem_cons, List.not_mem_nil, or_false] at hE
  rcases hE with rfl | rfl | rfl | rfl
  · exact ht'
  · simp only [a1, b1]; exact h1
  · simp only [a2, b2]; exact h2
  · simp only [a4, b4]; exact h3

theorem setTitle_keeps (t : Str) (a : Chapter) (h : blank a.title = false) : (setTitle blank t a).title = a.title := by
  simp only [setTitle, h, Bool.false_eq_true, ↓reduceIte]

theorem setTitle_scenes (t : Str) (a : Chapter) : (setTitle blank t a).srtScenes = a.srtScenes := by
  unfold setTitle
  split <;> rfl

/-- A title for a chapter without one. -/
theorem G.title (r : Rd) (id t : Str) (n : Novel) : G blank (fun n =>
    match n.chapters.get? id with
    | none => .error .keyError
    | some ch => if blank ch.title = true then Rd.onChapter { r with novel := n } id (fun ch => { ch with title := some t })
      else .ok { r with novel := n }) n := by
  have key : (fun n : Novel => (match n.chapters.get? id with
      | none => .error .keyError
      | some ch => if blank ch.title = true then Rd.onChapter { r with novel := n } id (fun ch => { ch with title := some t })
        else .ok { r with novel := n } : Except Exc Rd)) = fun n => Rd.onChapter { r with novel := n } id (setTitle blank t) := by
    funext n
    cases e : n.chapters.get? id with
    | none => simp only [Rd.onChapter, Dict.has, e, Option.isSome_none, Bool.false_eq_true, ↓reduceIte]
    | some ch =>
      simp only [Rd.onChapter, Dict.has, e, Option.isSome_some, ↓reduceIte]
      by_cases hb : blank ch.title = true
      · simp only [hb, ↓reduceIte]
        rw [modify_congr e (g := setTitle blank t) (by simp only [setTitle, hb, ↓reduceIte])]
      · simp only [hb, Bool.false_eq_true, ↓reduceIte]
        rw [Dict.modify_eq_self n.chapters id (setTitle blank t) (fun v hv => by rw [e] at hv; cases hv; simp only [setTitle, hb, Bool.false_eq_true, ↓reduceIte])]
  rw [key]
  exact G.chapter r id _ n (setTitle_keeps t) (setTitle_scenes t) (setTitle_rel t)

/-- A section for a scene. -/
theorem G.startScene (type : Nat) (r : Rd) (name : Str) (n : Novel) : G blank (fun n => Rd.startScene type { r with novel := n } name) n := by
  unfold Rd.startScene
  cases Rd.firstNumber name with
  | error e => exact G.error e n
  | ok id =>
    refine G.bind (f := fun n => Rd.ensureScene { r with novel := n, scId := some id } id) ?_ ?_
    · intro r' h
      simp only [Rd.ensureScene] at h
      split at h
      · rename_i hk
        cases h
        refine ⟨Grow.refl _ _, fun n2 m hg hx => ⟨n2, ?_, hx⟩⟩
        have hk2 : n2.scenes.has id = true := by
          rw [hx.scenes.has]
          exact hg.scenes id hk
        simp only [Rd.ensureScene, hk2, ↓reduceIte]
      · rename_i hk
        have hk' : n.scenes.get? id = none := by
          simp only [Dict.has, Bool.not_eq_true, Option.isSome_eq_false_iff, Option.isNone_iff_eq_none] at hk
          exact hk
        simp only [Rd.listScene] at h
        cases ec : r.chId with
        | none => simp only [ec] at h; exact nomatch h
        | some c =>
          simp only [ec, Rd.onChapter] at h
          split at h
          · cases h
            refine ⟨?_, fun n2 m hg hx => ?_⟩
            · refine ⟨fun k h => ?_, ?_, fun h => ?_, fun h => ?_, fun hi => ⟨fun k s h => ?_, fun c' hc => ?_, fun c' hc ch h s hs => ?_⟩⟩
              · simp only [Dict.has, Dict.get?_set]
                split
                · rfl
                · exact h
              · intro k a ha
                by_cases e : c = k
                · subst e
                  exact ⟨{ a with srtScenes := a.srtScenes ++ [id] }, by rw [Dict.get?_modify_self, ha]; rfl, fun _ => rfl⟩
                · exact ⟨a, by rw [Dict.get?_modify_ne _ _ e]; exact ha, fun _ => rfl⟩
              · simp only
                rw [Dict.keys_set_of_not_mem _ _ _ ((Dict.get?_eq_none_iff _ _).1 hk')]
                refine List.nodup_append.2 ⟨h, by simp, ?_⟩
                intro x hx y hy e
                simp only [List.mem_cons, List.not_mem_nil, or_false] at hy
                subst hy e
                exact (Dict.get?_eq_none_iff _ _).1 hk' hx
              · simpa only [Dict.keys_modify] using h
              · simp only [Dict.get?_set] at h
                split at h
                · cases h
                  exact nofun
                · exact hi.fit _ _ h
              · simp only [has_modify]
                exact hi.listed c' hc
              · have hin : ∀ s, n.scenes.has s = true → (n.scenes.set id ({} : Scene)).has s = true := by
                  intro s h
                  simp only [Dict.has, Dict.get?_set]
                  split
                  · rfl
                  · exact h
                simp only [Dict.get?_modify] at h
                split at h
                · obtain ⟨s0, h0, rfl⟩ := Option.map_eq_some_iff.1 h
                  simp only [List.mem_append, List.mem_cons, List.not_mem_nil, or_false] at hs
                  rcases hs with hs | rfl
                  · exact hin _ (hi.inside _ hc _ h0 s hs)
                  · simp [Dict.has]
                · exact hin _ (hi.inside _ hc _ h s hs)
            · refine ⟨n2, ?_, ?_⟩
              · have hk2 : n2.scenes.has id = true := by
                  rw [hx.scenes.has]
                  exact hg.scenes id (by simp [Dict.has])
                simp only [Rd.ensureScene, hk2, ↓reduceIte, ec]
              · refine ⟨hx.scenes.add scene_start hk' _, hx.chapters.left ?_, hx.langs, hx.code, hx.country, hx.rest⟩
                intro a b m h
                refine ⟨?_, h.2⟩
                intro E hE
                have h0 := h.1 E hE
                simp only [chapterFields, List.mem_cons, List.not_mem_nil, or_false] at hE
                rcases hE with rfl | rfl | rfl | rfl <;> exact h0
          · exact nomatch h
    · intro r' _
      refine G.scene r' id (fun _ s => { s with scType := some type }) _ (fun _ _ => rfl) ?_ (fun _ h => h)
      intro E hE
      simp only [sceneFields, List.mem_cons, List.not_mem_nil, or_false] at hE
      rcases hE with rfl | rfl | rfl | rfl | rfl | rfl | rfl <;> first | exact .inl (fun _ _ => rfl) | exact .inr (fun _ _ => ⟨Iff.rfl, Iff.rfl⟩)

/-- A section for a chapter. -/
theorem G.startChapter (type : Nat) (hb : blank none = true) (r : Rd) (name : Str) (n : Novel) :
    G blank (fun n => Rd.startChapter type { r with novel := n } name) n := by
  unfold Rd.startChapter
  cases Rd.firstNumber name with
  | error e => exact G.error e n
  | ok id =>
    refine G.bind (f := fun n => Except.ok (Rd.ensureChapter { r with novel := n, chId := some id } id))
      (k := fun r => r.onChapter id (fun ch => { ch with chType := some type })) ?_ ?_
    · intro r' h
      simp only [Rd.ensureChapter] at h
      split at h
      · rename_i hk
        cases h
        refine ⟨Grow.refl _ _, fun n2 m hg hx => ⟨n2, ?_, hx⟩⟩
        have hk2 : n2.chapters.has id = true := by
          rw [hx.chapters.has]
          exact hg.hasChapter hk
        simp only [Rd.ensureChapter, hk2, ↓reduceIte]
      · rename_i hk
        cases h
        have hk' : n.chapters.get? id = none := by
          simp only [Dict.has, Bool.not_eq_true, Option.isSome_eq_false_iff, Option.isNone_iff_eq_none] at hk
          exact hk
        refine ⟨⟨fun k h => h, ?_, fun h => h, fun h => ?_, fun hi => ⟨hi.fit, ?_, ?_⟩⟩, fun n2 m hg hx => ⟨n2, ?_, ?_⟩⟩
        · intro k a ha
          refine ⟨a, ?_, fun _ => rfl⟩
          simp only [Dict.get?_set]
          split
          · rename_i e
            subst e
            rw [hk'] at ha
            exact nomatch ha
          · exact ha
        · simp only
          rw [Dict.keys_set_of_not_mem _ _ _ ((Dict.get?_eq_none_iff _ _).1 hk')]
          refine List.nodup_append.2 ⟨h, by simp, ?_⟩
          intro x hx y hy e
          simp only [List.mem_cons, List.not_mem_nil, or_false] at hy
          subst hy e
          exact (Dict.get?_eq_none_iff _ _).1 hk' hx
        · intro c hc
          simp only [List.mem_append, List.mem_cons, List.not_mem_nil, or_false] at hc
          simp only [Dict.has, Dict.get?_set]
          split
          · rfl
          · rename_i e
            rcases hc with hc | rfl
            · exact hi.listed c hc
            · exact absurd rfl e
        · intro c hc ch h s hs
          simp only [Dict.get?_set] at h
          split at h
          · cases h
            exact nomatch hs
          · rename_i e
            simp only [List.mem_append, List.mem_cons, List.not_mem_nil, or_false] at hc
            rcases hc with hc | rfl
            · exact hi.inside c hc ch h s hs
            · exact absurd rfl e
        · have hk2 : n2.chapters.has id = true := by
            rw [hx.chapters.has]
            exact hg.hasChapter (by simp [Dict.has])
          simp only [Rd.ensureChapter, hk2, ↓reduceIte]
        · exact ⟨hx.scenes, hx.chapters.add chapter_start hk' _, hx.langs, hx.code, hx.country, hx.rest⟩
    · intro r' _
      refine G.chapter r' id (fun ch => { ch with chType := some type }) _ (fun _ _ => rfl) (fun _ => rfl) (fun a b m _ h => ChR.plain (f := fun ch => { ch with chType := some type }) ?_ (fun _ => rfl) h)
      intro E hE
      simp only [chapterFields, List.mem_cons, List.not_mem_nil, or_false] at hE
      rcases hE with rfl | rfl | rfl | rfl <;> first | exact .inl (fun _ _ => rfl) | exact .inr (fun _ _ => ⟨Iff.rfl, Iff.rfl⟩)

end
end Verif.Twice
