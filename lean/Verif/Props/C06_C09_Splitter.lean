/-
C06-C09: splitting scenes at heading lines.
-/
import Verif.Lemmas.Splitter4

namespace Verif
open Spec

/-! ### A non-trivial example novel, used to show that the hypotheses can be met. -/

def exScene (t : Str) : Scene := ({ title := some c!"S", desc := some c!"d", status := some 4 } : Scene).setContent t

/-- Two chapters, three scenes, one of them with chapter and scene headings. -/
def exNovel : Novel :=
  { chapters := [(c!"1", { title := some c!"A", srtScenes := [c!"1", c!"2"] }),
                 (c!"2", { title := some c!"B", srtScenes := [c!"3"] })]
    scenes := [(c!"1", exScene c!"a\n### s|x\nb\n\n## c\nc\nd"), (c!"2", exScene c!"e"),
               (c!"3", exScene c!"f\n# p\ng")]
    srtChapters := [c!"1", c!"2"] }

theorem exNovel_sound : Sound exNovel :=
  ⟨by decide, by decide, by decide, by decide, by decide, by decide⟩

theorem exNovel_status : HasStatus exNovel := by
  unfold HasStatus
  intro id hid sc hsc
  have hn : narrative exNovel = [c!"1", c!"2", c!"3"] := by decide
  rw [hn] at hid
  simp only [List.mem_cons, List.not_mem_nil, or_false] at hid
  rcases hid with rfl | rfl | rfl <;> (injection hsc with hsc; subst hsc; rfl)

/-- A decidable form of `SafeHeadings`. -/
def safeB : List Str → Bool
  | a :: b :: r => (!(isHeading a && !isSceneHeading a && isSceneHeading b)) && safeB (b :: r)
  | _ => true

theorem safeB_sound : ∀ (l : List Str), safeB l = true → ∀ a b l₁ l₂, l = l₁ ++ a :: b :: l₂ →
    isHeading a = true → isSceneHeading a = false → isSceneHeading b = false
  | [], _, a, b, l₁, l₂, e, _, _ => by simp at e
  | [x], _, a, b, l₁, l₂, e, _, _ => by cases l₁ <;> simp at e
  | x :: y :: r, h, a, b, l₁, l₂, e, h1, h2 => by
    simp only [safeB, Bool.and_eq_true] at h
    cases l₁ with
    | nil =>
      simp only [List.nil_append, List.cons.injEq] at e
      obtain ⟨rfl, rfl, rfl⟩ := e
      simpa [h1, h2] using h.1
    | cons z zs =>
      simp only [List.cons_append, List.cons.injEq] at e
      exact safeB_sound (y :: r) h.2 a b zs l₂ e.2 h1 h2

theorem exNovel_safe : SafeNovel exNovel := by
  intro id hid
  have hn : narrative exNovel = [c!"1", c!"2", c!"3"] := by decide
  rw [hn] at hid
  intro a b l1 l2 e
  refine safeB_sound _ ?_ a b l1 l2 e
  simp only [List.mem_cons, List.not_mem_nil, or_false] at hid
  rcases hid with rfl | rfl | rfl <;> decide

theorem exNovel_fit : CountsFit exNovel := by
  intro id sc t h1 h2
  have hm : id ∈ exNovel.scenes.keys := (Dict.mem_keys_iff _ _).2 ⟨_, h1⟩
  have hk : exNovel.scenes.keys = [c!"1", c!"2", c!"3"] := by decide
  rw [hk] at hm
  simp only [List.mem_cons, List.not_mem_nil, or_false] at hm
  rcases hm with rfl | rfl | rfl <;>
    (injection h1 with h1; subst h1; injection h2 with h2; subst h2; exact ⟨rfl, rfl⟩)

/-! ### C06 -/

/-- A novel with one scene `text / ## Ch / ### Sc`. -/
def lossyNovel : Novel :=
  { chapters := [(c!"1", { title := some c!"A", srtScenes := [c!"1"] })]
    scenes := [(c!"1", exScene c!"text\n## Ch\n### Sc\nmore")]
    srtChapters := [c!"1"] }

/-- The full statement of C06: the text of every sound novel is kept. -/
def C06_statement : Prop := ∀ n n' b, Sound n → HasStatus n → splitScenes n = .ok (n', b) →
  novelText n' = novelText n

/-- The full statement is false of the code: if a scene heading directly follows a chapter or part
heading, the text before them is overwritten with the empty text. -/
theorem C06_false : ¬ C06_statement := by
  intro h
  have h1 : Sound lossyNovel := ⟨by decide, by decide, by decide, by decide, by decide, by decide⟩
  have h2 : HasStatus lossyNovel := by
    intro id hid sc hsc
    have hn : narrative lossyNovel = [c!"1"] := by decide
    rw [hn] at hid
    simp only [List.mem_cons, List.not_mem_nil, or_false] at hid
    subst hid
    injection hsc with hsc; subst hsc; rfl
  have h3 : novelText lossyNovel = [c!"text", c!"more"] := by decide
  have h4 : (match splitScenes lossyNovel with
    | .ok (n', _) => novelText n'
    | .error _ => []) = [c!"more"] := by decide
  obtain ⟨st, e, _⟩ := splitScenes_main h1 h2
  have := h lossyNovel _ _ h1 h2 e
  rw [e] at h4
  simp only at h4
  rw [this, h3] at h4
  exact absurd h4 (by decide)

/-- What holds: if no scene heading directly follows a chapter or part heading in a listed scene,
then no text line is lost, added, changed or reordered. Missing from the full statement: the other
novels, for which it is false (`C06_false`). -/
theorem C06_no_text_lost_partial (n : Novel) (h : Sound n) (hs : HasStatus n) (hsafe : SafeNovel n) :
    ∃ n' b, splitScenes n = .ok (n', b) ∧ novelText n' = novelText n := by
  obtain ⟨st, e, hi⟩ := splitScenes_main h hs
  exact ⟨_, _, e, hi.extra.text hsafe⟩

example : ∃ n' b, splitScenes exNovel = .ok (n', b) ∧
    novelText n' = [c!"a", c!"b", c!"c", c!"d", c!"e", c!"f", c!"g"] := by
  obtain ⟨n', b, e, ht⟩ := C06_no_text_lost_partial exNovel exNovel_sound exNovel_status exNovel_safe
  exact ⟨n', b, e, ht.trans (by decide)⟩

/-! ### C07 -/

/-- The structure of a novel: the listed chapters with their listed scenes. -/
def structureOf (n : Novel) : List (Str × List Str) :=
  n.srtChapters.map (fun c => (c, scenesOf n.chapters c))

/-- The full statement of C07. -/
def C07_statement : Prop := ∀ n n' b, Sound n → HasStatus n → splitScenes n = .ok (n', b) →
  (b = true ↔ structureOf n' ≠ structureOf n)

/-- A novel whose only scene is followed by a part heading. -/
def partNovel : Novel :=
  { chapters := [(c!"1", { title := some c!"A", srtScenes := [c!"1"] })]
    scenes := [(c!"1", exScene c!"text\n# Part")]
    srtChapters := [c!"1"] }

/-- The full statement is false of the code: a new part at the end of a scene is not reported. -/
theorem C07_false : ¬ C07_statement := by
  intro h
  have h1 : Sound partNovel := ⟨by decide, by decide, by decide, by decide, by decide, by decide⟩
  have h2 : HasStatus partNovel := by
    intro id hid sc hsc
    have hn : narrative partNovel = [c!"1"] := by decide
    rw [hn] at hid
    simp only [List.mem_cons, List.not_mem_nil, or_false] at hid
    subst hid
    injection hsc with hsc; subst hsc; rfl
  obtain ⟨st, e, _⟩ := splitScenes_main h1 h2
  have h4 : (match splitScenes partNovel with
    | .ok (n', b) => (structureOf n', b)
    | .error _ => ([], true)) = ([(c!"1", [c!"1"]), (c!"2", [])], false) := by decide
  have := h partNovel _ _ h1 h2 e
  rw [e] at h4
  simp only [Prod.mk.injEq] at h4
  rw [h4.2] at this
  have h5 : structureOf partNovel = [(c!"1", [c!"1"])] := by decide
  have h6 := this.2 (by rw [h4.1, h5]; decide)
  exact absurd h6 (by simp)

/-- What holds: `True` is returned only if a chapter or a scene was added (so the structure has
changed), and `False` only if no scene was added and no listed scene has a line starting with `##`.
Missing from the full statement: after `False` the chapter structure may have changed by `#` lines. -/
theorem C07_flag_partial (n : Novel) (h : Sound n) (hs : HasStatus n) :
    ∃ n' b, splitScenes n = .ok (n', b) ∧
      (b = true → structureOf n' ≠ structureOf n ∧
        ((narrative n).length < (narrative n').length ∨ n.srtChapters.length < n'.srtChapters.length)) ∧
      (b = false → narrative n' = narrative n ∧
        ∀ id ∈ narrative n, ∀ l ∈ linesOf (textOf n.scenes id), ¬ c!"##" <+: l) := by
  obtain ⟨st, e, hi⟩ := splitScenes_main h hs
  have hlen : st.scenesSplit = true → (narrative n).length < ((st.srtChapters.flatMap (scenesOf st.chapters))).length
      ∨ n.srtChapters.length < st.srtChapters.length := hi.extra.flagT
  refine ⟨_, _, e, fun hb => ⟨?_, hlen hb⟩, fun hb => ?_⟩
  · intro heq
    have key : ∀ m : Novel, narrative m = (structureOf m).flatMap (·.2) := by
      intro m
      simp only [narrative, structureOf]
      rw [List.flatMap_map]
    have key2 : ∀ m : Novel, m.srtChapters = (structureOf m).map (·.1) := by
      intro m
      simp only [structureOf, List.map_map]
      exact (List.map_id' _).symm
    rcases hlen hb with hl | hl
    · exfalso
      have := congrArg (fun x => (x.flatMap (·.2)).length) heq
      simp only [← key] at this
      exact absurd (this ▸ hl) (Nat.lt_irrefl _)
    · have := congrArg (fun x => (x.map (·.1)).length) heq
      simp only [← key2] at this
      omega
  · obtain ⟨a, b⟩ := hi.extra.flagF hb
    refine ⟨a, ?_⟩
    intro id hid l hl hp
    have := b id hid l hl
    unfold Str.startsWith at this
    rw [List.isPrefixOf_iff_prefix.2 hp] at this
    exact absurd this (by simp)

example : (∃ n', splitScenes exNovel = .ok (n', true)) ∧ (∃ n', splitScenes partNovel = .ok (n', false)) := by
  constructor
  · obtain ⟨st, e, _⟩ := splitScenes_main exNovel_sound exNovel_status
    have h4 : (match splitScenes exNovel with | .ok (_, b) => b | .error _ => false) = true := by decide
    rw [e] at h4
    simp only at h4
    rw [h4] at e
    exact ⟨_, e⟩
  · exact ⟨_, rfl⟩

/-! ### C08 -/

/-- A metadata text after splitting: unchanged, or marked with `(!)` in front. -/
def WarnedText (old new : Option Str) : Prop :=
  new = old ∨ ∃ t, old = some t ∧ t ≠ [] ∧ new = some (c!"(!)" ++ t)

theorem warned_mark (o : Option Str) : WarnedText o (markWarning o) := by
  cases o with
  | none => exact .inl rfl
  | some t =>
    cases t with
    | nil => exact .inl rfl
    | cons c cs =>
      by_cases hw : Str.startsWith (c :: cs) c!"(!)" = true
      · left; unfold markWarning; simp only [hw, if_true]
      · right; refine ⟨_, rfl, by simp, ?_⟩
        unfold markWarning; simp only [hw, if_false, Bool.false_eq_true]

/-- Splitting a sound novel succeeds and keeps it sound; nothing else in the novel changes. -/
theorem C08_sound (n : Novel) (h : Sound n) (hs : HasStatus n) :
    ∃ n' b, splitScenes n = .ok (n', b) ∧ Sound n' ∧ HasStatus n' ∧
      { n' with scenes := n.scenes, chapters := n.chapters, srtChapters := n.srtChapters } = n := by
  obtain ⟨st, e, hi⟩ := splitScenes_main h hs
  have hc := hi.core
  refine ⟨_, _, e, ⟨hc.chKeys, hc.scKeys, by simpa using hc.chNodup, by simpa using hc.chIn,
    (List.nodup_append.1 hc.scNodup).1, fun s hm => hc.scIn s (List.mem_append_left _ hm)⟩, ?_, rfl⟩
  intro id hid sc hg
  exact hc.stat id sc (List.mem_append_left _ hid) hg

/-- Every old chapter and scene still exists under its ID, and the listed ones keep their relative
order. Every new ID is listed (exactly once, by `C08_sound`) and distinct from all old IDs; no
old chapter or scene that was not listed gets listed. -/
theorem C08_structure (n n' : Novel) (b : Bool) (h : Sound n) (hs : HasStatus n)
    (hr : splitScenes n = .ok (n', b)) :
    n.chapters.keys <+: n'.chapters.keys ∧ n.scenes.keys <+: n'.scenes.keys ∧
    n.srtChapters.Sublist n'.srtChapters ∧ (narrative n).Sublist (narrative n') ∧
    (∀ k ∈ n'.scenes.keys, k ∉ n.scenes.keys → k ∈ narrative n') ∧
    (∀ k ∈ n'.chapters.keys, k ∉ n.chapters.keys → k ∈ n'.srtChapters) ∧
    (∀ k ∈ narrative n', k ∈ n.scenes.keys → k ∈ narrative n) ∧
    (∀ k ∈ n'.srtChapters, k ∈ n.chapters.keys → k ∈ n.srtChapters) := by
  obtain ⟨st, e, hi⟩ := splitScenes_main h hs
  rw [e] at hr
  injection hr with hr
  obtain ⟨rfl, rfl⟩ := Prod.mk.inj hr
  have hc := hi.core
  refine ⟨hc.chKeep, hc.scKeep, hc.subCh, hc.subN, ?_, ?_, hc.scOld, hc.chOld⟩
  · intro k hk hn
    exact (hc.scNew k hk).resolve_left hn
  · intro k hk hn
    exact (hc.chNew k hk).resolve_left hn

/-- If every scene was listed in exactly one chapter before, so it is afterwards. -/
theorem C08_all_listed (n n' : Novel) (b : Bool) (h : Sound n) (hs : HasStatus n)
    (hall : ∀ k ∈ n.scenes.keys, k ∈ narrative n) (hr : splitScenes n = .ok (n', b)) :
    ∀ k ∈ n'.scenes.keys, (narrative n').count k = 1 := by
  have hst := C08_structure n n' b h hs hr
  obtain ⟨n2, b2, e2, hs2, _⟩ := C08_sound n h hs
  rw [hr] at e2
  injection e2 with e2
  obtain ⟨rfl, rfl⟩ := Prod.mk.inj e2
  intro k hk
  have hm : k ∈ narrative n' := by
    by_cases ho : k ∈ n.scenes.keys
    · exact hst.2.2.2.1.subset (hall k ho)
    · exact hst.2.2.2.2.1 k hk ho
  rw [hs2.scNodup.count, if_pos hm]

/-- Old scenes keep all attributes except their text (with the counts); the description, goal,
conflict and outcome of a divided scene may get a warning mark, and its status may be lowered to 2.
Old chapters keep all attributes except the scene list. -/
theorem C08_metadata (n n' : Novel) (b : Bool) (h : Sound n) (hs : HasStatus n)
    (hr : splitScenes n = .ok (n', b)) :
    (∀ id sc, n.scenes.get? id = some sc → ∃ sc', n'.scenes.get? id = some sc' ∧
      { sc' with sceneContent := sc.sceneContent, wordCount := sc.wordCount, letterCount := sc.letterCount, desc := sc.desc, goal := sc.goal, conflict := sc.conflict, outcome := sc.outcome, status := sc.status } = sc ∧
      WarnedText sc.desc sc'.desc ∧ WarnedText sc.goal sc'.goal ∧
      WarnedText sc.conflict sc'.conflict ∧ WarnedText sc.outcome sc'.outcome ∧
      (sc'.status = sc.status ∨ (∃ v, sc.status = some v ∧ v > 2 ∧ sc'.status = some 2))) ∧
    (∀ id ch, n.chapters.get? id = some ch → ∃ ch', n'.chapters.get? id = some ch' ∧
      { ch' with srtScenes := ch.srtScenes } = ch ∧ (id ∉ n.srtChapters → ch' = ch)) := by
  obtain ⟨st, e, hi⟩ := splitScenes_main h hs
  rw [e] at hr
  injection hr with hr
  obtain ⟨rfl, rfl⟩ := Prod.mk.inj hr
  constructor
  · intro id sc hsc
    obtain ⟨sc', h1, h2⟩ := hi.extra.metaS id sc hsc
    refine ⟨sc', h1, ?_⟩
    rcases h2 with h2 | h2
    · unfold restore at h2
      have f1 := congrArg Scene.desc h2
      have f2 := congrArg Scene.goal h2
      have f3 := congrArg Scene.conflict h2
      have f4 := congrArg Scene.outcome h2
      have f5 := congrArg Scene.status h2
      simp only at f1 f2 f3 f4 f5
      refine ⟨?_, .inl f1, .inl f2, .inl f3, .inl f4, .inl f5⟩
      rw [← f1, ← f2, ← f3, ← f4, ← f5]
      exact h2
    · unfold restore at h2
      have f1 := congrArg Scene.desc h2
      have f2 := congrArg Scene.goal h2
      have f3 := congrArg Scene.conflict h2
      have f4 := congrArg Scene.outcome h2
      have f5 := congrArg Scene.status h2
      simp only [markParent] at f1 f2 f3 f4 f5
      refine ⟨?_, ?_, ?_, ?_, ?_, ?_⟩
      · have := congrArg (fun x : Scene => { x with desc := sc.desc, goal := sc.goal, conflict := sc.conflict, outcome := sc.outcome, status := sc.status }) h2
        exact this
      · rw [f1]; exact warned_mark _
      · rw [f2]; exact warned_mark _
      · rw [f3]; exact warned_mark _
      · rw [f4]; exact warned_mark _
      · rw [f5]
        cases hv : sc.status with
        | none => exact .inl rfl
        | some v =>
          by_cases hv2 : v > 2
          · right; exact ⟨v, rfl, hv2, by simp [hv2]⟩
          · left; simp [hv2]
  · intro id ch hch
    obtain ⟨ch', h1, h2⟩ := hi.extra.metaC id ch hch
    refine ⟨ch', h1, h2, ?_⟩
    intro hnl
    have := hi.frame id ((Dict.mem_keys_iff _ _).2 ⟨_, hch⟩) hnl
    rw [h1, hch] at this
    injection this

example : ∃ n' b, splitScenes exNovel = .ok (n', b) ∧ n'.srtChapters = [c!"1", c!"3", c!"2", c!"4"] ∧
    narrative n' = [c!"1", c!"4", c!"5", c!"2", c!"3", c!"6"] := ⟨_, _, rfl, by decide, by decide⟩

/-! ### C09 -/

/-- A scene without heading lines, and any scene that is not listed in a listed chapter, keeps its
text and all metadata. -/
theorem C09_undivided_kept (n n' : Novel) (b : Bool) (h : Sound n) (hs : HasStatus n) (hf : CountsFit n)
    (hr : splitScenes n = .ok (n', b)) (id : Str) (hid : id ∈ n.scenes.keys)
    (hq : (∀ l ∈ linesOf (textOf n.scenes id), l.head? ≠ some '#') ∨ id ∉ narrative n) :
    n'.scenes.get? id = n.scenes.get? id := by
  obtain ⟨st, e, hi⟩ := splitScenes_main h hs
  rw [e] at hr
  injection hr with hr
  obtain ⟨rfl, rfl⟩ := Prod.mk.inj hr
  refine hi.extra.frame id hid ?_
  rcases hq with hq | hq
  · right
    refine ⟨?_, hf⟩
    unfold hasHeading
    rw [List.any_eq_false]
    intro l hl
    simpa [isHeading] using hq l hl
  · exact .inl hq

/-- If no listed scene has a heading line, nothing at all changes, and `False` is returned. -/
theorem C09_nothing_to_do (n : Novel) (hf : CountsFit n)
    (hc : ∀ c ∈ n.srtChapters, c ∈ n.chapters.keys) (hs : ∀ s ∈ narrative n, s ∈ n.scenes.keys)
    (hh : ∀ s ∈ narrative n, ∀ l ∈ linesOf (textOf n.scenes s), l.head? ≠ some '#') :
    splitScenes n = .ok (n, false) := by
  refine splitScenes_quiet hf hc hs ?_
  intro s hm
  unfold hasHeading
  rw [List.any_eq_false]
  intro l hl
  simpa [isHeading] using hh s hm l hl

/-- Afterwards no listed scene has a heading line; the counts still fit. -/
theorem C09_no_heading_left (n n' : Novel) (b : Bool) (h : Sound n) (hs : HasStatus n)
    (hr : splitScenes n = .ok (n', b)) :
    (∀ s ∈ narrative n', ∀ l ∈ linesOf (textOf n'.scenes s), l.head? ≠ some '#') ∧
    (CountsFit n → CountsFit n') := by
  obtain ⟨st, e, hi⟩ := splitScenes_main h hs
  rw [e] at hr
  injection hr with hr
  obtain ⟨rfl, rfl⟩ := Prod.mk.inj hr
  refine ⟨?_, hi.extra.fit⟩
  intro s hm l hl
  have := hi.extra.head s hm
  unfold hasHeading at this
  have := List.any_eq_false.1 this l hl
  simpa [isHeading] using this

/-- Hence splitting once more changes nothing. -/
theorem C09_final (n n' : Novel) (b : Bool) (h : Sound n) (hs : HasStatus n) (hf : CountsFit n)
    (hr : splitScenes n = .ok (n', b)) : splitScenes n' = .ok (n', false) := by
  obtain ⟨n2, b2, e2, hs2, _⟩ := C08_sound n h hs
  rw [hr] at e2
  injection e2 with e2
  obtain ⟨rfl, rfl⟩ := Prod.mk.inj e2
  have := C09_no_heading_left n n' b h hs hr
  exact C09_nothing_to_do n' (this.2 hf) hs2.chIn hs2.scIn this.1

example : ∃ n', splitScenes exNovel = .ok (n', true) ∧ n' ≠ exNovel ∧ splitScenes n' = .ok (n', false) := by
  refine ⟨_, rfl, by decide, ?_⟩
  exact C09_final exNovel _ _ exNovel_sound exNovel_status exNovel_fit rfl

end Verif
