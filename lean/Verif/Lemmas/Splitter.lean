/-
Loop invariants of `Splitter.split_scenes`.
-/
import Verif.Model.Splitter
import Verif.Spec.Novel
import Verif.Lemmas.Globals
import Verif.Lemmas.Escape

namespace Verif
open Spec

/-- The narrative order while the loop is running: finished chapters, then the current one. -/
def narr (st : SplitState) : List Str :=
  st.srtChapters.dropLast.flatMap (scenesOf st.chapters) ++ st.srtScenes

/-- The structural invariant. `pre`/`rem` (`preCh`/`remCh`) are the processed and remaining scenes
(chapters) of the original novel, `N` is the narrative order so far. -/
structure Core (n : Novel) (pre rem preCh remCh : List Str)
    (scenes : Dict Scene) (chapters : Dict Chapter) (srt N : List Str) : Prop where
  chKeys : chapters.keys.Nodup
  scKeys : scenes.keys.Nodup
  chNodup : (srt ++ remCh).Nodup
  chIn : ∀ c ∈ srt ++ remCh, c ∈ chapters.keys
  chSame : ∀ c ∈ remCh, chapters.get? c = n.chapters.get? c
  scNodup : (N ++ rem).Nodup
  scIn : ∀ s ∈ N ++ rem, s ∈ scenes.keys
  scSame : ∀ s ∈ rem, scenes.get? s = n.scenes.get? s
  stat : ∀ s sc, s ∈ N ++ rem → scenes.get? s = some sc → sc.status.isSome = true
  splitN : narrative n = pre ++ rem
  subN : pre.Sublist N
  splitCh : n.srtChapters = preCh ++ remCh
  subCh : preCh.Sublist srt
  scKeep : n.scenes.keys <+: scenes.keys
  chKeep : n.chapters.keys <+: chapters.keys
  scNew : ∀ k ∈ scenes.keys, k ∈ n.scenes.keys ∨ k ∈ N
  chNew : ∀ k ∈ chapters.keys, k ∈ n.chapters.keys ∨ k ∈ srt
  scOld : ∀ k ∈ N, k ∈ n.scenes.keys → k ∈ pre
  chOld : ∀ k ∈ srt, k ∈ n.chapters.keys → k ∈ preCh

section
variable {n : Novel} {pre rem preCh remCh : List Str} {scenes : Dict Scene}
  {chapters : Dict Chapter} {srt N : List Str}

theorem Core.modifyScene (h : Core n pre rem preCh remCh scenes chapters srt N) {k : Str}
    {f : Scene → Scene} (hk : k ∈ N) (hf : ∀ s, s.status.isSome = true → (f s).status.isSome = true) :
    Core n pre rem preCh remCh (scenes.modify k f) chapters srt N :=
  { h with
    scKeys := by simpa using h.scKeys
    scIn := by simpa using h.scIn
    scSame := by
      intro s hs
      have hne : k ≠ s := fun e => (List.nodup_append.1 h.scNodup).2.2 k hk s hs e
      rw [Dict.get?_modify_ne _ _ hne]; exact h.scSame s hs
    stat := by
      intro s sc hs hg
      rw [Dict.get?_modify] at hg
      by_cases e : k = s
      · rw [if_pos e] at hg
        obtain ⟨v, hv, rfl⟩ := Option.map_eq_some_iff.1 hg
        exact hf v (h.stat s v hs hv)
      · rw [if_neg e] at hg; exact h.stat s sc hs hg
    scKeep := by simpa using h.scKeep
    scNew := by simpa using h.scNew }

theorem Core.addScene (h : Core n pre rem preCh remCh scenes chapters srt N) {k : Str} {sc : Scene}
    (hk : k ∉ scenes.keys) (hs : sc.status.isSome = true) :
    Core n pre rem preCh remCh (scenes.set k sc) chapters srt (N ++ [k]) := by
  have hkN : k ∉ N ++ rem := fun hm => hk (h.scIn k hm)
  have hkN' : k ∉ N ∧ k ∉ rem := by simpa using hkN
  refine { h with
    scKeys := Dict.nodup_keys_set _ _ _ h.scKeys
    scNodup := ?_
    scIn := ?_
    scSame := ?_
    stat := ?_
    subN := h.subN.trans (List.sublist_append_left _ _)
    scKeep := ?_
    scNew := ?_
    scOld := by
      intro x hx hxo
      rcases List.mem_append.1 hx with hx | hx
      · exact h.scOld x hx hxo
      · simp at hx; subst hx; exact absurd (h.scKeep.mem hxo) hk }
  · have e := h.scNodup
    rw [List.nodup_append] at e ⊢
    refine ⟨?_, e.2.1, ?_⟩
    · rw [List.nodup_append]
      refine ⟨e.1, by simp, ?_⟩
      intro a ha b hb; simp at hb; subst hb
      exact fun e => hkN'.1 (e ▸ ha)
    · intro a ha b hb
      rcases List.mem_append.1 ha with ha | ha
      · exact e.2.2 a ha b hb
      · simp at ha; subst ha
        exact fun e => hkN'.2 (e ▸ hb)
  · intro s hs
    rw [Dict.mem_keys_set]
    simp only [List.mem_append, List.mem_singleton] at hs
    rcases hs with (hs | hs) | hs
    · exact .inr (h.scIn s (by simp [hs]))
    · exact .inl hs
    · exact .inr (h.scIn s (by simp [hs]))
  · intro s hs
    have hne : k ≠ s := fun e => hkN'.2 (e ▸ hs)
    rw [Dict.get?_set_ne _ _ hne]; exact h.scSame s hs
  · intro s c hm hg
    rw [Dict.get?_set] at hg
    by_cases e : k = s
    · rw [if_pos e] at hg; simp at hg; subst hg; exact hs
    · rw [if_neg e] at hg
      refine h.stat s c ?_ hg
      simp only [List.mem_append, List.mem_singleton] at hm ⊢
      rcases hm with (hm | hm) | hm
      · exact .inl hm
      · exact absurd hm.symm e
      · exact .inr hm
  · rw [Dict.keys_set_of_not_mem _ _ _ hk]
    exact h.scKeep.trans (List.prefix_append _ _)
  · intro x hx
    rw [Dict.mem_keys_set] at hx
    rcases hx with rfl | hx
    · right; simp
    · rcases h.scNew x hx with h | h
      · exact .inl h
      · right; simp [h]

theorem Core.modifyChapter (h : Core n pre rem preCh remCh scenes chapters srt N) {k : Str}
    {f : Chapter → Chapter} (hk : k ∈ srt) :
    Core n pre rem preCh remCh scenes (chapters.modify k f) srt N :=
  { h with
    chKeys := by simpa using h.chKeys
    chIn := by simpa using h.chIn
    chSame := by
      intro s hs
      have hne : k ≠ s := fun e => (List.nodup_append.1 h.chNodup).2.2 k hk s hs e
      rw [Dict.get?_modify_ne _ _ hne]; exact h.chSame s hs
    chKeep := by simpa using h.chKeep
    chNew := by simpa using h.chNew }

theorem Core.addChapter (h : Core n pre rem preCh remCh scenes chapters srt N) {k : Str}
    {ch : Chapter} (hk : k ∉ chapters.keys) :
    Core n pre rem preCh remCh scenes (chapters.set k ch) (srt ++ [k]) N := by
  have hkN : k ∉ srt ++ remCh := fun hm => hk (h.chIn k hm)
  have hkN' : k ∉ srt ∧ k ∉ remCh := by simpa using hkN
  refine { h with
    chKeys := Dict.nodup_keys_set _ _ _ h.chKeys
    chNodup := ?_
    chIn := ?_
    chSame := ?_
    subCh := h.subCh.trans (List.sublist_append_left _ _)
    chKeep := ?_
    chNew := ?_
    chOld := by
      intro x hx hxo
      rcases List.mem_append.1 hx with hx | hx
      · exact h.chOld x hx hxo
      · simp at hx; subst hx; exact absurd (h.chKeep.mem hxo) hk }
  · have e := h.chNodup
    rw [List.nodup_append] at e ⊢
    refine ⟨?_, e.2.1, ?_⟩
    · rw [List.nodup_append]
      refine ⟨e.1, by simp, ?_⟩
      intro a ha b hb; simp at hb; subst hb
      exact fun e => hkN'.1 (e ▸ ha)
    · intro a ha b hb
      rcases List.mem_append.1 ha with ha | ha
      · exact e.2.2 a ha b hb
      · simp at ha; subst ha
        exact fun e => hkN'.2 (e ▸ hb)
  · intro s hs
    rw [Dict.mem_keys_set]
    simp only [List.mem_append, List.mem_singleton] at hs
    rcases hs with (hs | hs) | hs
    · exact .inr (h.chIn s (by simp [hs]))
    · exact .inl hs
    · exact .inr (h.chIn s (by simp [hs]))
  · intro s hs
    have hne : k ≠ s := fun e => hkN'.2 (e ▸ hs)
    rw [Dict.get?_set_ne _ _ hne]; exact h.chSame s hs
  · rw [Dict.keys_set_of_not_mem _ _ _ hk]
    exact h.chKeep.trans (List.prefix_append _ _)
  · intro x hx
    rw [Dict.mem_keys_set] at hx
    rcases hx with rfl | hx
    · right; simp
    · rcases h.chNew x hx with h | h
      · exact .inl h
      · right; simp [h]

end

/-- The invariant of the loop over the lines of scene `scId`. -/
structure LInv (n : Novel) (pre rem preCh remCh : List Str) (scId : Str) (st : SplitState) : Prop where
  core : Core n pre rem preCh remCh st.scenes st.chapters st.srtChapters (narr st)
  last : ∃ D, st.srtChapters = D ++ [st.chapterId]
  parent : scId ∈ narr st
  cur : st.sceneId ∈ narr st
  inS : st.inScene = true → ∃ l, st.srtScenes = l ++ [st.sceneId]
  outS : st.inScene = false → st.newLines = [] ∧ st.srtScenes = []

theorem scenesOf_congr {a b : Dict Chapter} {l : List Str}
    (h : ∀ c ∈ l, a.get? c = b.get? c) : l.flatMap (scenesOf a) = l.flatMap (scenesOf b) := by
  induction l with
  | nil => rfl
  | cons x xs ih =>
    simp only [List.flatMap_cons]
    rw [ih (fun c hc => h c (by simp [hc]))]
    congr 1
    simp only [scenesOf, h x (by simp)]

/-- Storing the scene list of the current chapter makes it a finished chapter. -/
theorem narr_store {st : SplitState} {D : List Str} (hD : st.srtChapters = D ++ [st.chapterId])
    (hnd : st.srtChapters.Nodup) (hin : st.chapterId ∈ st.chapters.keys) :
    st.srtChapters.flatMap
        (scenesOf (st.chapters.modify st.chapterId (fun c => { c with srtScenes := st.srtScenes })))
      = narr st := by
  rw [hD] at hnd
  have hn := (List.nodup_append.1 hnd)
  obtain ⟨v, hv⟩ := (Dict.mem_keys_iff _ _).1 hin
  unfold narr
  rw [hD, List.flatMap_append, List.dropLast_concat]
  congr 1
  · apply scenesOf_congr
    intro c hc
    have hne : st.chapterId ≠ c := fun e => hn.2.2 c hc st.chapterId (by simp) e.symm
    rw [Dict.get?_modify_ne _ _ hne]
  · simp only [List.flatMap_cons, List.flatMap_nil, List.append_nil]
    simp only [scenesOf, Dict.get?_modify_self, hv, Option.map_some]

theorem setContent_status (s : Scene) (t : Str) (h : s.status.isSome = true) :
    (s.setContent t).status.isSome = true := h

theorem markParent_status (s : Scene) (h : s.status.isSome = true) :
    (markParent s).status.isSome = true := by
  cases hs : s.status with
  | none => rw [hs] at h; simp at h
  | some v => simp [markParent, hs]

theorem newSplitScene_status (p : Scene) (k : Nat) (t d : Str) :
    (newSplitScene p k t d).status = p.status := rfl

/-- The scenes after storing the collected lines into the current scene. -/
def flushed (st : SplitState) : Dict Scene :=
  st.scenes.modify st.sceneId (fun s => s.setContent (Str.join c!"\n" st.newLines))

section
variable {n : Novel} {pre rem preCh remCh : List Str} {scId : Str} {st : SplitState}

theorem storeLines_eq (h : st.sceneId ∈ st.scenes.keys) :
    storeLines st = .ok { st with scenes := flushed st } := by
  unfold storeLines
  rw [if_pos ((Dict.has_iff _ _).2 h)]
  rfl

theorem storeScenes_eq (h : st.chapterId ∈ st.chapters.keys) :
    storeScenes st = .ok { st with
      chapters := (st.chapters.modify st.chapterId (fun c => { c with srtScenes := st.srtScenes })) } := by
  unfold storeScenes
  rw [if_pos ((Dict.has_iff _ _).2 h)]

theorem LInv.curIn (h : LInv n pre rem preCh remCh scId st) : st.sceneId ∈ st.scenes.keys :=
  h.core.scIn _ (List.mem_append_left _ h.cur)

theorem LInv.chapterIn (h : LInv n pre rem preCh remCh scId st) : st.chapterId ∈ st.chapters.keys := by
  obtain ⟨D, hD⟩ := h.last
  exact h.core.chIn _ (by rw [hD]; simp)

theorem LInv.chapterListed (h : LInv n pre rem preCh remCh scId st) :
    st.chapterId ∈ st.srtChapters := by
  obtain ⟨D, hD⟩ := h.last
  rw [hD]; simp

theorem LInv.coreFlushed (h : LInv n pre rem preCh remCh scId st) :
    Core n pre rem preCh remCh (flushed st) st.chapters st.srtChapters (narr st) :=
  h.core.modifyScene h.cur (fun s hs => setContent_status s _ hs)

theorem createScene_ok {scenes : Dict Scene} {p : Scene} (hp : scenes.get? scId = some p)
    (hs : p.status.isSome = true) (k : Str) (c : Nat) (t d : Str) :
    createScene scenes k scId c t d
      = .ok ((scenes.modify scId markParent).set k (newSplitScene (markParent p) c t d)) := by
  unfold createScene
  rw [hp]
  simp only
  rw [if_neg]
  cases hq : p.status with
  | none => rw [hq] at hs; simp at hs
  | some v => simp

/-- The `'###'` branch. -/
theorem splitAtScene_shape (h : LInv n pre rem preCh remCh scId st) (t d : Str) :
    ∃ p st', splitAtScene scId st t d = .ok st' ∧ LInv n pre rem preCh remCh scId st' ∧
      (flushed st).get? scId = some p ∧
      st'.scenes = ((flushed st).modify scId markParent).set (createId (flushed st).keys)
        (newSplitScene (markParent p) (st.splitCount + 1) t d) ∧
      st'.sceneId = createId (flushed st).keys ∧
      narr st' = narr st ++ [createId (flushed st).keys] ∧
      st'.chapters = st.chapters ∧ st'.srtChapters = st.srtChapters ∧
      st'.newLines = [] ∧ st'.inScene = true ∧ st'.scenesSplit = true := by
  have hc := h.coreFlushed
  have hpin : scId ∈ (flushed st).keys := hc.scIn _ (List.mem_append_left _ h.parent)
  obtain ⟨p, hp⟩ := (Dict.mem_keys_iff _ _).1 hpin
  have hst := hc.stat scId p (List.mem_append_left _ h.parent) hp
  let st' : SplitState :=
    { st with newLines := [], splitCount := st.splitCount + 1,
              sceneId := createId (flushed st).keys,
              scenes := ((flushed st).modify scId markParent).set (createId (flushed st).keys)
                (newSplitScene (markParent p) (st.splitCount + 1) t d),
              srtScenes := st.srtScenes ++ [createId (flushed st).keys],
              scenesSplit := true, inScene := true }
  refine ⟨p, st', ?_, ?_, hp, rfl, rfl, ?_, rfl, rfl, rfl, rfl, rfl⟩
  · unfold splitAtScene
    rw [storeLines_eq h.curIn]
    simp only
    rw [createScene_ok hp hst]
  · have hn : narr st' = narr st ++ [createId (flushed st).keys] := by
      simp [narr, st']
    refine ⟨?_, h.last, ?_, ?_, ?_, ?_⟩
    · rw [hn]
      refine (hc.modifyScene h.parent (fun s hs => markParent_status s hs)).addScene ?_ ?_
      · rw [Dict.keys_modify]; exact createId_not_mem _
      · rw [newSplitScene_status]; exact markParent_status p hst
    · rw [hn]; exact List.mem_append_left _ h.parent
    · rw [hn]; simp [st']
    · intro _; exact ⟨_, rfl⟩
    · intro hf; simp [st'] at hf
  · simp [narr, st']

/-- The `'##'` and `'#'` branches. -/
theorem splitAtChapter_shape (h : LInv n pre rem preCh remCh scId st) (t d : Str) (lv : Nat) :
    ∃ st' k, splitAtChapter st t d lv = .ok st' ∧ LInv n pre rem preCh remCh scId st' ∧
      st'.scenes = (if st.inScene then flushed st else st.scenes) ∧
      st'.sceneId = st.sceneId ∧ narr st' = narr st ∧
      k ∉ st.chapters.keys ∧
      st'.chapters = (st.chapters.modify st.chapterId (fun c => { c with srtScenes := st.srtScenes })).set k
        { title := some t, desc := some d, chLevel := some lv, chType := some 0 } ∧
      st'.srtChapters = st.srtChapters ++ [k] ∧
      st'.newLines = [] ∧ st'.inScene = false ∧ st'.scenesSplit = st.scenesSplit := by
  have hk : createId (st.chapters.modify st.chapterId
      (fun c => { c with srtScenes := st.srtScenes })).keys ∉ st.chapters.keys := by
    have := createId_not_mem (st.chapters.modify st.chapterId
      (fun c => { c with srtScenes := st.srtScenes })).keys
    rwa [Dict.keys_modify] at this ⊢
  obtain ⟨D, hD⟩ := h.last
  have hnd : st.srtChapters.Nodup := (List.nodup_append.1 h.core.chNodup).1
  generalize hK : createId (st.chapters.modify st.chapterId
      (fun c => { c with srtScenes := st.srtScenes })).keys = K at hk
  -- the resulting state
  let st' : SplitState :=
    { st with scenes := (if st.inScene then flushed st else st.scenes), newLines := [],
              splitCount := (if st.inScene then 0 else st.splitCount), inScene := false,
              srtScenes := [], chapterId := K,
              chapters := createChapter (st.chapters.modify st.chapterId
                (fun c => { c with srtScenes := st.srtScenes })) K t d lv,
              srtChapters := st.srtChapters ++ [K] }
  have hnarr : narr st' = narr st := by
    rw [← narr_store hD hnd h.chapterIn]
    simp only [narr, st', List.dropLast_concat, List.append_nil]
    apply scenesOf_congr
    intro c hc
    have hne : K ≠ c := by
      intro e; subst e
      exact hk (h.core.chIn _ (List.mem_append_left _ hc))
    simp only [createChapter]
    rw [Dict.get?_set_ne _ _ hne]
  have hscCore : Core n pre rem preCh remCh (if st.inScene then flushed st else st.scenes)
      st.chapters st.srtChapters (narr st) := by
    split
    · exact h.coreFlushed
    · exact h.core
  refine ⟨st', K, ?_, ?_, rfl, rfl, hnarr, hk, rfl, rfl, rfl, rfl, rfl⟩
  · unfold splitAtChapter
    by_cases hi : st.inScene = true
    · simp only [hi, if_true]
      rw [storeLines_eq h.curIn]
      simp only
      rw [storeScenes_eq (by exact h.chapterIn)]
      simp [st', hi, ← hK]
    · have hi' : st.inScene = false := by simpa using hi
      simp only [hi', Bool.false_eq_true, if_false]
      rw [storeScenes_eq h.chapterIn]
      simp [st', hi', ← hK, (h.outS hi').1]
  · refine ⟨?_, ⟨st.srtChapters, rfl⟩, ?_, ?_, ?_, ?_⟩
    · rw [hnarr]
      exact (hscCore.modifyChapter h.chapterListed).addChapter (by rw [Dict.keys_modify]; exact hk)
    · rw [hnarr]; exact h.parent
    · rw [hnarr]; exact h.cur
    · intro hf; simp [st'] at hf
    · intro _; exact ⟨rfl, rfl⟩

/-- What one step of the line loop does; the four alternatives are the four kinds of lines. -/
inductive Shape (scId : Str) (st : SplitState) (line : Str) (st' : SplitState) : Prop where
  | scene (p : Scene) (id : Str) (hline : isSceneHeading line = true)
      (hid : id ∉ (flushed st).keys)
      (hp : (flushed st).get? scId = some p)
      (hscenes : st'.scenes = ((flushed st).modify scId markParent).set id
        (newSplitScene (markParent p) (st.splitCount + 1) (headingOf line).1 (headingOf line).2))
      (hcur : st'.sceneId = id)
      (hnarr : narr st' = narr st ++ [id])
      (hch : st'.chapters = st.chapters) (hsrt : st'.srtChapters = st.srtChapters)
      (hnew : st'.newLines = []) (hin : st'.inScene = true) (hsp : st'.scenesSplit = true) :
      Shape scId st line st'
  | chapter (k t d : Str) (lv : Nat) (hline : isHeading line = true)
      (hline2 : isSceneHeading line = false)
      (hscenes : st'.scenes = (if st.inScene then flushed st else st.scenes))
      (hcur : st'.sceneId = st.sceneId)
      (hnarr : narr st' = narr st)
      (hk : k ∉ st.chapters.keys)
      (hch : st'.chapters = (st.chapters.modify st.chapterId
          (fun c => { c with srtScenes := st.srtScenes })).set k
        { title := some t, desc := some d, chLevel := some lv, chType := some 0 })
      (hsrt : st'.srtChapters = st.srtChapters ++ [k])
      (hnew : st'.newLines = []) (hin : st'.inScene = false)
      (hsp : st'.scenesSplit = (st.scenesSplit || Str.startsWith line c!"##")) :
      Shape scId st line st'
  | newText (p : Scene) (id : Str) (hline : isHeading line = false) (hin0 : st.inScene = false)
      (hid : id ∉ st.scenes.keys)
      (hp : st.scenes.get? scId = some p)
      (hscenes : st'.scenes = (st.scenes.modify scId markParent).set id
        (newSplitScene (markParent p) (st.splitCount + 1) [] []))
      (hcur : st'.sceneId = id)
      (hnarr : narr st' = narr st ++ [id])
      (hch : st'.chapters = st.chapters) (hsrt : st'.srtChapters = st.srtChapters)
      (hnew : st'.newLines = [line]) (hin : st'.inScene = true) (hsp : st'.scenesSplit = true) :
      Shape scId st line st'
  | text (hline : isHeading line = false) (hin0 : st.inScene = true)
      (hst : st' = { st with newLines := st.newLines ++ [line] }) :
      Shape scId st line st'

theorem isHeading_iff (l : Str) : isHeading l = Str.startsWith l c!"#" := by
  cases l with
  | nil => rfl
  | cons c cs =>
    simp only [isHeading, Str.startsWith, List.isPrefixOf, List.head?_cons, Option.some.injEq,
      Bool.and_true]
    by_cases h : c = '#'
    · simp [h]
    · simp [h, Ne.symm h]

theorem heading_of_scene {l : Str} (h : isSceneHeading l = true) : isHeading l = true := by
  cases l with
  | nil => simp [isSceneHeading, List.isPrefixOf] at h
  | cons c cs => simp [isSceneHeading, List.isPrefixOf] at h; simp [isHeading, h.1.symm]

theorem splitLine_shape (h : LInv n pre rem preCh remCh scId st) (line : Str) :
    ∃ st', splitLine scId st line = .ok st' ∧ LInv n pre rem preCh remCh scId st' ∧
      Shape scId st line st' := by
  by_cases h3 : Str.startsWith line c!"###" = true
  · obtain ⟨p, st', he, hl, hp, a1, a2, a3, a4, a5, a6, a7, a8⟩ :=
      splitAtScene_shape h (headingOf line).1 (headingOf line).2
    refine ⟨st', ?_, hl, .scene p _ h3 (createId_not_mem _) hp a1 a2 a3 a4 a5 a6 a7 a8⟩
    simp only [splitLine, h3, if_true, he]
  have h3' : Str.startsWith line c!"###" = false := by simpa using h3
  have hns : isSceneHeading line = false := h3'
  by_cases h2 : Str.startsWith line c!"##" = true
  · obtain ⟨st', k, he, hl, a1, a2, a3, a4, a5, a6, a7, a8, a9⟩ :=
      splitAtChapter_shape h (if (headingOf line).1 = [] then c!"New Chapter" else (headingOf line).1)
        (headingOf line).2 0
    have hh : isHeading line = true := by
      rw [isHeading_iff]
      have hp : c!"##" <+: line := List.isPrefixOf_iff_prefix.1 h2
      exact List.isPrefixOf_iff_prefix.2 ((List.prefix_append c!"#" c!"#").trans hp)
    refine ⟨{ st' with scenesSplit := true }, ?_, ⟨hl.core, hl.last, hl.parent, hl.cur, hl.inS, hl.outS⟩,
      .chapter k _ _ 0 hh hns a1 a2 a3 a4 a5 a6 a7 a8 (by simp [h2])⟩
    simp only [splitLine, h3', h2, if_true, he, Bool.false_eq_true, if_false]
  have h2' : Str.startsWith line c!"##" = false := by simpa using h2
  by_cases h1 : Str.startsWith line c!"#" = true
  · obtain ⟨st', k, he, hl, a1, a2, a3, a4, a5, a6, a7, a8, a9⟩ :=
      splitAtChapter_shape h (if (headingOf line).1 = [] then c!"New Part" else (headingOf line).1)
        (headingOf line).2 1
    refine ⟨st', ?_, hl, .chapter k _ _ 1 (by rw [isHeading_iff]; exact h1) hns a1 a2 a3 a4 a5 a6 a7 a8
      (by simp [h2', a9])⟩
    simp only [splitLine, h3', h2', h1, if_true, he, Bool.false_eq_true, if_false]
  have h1' : Str.startsWith line c!"#" = false := by simpa using h1
  have hh : isHeading line = false := by rw [isHeading_iff]; exact h1'
  by_cases hi : st.inScene = false
  · have hpin : scId ∈ st.scenes.keys := h.core.scIn _ (List.mem_append_left _ h.parent)
    obtain ⟨p, hp⟩ := (Dict.mem_keys_iff _ _).1 hpin
    have hst := h.core.stat scId p (List.mem_append_left _ h.parent) hp
    let st' : SplitState :=
      { st with newLines := st.newLines ++ [line], splitCount := st.splitCount + 1,
                sceneId := createId st.scenes.keys,
                scenes := (st.scenes.modify scId markParent).set (createId st.scenes.keys)
                  (newSplitScene (markParent p) (st.splitCount + 1) [] []),
                srtScenes := st.srtScenes ++ [createId st.scenes.keys],
                scenesSplit := true, inScene := true }
    have hn : narr st' = narr st ++ [createId st.scenes.keys] := by simp [narr, st']
    refine ⟨st', ?_, ?_, .newText p (createId st.scenes.keys) hh hi (createId_not_mem _) hp rfl rfl
      hn rfl rfl (by simp [st', (h.outS hi).1]) rfl rfl⟩
    · simp only [splitLine, h3', h2', h1', hi, if_true, Bool.false_eq_true, if_false,
        createScene_ok hp hst]
      rfl
    · refine ⟨?_, h.last, ?_, ?_, ?_, ?_⟩
      · rw [hn]
        refine (h.core.modifyScene h.parent (fun s hs => markParent_status s hs)).addScene ?_ ?_
        · rw [Dict.keys_modify]; exact createId_not_mem _
        · rw [newSplitScene_status]; exact markParent_status p hst
      · rw [hn]; exact List.mem_append_left _ h.parent
      · rw [hn]; simp [st']
      · intro _; exact ⟨_, rfl⟩
      · intro hf; simp [st'] at hf
  · have hi' : st.inScene = true := by simpa using hi
    refine ⟨{ st with newLines := st.newLines ++ [line] }, ?_,
      ⟨h.core, h.last, h.parent, h.cur, h.inS, ?_⟩, .text hh hi' rfl⟩
    · simp only [splitLine, h3', h2', h1', hi', Bool.false_eq_true, if_false, Bool.true_eq_false]
    · intro hf; simp [hi'] at hf

end
end Verif
