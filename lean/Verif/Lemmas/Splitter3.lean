/-
The chapter loop of `Splitter.split_scenes`.
-/
import Verif.Lemmas.Splitter2

namespace Verif
open Spec

/-- Invariant between two chapters. -/
structure ChInv (n : Novel) (preCh remCh : List Str) (st : SplitState) : Prop where
  core : Core n (preCh.flatMap (scenesOf n.chapters)) (remCh.flatMap (scenesOf n.chapters)) preCh remCh
    st.scenes st.chapters st.srtChapters (st.srtChapters.flatMap (scenesOf st.chapters))
  extra : SExtra n (preCh.flatMap (scenesOf n.chapters)) preCh st.scenes st.chapters st.srtChapters
    (st.srtChapters.flatMap (scenesOf st.chapters)) st.scenesSplit
  frame : ∀ c ∈ n.chapters.keys, c ∉ preCh → st.chapters.get? c = n.chapters.get? c

/-- The chapters that may have been changed while chapter `cur` is processed. -/
def ChFrame (n : Novel) (preCh : List Str) (st : SplitState) : Prop :=
  (∀ c ∈ n.chapters.keys, c ∉ preCh → st.chapters.get? c = n.chapters.get? c) ∧
  (st.chapterId ∈ preCh ∨ st.chapterId ∉ n.chapters.keys)

section
variable {n : Novel} {pre rem preCh remCh : List Str} {scId : Str} {st : SplitState}

theorem splitAtChapter_frame {t d : Str} {lv : Nat} {st' : SplitState}
    (hk : n.chapters.keys <+: st.chapters.keys)
    (h : splitAtChapter st t d lv = .ok st') (hf : ChFrame n preCh st) : ChFrame n preCh st' := by
  have key : ∀ s0 : SplitState, s0.chapters = st.chapters → s0.chapterId = st.chapterId →
      ∀ s1, storeScenes s0 = .ok s1 →
      ChFrame n preCh { s1 with srtScenes := [], chapterId := createId s1.chapters.keys, chapters := createChapter s1.chapters (createId s1.chapters.keys) t d lv, srtChapters := s1.srtChapters ++ [createId s1.chapters.keys] } := by
    intro s0 e1 e2 s1 h1
    unfold storeScenes at h1
    split at h1
    · injection h1 with h1
      subst h1
      have hnew := createId_not_mem (s0.chapters.modify s0.chapterId (fun c => { c with srtScenes := s0.srtScenes })).keys
      constructor
      · intro c hc hcp
        simp only [createChapter]
        have hne : createId (s0.chapters.modify s0.chapterId (fun c => { c with srtScenes := s0.srtScenes })).keys ≠ c := by
          intro e
          apply hnew
          rw [e, Dict.keys_modify, e1]
          exact hk.mem hc
        rw [Dict.get?_set_ne _ _ hne]
        have hne2 : s0.chapterId ≠ c := by
          rw [e2]
          rcases hf.2 with h | h
          · exact fun e => hcp (e ▸ h)
          · exact fun e => h (e ▸ hc)
        rw [Dict.get?_modify_ne _ _ hne2, e1]
        exact hf.1 c hc hcp
      · right
        intro hm
        apply hnew
        rw [Dict.keys_modify, e1] at *
        exact hk.mem hm
    · cases h1
  unfold splitAtChapter at h
  by_cases hi : st.inScene = true
  · simp only [hi, if_true] at h
    cases hs : storeLines st with
    | error e => rw [hs] at h; cases h
    | ok s2 =>
      rw [hs] at h
      have e12 : s2.chapters = st.chapters ∧ s2.chapterId = st.chapterId := by
        unfold storeLines at hs
        split at hs
        · injection hs with hs; subst hs; exact ⟨rfl, rfl⟩
        · cases hs
      simp only at h
      cases hss : storeScenes { s2 with newLines := [], splitCount := 0, inScene := false } with
      | error e => rw [hss] at h; cases h
      | ok s3 =>
        rw [hss] at h
        simp only at h
        injection h with h
        subst h
        exact key { s2 with newLines := [], splitCount := 0, inScene := false } e12.1 e12.2 s3 hss
  · simp only [hi, if_false, Bool.false_eq_true] at h
    cases hss : storeScenes st with
    | error e => rw [hss] at h; cases h
    | ok s3 =>
      rw [hss] at h
      simp only at h
      injection h with h
      subst h
      exact key st rfl rfl s3 hss

theorem storeLines_ch {s s' : SplitState} (h : storeLines s = .ok s') :
    s'.chapters = s.chapters ∧ s'.chapterId = s.chapterId := by
  unfold storeLines at h
  split at h
  · injection h with h; subst h; exact ⟨rfl, rfl⟩
  · cases h

theorem splitLine_frame {line : Str} {st' : SplitState}
    (hk : n.chapters.keys <+: st.chapters.keys)
    (h : splitLine scId st line = .ok st') (hf : ChFrame n preCh st) : ChFrame n preCh st' := by
  unfold splitLine at h
  simp only at h
  split at h
  · unfold splitAtScene at h
    cases hs : storeLines st with
    | error e => rw [hs] at h; cases h
    | ok s2 =>
      rw [hs] at h
      have := storeLines_ch hs
      simp only at h
      split at h
      · cases h
      · injection h with h; subst h
        unfold ChFrame at hf ⊢
        simp only [this.1, this.2]
        exact hf
  · split at h
    · split at h
      · cases h
      · rename_i s2 hs
        injection h with h; subst h
        have := splitAtChapter_frame hk hs hf
        exact this
    · split at h
      · exact splitAtChapter_frame hk h hf
      · split at h
        · split at h
          · cases h
          · injection h with h; subst h; exact hf
        · injection h with h; subst h; exact hf

theorem lines_frame (hk : n.chapters.keys <+: st.chapters.keys) (hl : LInv n pre rem preCh remCh scId st)
    (hf : ChFrame n preCh st) : ∀ (ls : List Str) (st' : SplitState),
      foldE (splitLine scId) st ls = .ok st' → ChFrame n preCh st' := by
  intro ls
  induction ls generalizing st with
  | nil => intro st' h; injection h with h; subst h; exact hf
  | cons l r ih =>
    intro st' h
    obtain ⟨s1, e1, h1, _⟩ := splitLine_shape hl l
    rw [foldE, e1] at h
    exact ih h1.core.chKeep h1 (splitLine_frame hk e1 hf) st' h

theorem splitScene_frame {s : Str} {rem' : List Str} {st' : SplitState}
    (hc : Core n pre (s :: rem') preCh remCh st.scenes st.chapters st.srtChapters (narr st))
    (hlast : ∃ D, st.srtChapters = D ++ [st.chapterId])
    (h : splitScene st s = .ok st') (hf : ChFrame n preCh st) : ChFrame n preCh st' := by
  unfold splitScene at h
  simp only at h
  cases hsc : st.scenes.get? s with
  | none => rw [hsc] at h; cases h
  | some sc =>
    rw [hsc] at h
    simp only at h
    cases hcon : sc.sceneContent with
    | none => rw [hcon] at h; injection h with h; subst h; exact hf
    | some t =>
      rw [hcon] at h
      cases t with
      | nil => injection h with h; subst h; exact hf
      | cons c cs =>
        simp only at h
        split at h
        · cases h
        · rename_i s2 hs2
          have hf2 : ChFrame n preCh s2 := by
            refine lines_frame (n := n) (pre := pre ++ [s]) (rem := rem') (preCh := preCh) (remCh := remCh)
              (scId := s) (st := _) ?_ ?_ ?_ _ _ hs2
            · exact hc.chKeep
            · have hn : narr { st with srtScenes := st.srtScenes ++ [s], sceneId := s, newLines := [], inScene := true, splitCount := 0 } = narr st ++ [s] := by
                simp [narr]
              refine ⟨?_, hlast, ?_, ?_, ?_, ?_⟩
              · rw [hn]
                exact { hc with
                  scNodup := by simpa using hc.scNodup
                  scIn := by simpa using hc.scIn
                  scSame := fun x hx => hc.scSame x (by simp [hx])
                  stat := by
                    intro x c hxm hg
                    exact hc.stat x c (by simpa using hxm) hg
                  splitN := by simp [hc.splitN]
                  subN := hc.subN.append (List.Sublist.refl _)
                  scNew := by
                    intro k hk
                    rcases hc.scNew k hk with h | h
                    · exact .inl h
                    · right; simp [h]
                  scOld := by
                    intro x hx hxo
                    rcases List.mem_append.1 hx with hx | hx
                    · exact List.mem_append_left _ (hc.scOld x hx hxo)
                    · simp at hx; subst hx; simp }
              · rw [hn]; simp
              · rw [hn]; simp
              · intro _; exact ⟨_, rfl⟩
              · intro hf; simp at hf
            · exact hf
          split at h
          · have := storeLines_ch h
            unfold ChFrame at hf2 ⊢
            rw [this.1, this.2]; exact hf2
          · injection h with h; subst h; exact hf2

/-- The loop over the scenes of a chapter. -/
theorem scenes_loop : ∀ (ss : List Str) (pre rem : List Str) (st : SplitState),
    Core n pre (ss ++ rem) preCh remCh st.scenes st.chapters st.srtChapters (narr st) →
    (∃ D, st.srtChapters = D ++ [st.chapterId]) →
    SExtra n pre preCh st.scenes st.chapters st.srtChapters (narr st) st.scenesSplit →
    ChFrame n preCh st →
    ∃ st', foldE splitScene st ss = .ok st' ∧
      Core n (pre ++ ss) rem preCh remCh st'.scenes st'.chapters st'.srtChapters (narr st') ∧
      (∃ D, st'.srtChapters = D ++ [st'.chapterId]) ∧
      SExtra n (pre ++ ss) preCh st'.scenes st'.chapters st'.srtChapters (narr st') st'.scenesSplit ∧
      ChFrame n preCh st' := by
  intro ss
  induction ss with
  | nil => intro pre rem st hc hl hx hf; exact ⟨st, rfl, by simpa using hc, hl, by simpa using hx, hf⟩
  | cons s r ih =>
    intro pre rem st hc hl hx hf
    obtain ⟨s1, e1, hc1, hl1, hx1⟩ := splitScene_step (rem' := r ++ rem) hc hl hx
    have hf1 := splitScene_frame hc hl e1 hf
    obtain ⟨s2, e2, hc2, hl2, hx2, hf2⟩ := ih (pre ++ [s]) rem s1 hc1 hl1 hx1 hf1
    refine ⟨s2, ?_, by simpa using hc2, hl2, by simpa using hx2, hf2⟩
    rw [foldE, e1]; exact e2

theorem splitChapter_step {c : Str} (h : ChInv n preCh (c :: remCh) st) :
    ∃ st', splitChapter st c = .ok st' ∧ ChInv n (preCh ++ [c]) remCh st' := by
  have hcin : c ∈ st.chapters.keys := h.core.chIn c (by simp)
  obtain ⟨ch, hch⟩ := (Dict.mem_keys_iff _ _).1 hcin
  have hsame : st.chapters.get? c = n.chapters.get? c := h.core.chSame c (by simp)
  have hso : scenesOf n.chapters c = ch.srtScenes := by simp [scenesOf, ← hsame, hch]
  let st1 : SplitState := { st with srtChapters := st.srtChapters ++ [c], chapterId := c, srtScenes := [] }
  have hn1 : narr st1 = st.srtChapters.flatMap (scenesOf st.chapters) := by simp [narr, st1]
  have hnotin : c ∉ preCh := by
    intro hm
    have := h.core.chNodup
    exact (List.nodup_append.1 this).2.2 c (h.core.subCh.subset hm) c (by simp) rfl
  have hc1 : Core n (preCh.flatMap (scenesOf n.chapters))
      (ch.srtScenes ++ remCh.flatMap (scenesOf n.chapters)) (preCh ++ [c]) remCh
      st1.scenes st1.chapters st1.srtChapters (narr st1) := by
    rw [hn1]
    have hrem : (c :: remCh).flatMap (scenesOf n.chapters)
        = ch.srtScenes ++ remCh.flatMap (scenesOf n.chapters) := by
      rw [List.flatMap_cons, hso]
    rw [← hrem]
    exact { h.core with
      chNodup := by simpa [st1] using h.core.chNodup
      chIn := by simpa [st1] using h.core.chIn
      chSame := fun x hx => h.core.chSame x (by simp [hx])
      splitCh := by simp [h.core.splitCh]
      subCh := h.core.subCh.append (List.Sublist.refl _)
      chNew := by
        intro k hk
        rcases h.core.chNew k hk with h | h
        · exact .inl h
        · right; simp [st1, h]
      chOld := by
        intro x hx hxo
        rcases List.mem_append.1 hx with hx | hx
        · exact List.mem_append_left _ (h.core.chOld x hx hxo)
        · simp at hx; subst hx; simp }
  have hx1 : SExtra n (preCh.flatMap (scenesOf n.chapters)) (preCh ++ [c]) st1.scenes st1.chapters
      st1.srtChapters (narr st1) st1.scenesSplit := by
    rw [hn1]
    exact { h.extra with
      flagT := by
        intro hf
        rcases h.extra.flagT hf with h | h
        · exact .inl h
        · right; simp [st1]; exact h }
  have hf1 : ChFrame n (preCh ++ [c]) st1 := by
    refine ⟨?_, .inl (by simp [st1])⟩
    intro x hx hxp
    simp at hxp
    exact h.frame x hx hxp.1
  obtain ⟨st2, e2, hc2, ⟨D, hD⟩, hx2, hf2⟩ := scenes_loop ch.srtScenes _ _ st1 hc1 ⟨_, rfl⟩ hx1 hf1
  have hcin2 : st2.chapterId ∈ st2.chapters.keys := hc2.chIn _ (by rw [hD]; simp)
  have hpre : preCh.flatMap (scenesOf n.chapters) ++ ch.srtScenes
      = (preCh ++ [c]).flatMap (scenesOf n.chapters) := by simp [hso]
  have hnd : st2.srtChapters.Nodup := (List.nodup_append.1 hc2.chNodup).1
  have hst := narr_store hD hnd hcin2
  refine ⟨{ st2 with chapters := (st2.chapters.modify st2.chapterId (fun c => { c with srtScenes := st2.srtScenes })) }, ?_, ?_⟩
  · unfold splitChapter
    simp only
    rw [hch]
    simp only
    have e2' : foldE splitScene { st with srtChapters := st.srtChapters ++ [c], chapterId := c, srtScenes := [] } ch.srtScenes = .ok st2 := e2
    rw [e2']
    exact storeScenes_eq hcin2
  · rw [hpre] at hc2 hx2
    refine ⟨?_, ?_, ?_⟩
    · show Core _ _ _ _ _ st2.scenes _ st2.srtChapters (st2.srtChapters.flatMap (scenesOf _))
      rw [hst]
      exact hc2.modifyChapter (by rw [hD]; simp)
    · show SExtra _ _ _ st2.scenes _ st2.srtChapters (st2.srtChapters.flatMap (scenesOf _)) _
      rw [hst]
      exact { hx2 with metaC := hx2.metaC.modify _ _ }
    · intro x hx hxp
      show (st2.chapters.modify st2.chapterId (fun c => { c with srtScenes := st2.srtScenes })).get? x = _
      have hne : st2.chapterId ≠ x := by
        rcases hf2.2 with h | h
        · exact fun e => hxp (e ▸ h)
        · exact fun e => h (e ▸ hx)
      rw [Dict.get?_modify_ne _ _ hne]
      exact hf2.1 x hx hxp

theorem chapters_loop : ∀ (remCh preCh : List Str) (st : SplitState), ChInv n preCh remCh st →
    ∃ st', foldE splitChapter st remCh = .ok st' ∧ ChInv n (preCh ++ remCh) [] st' := by
  intro remCh
  induction remCh with
  | nil => intro preCh st h; exact ⟨st, rfl, by simpa using h⟩
  | cons c r ih =>
    intro preCh st h
    obtain ⟨s1, e1, h1⟩ := splitChapter_step h
    obtain ⟨s2, e2, h2⟩ := ih (preCh ++ [c]) s1 h1
    exact ⟨s2, by rw [foldE, e1]; exact e2, by simpa using h2⟩

end

/-- All listed scenes have a status (the splitter compares it with a number). -/
def HasStatus (n : Novel) : Prop :=
  ∀ id ∈ narrative n, ∀ sc, n.scenes.get? id = some sc → sc.status.isSome = true

/-- Main lemma: the splitter succeeds, and the invariant holds at the end. -/
theorem splitScenes_main {n : Novel} (h : Sound n) (hs : HasStatus n) :
    ∃ st, splitScenes n = .ok ({ n with scenes := st.scenes, chapters := st.chapters, srtChapters := st.srtChapters }, st.scenesSplit)
      ∧ ChInv n n.srtChapters [] st := by
  have h0 : ChInv n [] n.srtChapters { scenes := n.scenes, chapters := n.chapters } := by
    refine ⟨?_, ?_, ?_⟩
    · exact {
        chKeys := h.chKeys, scKeys := h.scKeys
        chNodup := by simpa using h.chNodup
        chIn := by simpa using h.chIn
        chSame := fun _ _ => rfl
        scNodup := by simpa [narrative] using h.scNodup
        scIn := by simpa [narrative] using h.scIn
        scSame := fun _ _ => rfl
        stat := by
          intro s sc hm hg
          exact hs s (by simpa [narrative] using hm) sc hg
        splitN := by simp [narrative]
        subN := by simp
        splitCh := by simp
        subCh := by simp
        scKeep := List.prefix_refl _
        chKeep := List.prefix_refl _
        scNew := fun k hk => .inl hk
        chNew := fun k hk => .inl hk
        scOld := by simp
        chOld := by simp }
    · refine ⟨by simp, by simp, fun _ _ _ => rfl, fun hf => hf, by simp, by simp, ?_, ?_⟩
      · intro id sc0 h0; exact ⟨sc0, h0, .inl rfl⟩
      · intro id c0 h0; exact ⟨c0, h0, rfl⟩
    · intro c _ _; rfl
  obtain ⟨st, e, hst⟩ := chapters_loop n.srtChapters [] _ h0
  refine ⟨st, ?_, by simpa using hst⟩
  unfold splitScenes
  rw [e]

end Verif
