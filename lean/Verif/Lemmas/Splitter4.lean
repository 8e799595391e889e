/-
The splitter on novels without heading lines.
-/
import Verif.Lemmas.Splitter3

namespace Verif
open Spec

theorem lines_quiet (scId : Str) : ∀ (ls : List Str) (st : SplitState), st.inScene = true →
    (∀ l ∈ ls, isHeading l = false) →
    foldE (splitLine scId) st ls = .ok { st with newLines := st.newLines ++ ls } := by
  intro ls
  induction ls with
  | nil => intro st _ _; simp [foldE]
  | cons l r ih =>
    intro st hi hl
    have h0 : isHeading l = false := hl l (by simp)
    have h1 : Str.startsWith l c!"#" = false := by rw [← isHeading_iff]; exact h0
    have hx : ∀ p : Str, c!"#" <+: p → Str.startsWith l p = false := by
      intro p hp
      cases hb : Str.startsWith l p with
      | false => rfl
      | true =>
        have := List.isPrefixOf_iff_prefix.2 (hp.trans (List.isPrefixOf_iff_prefix.1 hb))
        unfold Str.startsWith at h1
        rw [this] at h1; exact absurd h1 (by simp)
    have h2 := hx c!"##" ⟨c!"#", rfl⟩
    have h3 := hx c!"###" ⟨c!"##", rfl⟩
    rw [foldE]
    have e : splitLine scId st l = .ok { st with newLines := st.newLines ++ [l] } := by
      simp only [splitLine, h1, h2, h3, hi, Bool.false_eq_true, if_false, Bool.true_eq_false]
    rw [e]
    simp only
    rw [ih { st with newLines := st.newLines ++ [l] } hi (fun x hx => hl x (by simp [hx]))]
    simp

theorem scene_quiet {n : Novel} (hf : CountsFit n) {st : SplitState} {s : Str}
    (hs : st.scenes = n.scenes) (hk : s ∈ n.scenes.keys)
    (hh : hasHeading (textOf n.scenes s) = false) :
    ∃ st', splitScene st s = .ok st' ∧ st'.scenes = n.scenes ∧ st'.chapters = st.chapters ∧
      st'.srtChapters = st.srtChapters ∧ st'.chapterId = st.chapterId ∧
      st'.srtScenes = st.srtScenes ++ [s] ∧ st'.scenesSplit = st.scenesSplit := by
  obtain ⟨sc, hsc⟩ := (Dict.mem_keys_iff _ _).1 hk
  have hsc' : st.scenes.get? s = some sc := by rw [hs, hsc]
  unfold splitScene
  simp only [hsc']
  cases hcon : sc.sceneContent with
  | none => exact ⟨_, rfl, hs, rfl, rfl, rfl, rfl, rfl⟩
  | some t =>
    cases t with
    | nil => exact ⟨_, rfl, hs, rfl, rfl, rfl, rfl, rfl⟩
    | cons c cs =>
      have hte : textOf n.scenes s = c :: cs := by unfold textOf; rw [hsc]; simp [hcon]
      simp only
      rw [lines_quiet s _ _ rfl]
      · simp only [if_true, List.nil_append]
        rw [storeLines_eq (by simp [hs, hk])]
        refine ⟨_, rfl, ?_, rfl, rfl, rfl, rfl, rfl⟩
        simp only [flushed]
        rw [hs]
        apply Dict.modify_eq_self
        intro v hv
        rw [hsc] at hv
        injection hv with hv; subst hv
        have e : Str.join c!"\n" (Str.split (c :: cs) c!"\n") = c :: cs := join_linesOf _
        rw [e]
        have := hf s sc _ hsc hcon
        unfold Scene.setContent
        rw [← hcon, ← this.1, ← this.2]
      · intro l hl
        rw [hte] at hh
        unfold hasHeading at hh
        have := List.any_eq_false.1 hh l hl
        simpa using this

theorem scenes_quiet {n : Novel} (hf : CountsFit n) : ∀ (ss : List Str) (st : SplitState),
    st.scenes = n.scenes → (∀ s ∈ ss, s ∈ n.scenes.keys ∧ hasHeading (textOf n.scenes s) = false) →
    ∃ st', foldE splitScene st ss = .ok st' ∧ st'.scenes = n.scenes ∧ st'.chapters = st.chapters ∧
      st'.srtChapters = st.srtChapters ∧ st'.chapterId = st.chapterId ∧
      st'.srtScenes = st.srtScenes ++ ss ∧ st'.scenesSplit = st.scenesSplit := by
  intro ss
  induction ss with
  | nil => intro st hs _; exact ⟨st, rfl, hs, rfl, rfl, rfl, by simp, rfl⟩
  | cons s r ih =>
    intro st hs h
    obtain ⟨s1, e1, a1, a2, a3, a4, a5, a6⟩ := scene_quiet hf hs (h s (by simp)).1 (h s (by simp)).2
    obtain ⟨s2, e2, b1, b2, b3, b4, b5, b6⟩ := ih s1 a1 (fun x hx => h x (by simp [hx]))
    exact ⟨s2, by rw [foldE, e1]; exact e2, b1, b2.trans a2, b3.trans a3, b4.trans a4,
      by rw [b5, a5]; simp, b6.trans a6⟩

theorem chapters_quiet {n : Novel} (hf : CountsFit n) : ∀ (cs : List Str) (st : SplitState),
    st.scenes = n.scenes → st.chapters = n.chapters → (∀ c ∈ cs, c ∈ n.chapters.keys) →
    (∀ s ∈ cs.flatMap (scenesOf n.chapters), s ∈ n.scenes.keys ∧ hasHeading (textOf n.scenes s) = false) →
    ∃ st', foldE splitChapter st cs = .ok st' ∧ st'.scenes = n.scenes ∧ st'.chapters = n.chapters ∧
      st'.srtChapters = st.srtChapters ++ cs ∧ st'.scenesSplit = st.scenesSplit := by
  intro cs
  induction cs with
  | nil => intro st h1 h2 _ _; exact ⟨st, rfl, h1, h2, by simp, rfl⟩
  | cons c r ih =>
    intro st h1 h2 hc hs
    obtain ⟨ch, hch⟩ := (Dict.mem_keys_iff _ _).1 (hc c (by simp))
    have hso : scenesOf n.chapters c = ch.srtScenes := by simp [scenesOf, hch]
    obtain ⟨s1, e1, a1, a2, a3, a4, a5, a6⟩ := scenes_quiet hf ch.srtScenes
      { st with srtChapters := st.srtChapters ++ [c], chapterId := c, srtScenes := [] } h1
      (fun s hs' => hs s (by simp [hso, hs']))
    simp only [List.nil_append] at a5
    have hst : splitChapter st c = .ok { s1 with chapters := n.chapters } := by
      unfold splitChapter
      simp only [h2, hch]
      simp only [h2] at e1
      rw [e1]
      simp only
      rw [storeScenes_eq (by rw [a2, a4, h2]; exact hc c (by simp))]
      rw [a2, a4, h2]
      congr 2
      apply Dict.modify_eq_self
      intro v hv
      rw [hch] at hv; injection hv with hv; subst hv
      rw [a5]
    obtain ⟨s2, e2, b1, b2, b3, b4⟩ := ih { s1 with chapters := n.chapters } a1 rfl
      (fun x hx => hc x (by simp [hx])) (fun x hx => hs x (by simp [List.flatMap_cons, List.mem_append.2 (.inr hx)]))
    refine ⟨s2, by rw [foldE, hst]; exact e2, b1, b2, ?_, ?_⟩
    · rw [b3, a3]; simp
    · rw [b4, a6]

theorem splitScenes_quiet {n : Novel} (hf : CountsFit n) (hc : ∀ c ∈ n.srtChapters, c ∈ n.chapters.keys)
    (hs : ∀ s ∈ narrative n, s ∈ n.scenes.keys)
    (hh : ∀ s ∈ narrative n, hasHeading (textOf n.scenes s) = false) :
    splitScenes n = .ok (n, false) := by
  obtain ⟨st, e, a1, a2, a3, a4⟩ := chapters_quiet hf n.srtChapters
    { scenes := n.scenes, chapters := n.chapters } rfl rfl hc (fun s hm => ⟨hs s hm, hh s hm⟩)
  unfold splitScenes
  rw [e]
  simp only [a1, a2, a3, a4, List.nil_append]

end Verif
