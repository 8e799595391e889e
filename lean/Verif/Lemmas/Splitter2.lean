/-
Content invariants of `Splitter.split_scenes`.
-/
import Verif.Lemmas.Splitter

namespace Verif
open Spec

/-! ### text of scenes under the updates -/

theorem textOf_flush (scenes : Dict Scene) (k id t : Str) (hk : k ∈ scenes.keys) :
    textOf (scenes.modify k (fun s => s.setContent t)) id = if k = id then t else textOf scenes id := by
  unfold textOf
  rw [Dict.get?_modify]
  by_cases h : k = id
  · subst h
    obtain ⟨v, hv⟩ := (Dict.mem_keys_iff _ _).1 hk
    simp [hv, Scene.setContent]
  · simp [h]

theorem textOf_mark (scenes : Dict Scene) (k id : Str) :
    textOf (scenes.modify k markParent) id = textOf scenes id := by
  unfold textOf
  rw [Dict.get?_modify]
  by_cases h : k = id
  · subst h
    cases scenes.get? k <;> simp [markParent]
  · simp [h]

theorem textOf_set (scenes : Dict Scene) (k id : Str) (sc : Scene) :
    textOf (scenes.set k sc) id = if k = id then sc.sceneContent.getD [] else textOf scenes id := by
  unfold textOf
  rw [Dict.get?_set]
  by_cases h : k = id <;> simp [h]

theorem newSplitScene_content (p : Scene) (c : Nat) (t d : Str) :
    (newSplitScene p c t d).sceneContent = none := rfl

theorem linesOf_join {ls : List Str} (h : ∀ l ∈ ls, '\n' ∉ l) (hne : ls ≠ []) :
    linesOf (Str.join c!"\n" ls) = ls :=
  Str.split_join c!"\n" (by simp) ls hne (fun l hl => (Str.freeOf_singleton '\n' l).2 (h l hl))

theorem linesOf_nil : linesOf [] = [[]] := rfl

theorem bodyLines_join {ls : List Str} (h : ∀ l ∈ ls, isHeading l = false ∧ '\n' ∉ l) :
    bodyLines (Str.join c!"\n" ls) = ls.filter (fun l => l ≠ []) := by
  by_cases hne : ls = []
  · subst hne; rfl
  · unfold bodyLines
    rw [linesOf_join (fun l hl => (h l hl).2) hne]
    apply List.filter_congr
    intro l hl
    simp [(h l hl).1]

theorem hasHeading_join {ls : List Str} (h : ∀ l ∈ ls, isHeading l = false ∧ '\n' ∉ l) :
    hasHeading (Str.join c!"\n" ls) = false := by
  by_cases hne : ls = []
  · subst hne; rfl
  · unfold hasHeading
    rw [linesOf_join (fun l hl => (h l hl).2) hne]
    simp only [List.any_eq_false]
    intro l hl
    simp [(h l hl).1]

theorem no_newline_linesOf {t l : Str} (h : l ∈ linesOf t) : '\n' ∉ l :=
  fun hc => (mem_of_mem_split h hc).2 rfl

theorem join_linesOf (t : Str) : Str.join c!"\n" (linesOf t) = t := Str.join_split _ (by simp) t

/-- Ignore what the splitter may change in content and counts. -/
def restore (sc sc0 : Scene) : Scene :=
  { sc with sceneContent := sc0.sceneContent, wordCount := sc0.wordCount,
            letterCount := sc0.letterCount }

theorem markWarning_idem (t : Option Str) : markWarning (markWarning t) = markWarning t := by
  cases t with
  | none => rfl
  | some s =>
    cases s with
    | nil => rfl
    | cons c cs =>
      by_cases h : Str.startsWith (c :: cs) c!"(!)" = true
      · have e : markWarning (some (c :: cs)) = some (c :: cs) := by
          unfold markWarning; simp only [h, if_true]
        rw [e, e]
      · have e : markWarning (some (c :: cs)) = some (c!"(!)" ++ c :: cs) := by
          unfold markWarning; simp only [h, if_false, Bool.false_eq_true]
        rw [e]; rfl

theorem markParent_idem (p : Scene) : markParent (markParent p) = markParent p := by
  have h : ∀ o : Option Int, (o.map (fun n => if n > 2 then 2 else n)).map
      (fun n => if n > 2 then 2 else n) = o.map (fun n => if n > 2 then 2 else n) := by
    intro o
    cases o with
    | none => rfl
    | some v => by_cases hv : v > 2 <;> simp [hv]
  simp only [markParent, markWarning_idem, h]

/-- The metadata of an old scene is either untouched or marked. -/
def MetaKept (scenes0 scenes : Dict Scene) : Prop :=
  ∀ id sc0, scenes0.get? id = some sc0 → ∃ sc, scenes.get? id = some sc ∧
    (restore sc sc0 = sc0 ∨ restore sc sc0 = markParent sc0)

theorem MetaKept.flush {a b : Dict Scene} (h : MetaKept a b) (k t : Str) :
    MetaKept a (b.modify k (fun s => s.setContent t)) := by
  intro id sc0 h0
  obtain ⟨sc, h1, h2⟩ := h id sc0 h0
  rw [Dict.get?_modify]
  by_cases e : k = id
  · rw [if_pos e, h1]
    exact ⟨_, rfl, h2⟩
  · rw [if_neg e]; exact ⟨sc, h1, h2⟩

theorem MetaKept.mark {a b : Dict Scene} (h : MetaKept a b) (k : Str) :
    MetaKept a (b.modify k markParent) := by
  intro id sc0 h0
  obtain ⟨sc, h1, h2⟩ := h id sc0 h0
  rw [Dict.get?_modify]
  by_cases e : k = id
  · rw [if_pos e, h1]
    refine ⟨_, rfl, .inr ?_⟩
    have hr : restore (markParent sc) sc0 = markParent (restore sc sc0) := rfl
    rw [hr]
    rcases h2 with h2 | h2
    · rw [h2]
    · rw [h2, markParent_idem]
  · rw [if_neg e]; exact ⟨sc, h1, h2⟩

theorem MetaKept.set {a b : Dict Scene} (h : MetaKept a b) {k : Str} (hk : k ∉ b.keys) (sc : Scene) :
    MetaKept a (b.set k sc) := by
  intro id sc0 h0
  obtain ⟨s, h1, h2⟩ := h id sc0 h0
  have hne : k ≠ id := fun e => hk (e ▸ (Dict.mem_keys_iff _ _).2 ⟨s, h1⟩)
  rw [Dict.get?_set_ne _ _ hne]
  exact ⟨s, h1, h2⟩

/-- The metadata of an old chapter is untouched. -/
def ChMetaKept (a b : Dict Chapter) : Prop :=
  ∀ id c0, a.get? id = some c0 → ∃ c, b.get? id = some c ∧ { c with srtScenes := c0.srtScenes } = c0

theorem ChMetaKept.modify {a b : Dict Chapter} (h : ChMetaKept a b) (k : Str) (l : List Str) :
    ChMetaKept a (b.modify k (fun c => { c with srtScenes := l })) := by
  intro id sc0 h0
  obtain ⟨sc, h1, h2⟩ := h id sc0 h0
  rw [Dict.get?_modify]
  by_cases e : k = id
  · rw [if_pos e, h1]
    exact ⟨_, rfl, h2⟩
  · rw [if_neg e]; exact ⟨sc, h1, h2⟩

theorem ChMetaKept.set {a b : Dict Chapter} (h : ChMetaKept a b) {k : Str} (hk : k ∉ b.keys)
    (c : Chapter) : ChMetaKept a (b.set k c) := by
  intro id sc0 h0
  obtain ⟨s, h1, h2⟩ := h id sc0 h0
  have hne : k ≠ id := fun e => hk (e ▸ (Dict.mem_keys_iff _ _).2 ⟨s, h1⟩)
  rw [Dict.get?_set_ne _ _ hne]
  exact ⟨s, h1, h2⟩

/-- Counts belong to contents. -/
def Fit (scenes : Dict Scene) : Prop := ∀ id sc t, scenes.get? id = some sc →
  sc.sceneContent = some t → sc.wordCount = wordCountOf t ∧ sc.letterCount = letterCountOf t

theorem Fit.flush {a : Dict Scene} (h : Fit a) (k t : Str) :
    Fit (a.modify k (fun s => s.setContent t)) := by
  intro id sc u h1 h2
  rw [Dict.get?_modify] at h1
  by_cases e : k = id
  · rw [if_pos e] at h1
    obtain ⟨v, hv, rfl⟩ := Option.map_eq_some_iff.1 h1
    simp only [Scene.setContent, Option.some.injEq] at h2 ⊢
    subst h2; exact ⟨rfl, rfl⟩
  · rw [if_neg e] at h1; exact h id sc u h1 h2

theorem Fit.mark {a : Dict Scene} (h : Fit a) (k : Str) : Fit (a.modify k markParent) := by
  intro id sc u h1 h2
  rw [Dict.get?_modify] at h1
  by_cases e : k = id
  · rw [if_pos e] at h1
    obtain ⟨v, hv, rfl⟩ := Option.map_eq_some_iff.1 h1
    exact h id v u hv h2
  · rw [if_neg e] at h1; exact h id sc u h1 h2

theorem Fit.set {a : Dict Scene} (h : Fit a) (k : Str) {sc : Scene} (hc : sc.sceneContent = none) :
    Fit (a.set k sc) := by
  intro id s u h1 h2
  rw [Dict.get?_set] at h1
  by_cases e : k = id
  · rw [if_pos e] at h1; simp at h1; subst h1; rw [hc] at h2; simp at h2
  · rw [if_neg e] at h1; exact h id s u h1 h2

/-- The non-empty lines of a scene that are already fixed: those of the current scene are still
being collected. -/
def pend (st : SplitState) (id : Str) : List Str :=
  if st.inScene = true ∧ id = st.sceneId then st.newLines.filter (fun l => l ≠ [])
  else bodyLines (textOf st.scenes id)

/-- Nothing to be done for this scene. -/
def Quiet (n : Novel) (id : Str) : Prop := hasHeading (textOf n.scenes id) = false ∧ CountsFit n

/-- Content invariant between two scenes. -/
structure SExtra (n : Novel) (pre preCh : List Str) (scenes : Dict Scene) (chapters : Dict Chapter)
    (srt N : List Str) (flag : Bool) : Prop where
  head : ∀ id ∈ N, hasHeading (textOf scenes id) = false
  text : SafeNovel n →
    N.flatMap (fun id => bodyLines (textOf scenes id)) = pre.flatMap (fun id => bodyLines (textOf n.scenes id))
  frame : ∀ id ∈ n.scenes.keys, (id ∉ pre ∨ Quiet n id) → scenes.get? id = n.scenes.get? id
  fit : CountsFit n → Fit scenes
  flagT : flag = true → pre.length < N.length ∨ preCh.length < srt.length
  flagF : flag = false → N = pre ∧
    ∀ id ∈ pre, ∀ l ∈ linesOf (textOf n.scenes id), Str.startsWith l c!"##" = false
  metaS : MetaKept n.scenes scenes
  metaC : ChMetaKept n.chapters chapters

/-- Content invariant inside the line loop; `done` are the processed lines. -/
structure LExtra (n : Novel) (pre0 preCh : List Str) (scId : Str) (done : List Str)
    (st : SplitState) : Prop where
  head : ∀ id ∈ narr st, (st.inScene = true ∧ id = st.sceneId) ∨ hasHeading (textOf st.scenes id) = false
  nl : ∀ l ∈ st.newLines, isHeading l = false ∧ '\n' ∉ l
  text : SafeNovel n → (narr st).flatMap (pend st)
    = pre0.flatMap (fun id => bodyLines (textOf n.scenes id)) ++
      done.filter (fun l => l ≠ [] && !isHeading l)
  lastHd : st.inScene = false → ∃ l, done.getLast? = some l ∧ isHeading l = true ∧ isSceneHeading l = false
  frame : ∀ id ∈ n.scenes.keys, id ≠ scId → (id ∉ pre0 ∨ Quiet n id) →
    st.scenes.get? id = n.scenes.get? id
  self : (∀ l ∈ done, isHeading l = false) → st.scenes.get? scId = n.scenes.get? scId ∧
    st.inScene = true ∧ st.sceneId = scId ∧ st.newLines = done
  curOld : st.sceneId = scId ∨ st.sceneId ∉ n.scenes.keys
  fit : CountsFit n → Fit st.scenes
  flagT : st.scenesSplit = true → pre0.length + 1 < (narr st).length ∨ preCh.length < st.srtChapters.length
  flagF : st.scenesSplit = false → narr st = pre0 ++ [scId] ∧
    (∀ id ∈ pre0, ∀ l ∈ linesOf (textOf n.scenes id), Str.startsWith l c!"##" = false) ∧
    ∀ l ∈ done, Str.startsWith l c!"##" = false
  metaS : MetaKept n.scenes st.scenes
  metaC : ChMetaKept n.chapters st.chapters

theorem filter_body {line : Str} (h : isHeading line = false) :
    [line].filter (fun l => l ≠ [] && !isHeading l) = [line].filter (fun l => l ≠ []) := by
  apply List.filter_congr
  intro l hl; simp at hl; subst hl; simp [h]

theorem flatMap_congr' {α β : Type} {l : List α} {f g : α → List β} (h : ∀ a ∈ l, f a = g a) :
    l.flatMap f = l.flatMap g := by
  induction l with
  | nil => rfl
  | cons a r ih =>
    simp only [List.flatMap_cons]
    rw [h a (by simp), ih (fun b hb => h b (by simp [hb]))]

section
variable {n : Novel} {pre rem preCh remCh : List Str} {scId : Str} {st : SplitState}

theorem pend_flushed (h : LInv n pre rem preCh remCh scId st) {pre0 done : List Str}
    (hx : LExtra n pre0 preCh scId done st) (hin : st.inScene = true) (id : Str) :
    bodyLines (textOf (flushed st) id) = pend st id := by
  unfold pend flushed
  rw [textOf_flush _ _ _ _ h.curIn]
  by_cases e : id = st.sceneId
  · subst e
    simp only [if_true, hin, and_self]
    exact bodyLines_join hx.nl
  · simp [e, Ne.symm e]

theorem head_flushed (h : LInv n pre rem preCh remCh scId st) {pre0 done : List Str}
    (hx : LExtra n pre0 preCh scId done st) (id : Str) (hid : id ∈ narr st) :
    hasHeading (textOf (flushed st) id) = false := by
  unfold flushed
  rw [textOf_flush _ _ _ _ h.curIn]
  by_cases e : st.sceneId = id
  · rw [if_pos e]; exact hasHeading_join hx.nl
  · rw [if_neg e]
    rcases hx.head id hid with h1 | h1
    · exact absurd h1.2.symm e
    · exact h1

theorem frame_flushed {pre0 done : List Str}
    (hx : LExtra n pre0 preCh scId done st) (id : Str) (hid : id ∈ n.scenes.keys) (hne : id ≠ scId)
    (hq : id ∉ pre0 ∨ Quiet n id) : (flushed st).get? id = n.scenes.get? id := by
  have hc : st.sceneId ≠ id := by
    rcases hx.curOld with h | h
    · rw [h]; exact Ne.symm hne
    · exact fun e => h (e ▸ hid)
  unfold flushed
  rw [Dict.get?_modify_ne _ _ hc]
  exact hx.frame id hid hne hq

theorem flushed_keys (st : SplitState) : (flushed st).keys = st.scenes.keys := Dict.keys_modify _ _ _

theorem ne_of_not_key {k id : Str} (hc : Core n pre rem preCh remCh st.scenes st.chapters st.srtChapters (narr st))
    (hk : k ∉ st.scenes.keys) (hid : id ∈ narr st) : k ≠ id :=
  fun e => hk (e ▸ hc.scIn id (List.mem_append_left _ hid))

theorem not_old_of_not_key {k : Str} (hc : Core n pre rem preCh remCh st.scenes st.chapters st.srtChapters (narr st))
    (hk : k ∉ st.scenes.keys) : k ∉ n.scenes.keys :=
  fun hm => hk (hc.scKeep.mem hm)

/-- The content invariant is kept by every line; `lines = done ++ line :: rest` are the lines of
the scene's original text. -/
theorem LExtra.step (h : LInv n pre rem preCh remCh scId st) {pre0 done rest : List Str} {line : Str}
    (hpre : pre = pre0 ++ [scId])
    (hx : LExtra n pre0 preCh scId done st) {st' : SplitState}
    (hs : Shape scId st line st') (h' : LInv n pre rem preCh remCh scId st')
    (hlines : linesOf (textOf n.scenes scId) = done ++ line :: rest) :
    LExtra n pre0 preCh scId (done ++ [line]) st' := by
  have hlnl : '\n' ∉ line := no_newline_linesOf (t := textOf n.scenes scId) (by rw [hlines]; simp)
  have hscN : scId ∈ narrative n := by rw [h.core.splitN, hpre]; simp
  cases hs with
  | scene p id hline hid hp hscenes hcur hnarr hch hsrt hnew hin hsp =>
    have hkey : id ∉ st.scenes.keys := by rw [flushed_keys] at hid; exact hid
    have hhd := heading_of_scene hline
    have htx : ∀ x ∈ narr st, textOf st'.scenes x = textOf (flushed st) x := by
      intro x hxn
      have hne := ne_of_not_key h.core hkey hxn
      rw [hscenes, textOf_set, if_neg hne, textOf_mark]
    have hnewid : textOf st'.scenes id = [] := by
      rw [hscenes, textOf_set, if_pos rfl, newSplitScene_content]; rfl
    refine ⟨?_, by simp [hnew], ?_, by simp [hin], ?_, ?_, ?_, ?_, ?_, by simp [hsp], ?_, ?_⟩
    · intro x hxn
      rw [hnarr] at hxn
      rcases List.mem_append.1 hxn with hxn | hxn
      · right; rw [htx x hxn]; exact head_flushed h hx x hxn
      · simp at hxn; left; exact ⟨hin, by rw [hxn, hcur]⟩
    · intro hgood
      have hin0 : st.inScene = true := by
        cases hi : st.inScene with
        | true => rfl
        | false =>
          obtain ⟨l, h1, h2, h3⟩ := hx.lastHd hi
          obtain ⟨d, hd⟩ := List.getLast?_eq_some_iff.1 h1
          have := hgood scId hscN l line d rest (by rw [hlines, hd]; simp) h2 h3
          rw [hline] at this; simp at this
      rw [hnarr, List.flatMap_append]
      have e1 : (narr st).flatMap (pend st') = (narr st).flatMap (pend st) := by
        apply flatMap_congr'
        intro x hxn
        have hne := ne_of_not_key h.core hkey hxn
        rw [← pend_flushed h hx hin0 x]
        unfold pend
        rw [if_neg (by rw [hcur]; exact fun e => hne e.2.symm), htx x hxn]
      rw [e1, hx.text hgood]
      have e2 : pend st' id = [] := by
        unfold pend
        rw [if_pos ⟨hin, hcur.symm⟩, hnew]; rfl
      simp [e2, hhd]
    · intro x hxk hxne hq
      have hne : id ≠ x := fun e => not_old_of_not_key h.core hkey (e ▸ hxk)
      rw [hscenes, Dict.get?_set_ne _ _ hne, Dict.get?_modify_ne _ _ (Ne.symm hxne)]
      exact frame_flushed hx x hxk hxne hq
    · intro hall
      have := hall line (by simp)
      rw [hhd] at this; simp at this
    · right; rw [hcur]; exact not_old_of_not_key h.core hkey
    · intro hf
      rw [hscenes]
      exact (((hx.fit hf).flush _ _).mark _).set _ (newSplitScene_content _ _ _ _)
    · intro _
      left
      rw [hnarr]
      have : pre.length ≤ (narr st).length := h.core.subN.length_le
      rw [hpre] at this
      simp at this ⊢
      omega
    · rw [hscenes]
      exact ((hx.metaS.flush _ _).mark _).set (by rw [Dict.keys_modify]; exact hid) _
    · rw [hch]; exact hx.metaC
  | chapter k t d lv hline hline2 hscenes hcur hnarr hk hch hsrt hnew hin hsp =>
    refine ⟨?_, by simp [hnew], ?_, ?_, ?_, ?_, ?_, ?_, ?_, ?_, ?_, ?_⟩
    · intro x hxn
      rw [hnarr] at hxn
      right
      rw [hscenes]
      by_cases hi : st.inScene = true
      · rw [if_pos hi]; exact head_flushed h hx x hxn
      · rw [if_neg hi]
        rcases hx.head x hxn with h1 | h1
        · exact absurd h1.1 hi
        · exact h1
    · intro hgood
      rw [hnarr]
      have e1 : (narr st).flatMap (pend st') = (narr st).flatMap (pend st) := by
        apply flatMap_congr'
        intro x hxn
        have : pend st' x = bodyLines (textOf st'.scenes x) := by
          unfold pend; rw [if_neg (by rw [hin]; simp)]
        rw [this, hscenes]
        by_cases hi : st.inScene = true
        · rw [if_pos hi]; exact pend_flushed h hx hi x
        · rw [if_neg hi]; unfold pend; rw [if_neg (fun e => hi e.1)]
      rw [e1, hx.text hgood]
      simp [hline]
    · intro _; exact ⟨line, by simp, hline, hline2⟩
    · intro x hxk hxne hq
      rw [hscenes]
      by_cases hi : st.inScene = true
      · rw [if_pos hi]; exact frame_flushed hx x hxk hxne hq
      · rw [if_neg hi]; exact hx.frame x hxk hxne hq
    · intro hall
      have := hall line (by simp)
      rw [hline] at this; simp at this
    · rw [hcur]; exact hx.curOld
    · intro hf
      rw [hscenes]
      by_cases hi : st.inScene = true
      · rw [if_pos hi]; exact (hx.fit hf).flush _ _
      · rw [if_neg hi]; exact hx.fit hf
    · intro _
      right
      rw [hsrt]
      have : preCh.length ≤ st.srtChapters.length := h.core.subCh.length_le
      simp; omega
    · intro hf
      rw [hsp] at hf
      simp only [Bool.or_eq_false_iff] at hf
      obtain ⟨a, b, c⟩ := hx.flagF hf.1
      refine ⟨by rw [hnarr]; exact a, b, ?_⟩
      intro l hl
      rcases List.mem_append.1 hl with hl | hl
      · exact c l hl
      · simp at hl; subst hl; exact hf.2
    · rw [hscenes]
      by_cases hi : st.inScene = true
      · rw [if_pos hi]; exact hx.metaS.flush _ _
      · rw [if_neg hi]; exact hx.metaS
    · rw [hch]; exact (hx.metaC.modify _ _).set (by rw [Dict.keys_modify]; exact hk) _
  | newText p id hline hin0 hid hp hscenes hcur hnarr hch hsrt hnew hin hsp =>
    have htx : ∀ x ∈ narr st, textOf st'.scenes x = textOf st.scenes x := by
      intro x hxn
      have hne := ne_of_not_key h.core hid hxn
      rw [hscenes, textOf_set, if_neg hne, textOf_mark]
    refine ⟨?_, ?_, ?_, by simp [hin], ?_, ?_, ?_, ?_, ?_, by simp [hsp], ?_, ?_⟩
    · intro x hxn
      rw [hnarr] at hxn
      rcases List.mem_append.1 hxn with hxn | hxn
      · right; rw [htx x hxn]
        rcases hx.head x hxn with h1 | h1
        · rw [hin0] at h1; simp at h1
        · exact h1
      · simp at hxn; left; exact ⟨hin, by rw [hxn, hcur]⟩
    · intro l hl; rw [hnew] at hl; simp at hl; subst hl; exact ⟨hline, hlnl⟩
    · intro hgood
      rw [hnarr, List.flatMap_append]
      have e1 : (narr st).flatMap (pend st') = (narr st).flatMap (pend st) := by
        apply flatMap_congr'
        intro x hxn
        have hne := ne_of_not_key h.core hid hxn
        unfold pend
        rw [if_neg (by rw [hcur]; exact fun e => hne e.2.symm), htx x hxn,
          if_neg (by rw [hin0]; simp)]
      rw [e1, hx.text hgood]
      have e2 : pend st' id = [line].filter (fun l => l ≠ []) := by
        unfold pend
        rw [if_pos ⟨hin, hcur.symm⟩, hnew]
      rw [List.filter_append, filter_body hline, List.append_assoc, ← e2]
      simp
    · intro x hxk hxne hq
      have hne : id ≠ x := fun e => not_old_of_not_key h.core hid (e ▸ hxk)
      rw [hscenes, Dict.get?_set_ne _ _ hne, Dict.get?_modify_ne _ _ (Ne.symm hxne)]
      exact hx.frame x hxk hxne hq
    · intro hall
      exfalso
      obtain ⟨l, h1, h2, _⟩ := hx.lastHd hin0
      have := hall l (List.mem_append_left _ (List.mem_of_getLast? h1))
      rw [h2] at this; simp at this
    · right; rw [hcur]; exact not_old_of_not_key h.core hid
    · intro hf
      rw [hscenes]
      exact ((hx.fit hf).mark _).set _ (newSplitScene_content _ _ _ _)
    · intro _
      left
      rw [hnarr]
      have : pre.length ≤ (narr st).length := h.core.subN.length_le
      rw [hpre] at this
      simp at this ⊢
      omega
    · rw [hscenes]
      exact (hx.metaS.mark _).set (by rw [Dict.keys_modify]; exact hid) _
    · rw [hch]; exact hx.metaC
  | text hline hin0 hst =>
    subst hst
    refine ⟨hx.head, ?_, ?_, ?_, hx.frame, ?_, hx.curOld, hx.fit, hx.flagT, ?_, hx.metaS, hx.metaC⟩
    · intro l hl
      rcases List.mem_append.1 hl with hl | hl
      · exact hx.nl l hl
      · simp at hl; subst hl; exact ⟨hline, hlnl⟩
    · intro hgood
      obtain ⟨l, hl⟩ := h.inS hin0
      have hN : narr st = (st.srtChapters.dropLast.flatMap (scenesOf st.chapters) ++ l) ++ [st.sceneId] := by
        unfold narr; rw [hl]; simp
      have hN' : narr { st with newLines := st.newLines ++ [line] } = narr st := rfl
      have hnd := (List.nodup_append.1 h.core.scNodup).1
      rw [hN] at hnd
      have hni : st.sceneId ∉ st.srtChapters.dropLast.flatMap (scenesOf st.chapters) ++ l := by
        intro hm
        exact (List.nodup_append.1 hnd).2.2 _ hm st.sceneId (by simp) rfl
      have ht := hx.text hgood
      rw [hN, List.flatMap_append] at ht
      rw [hN', hN, List.flatMap_append]
      have e1 : (st.srtChapters.dropLast.flatMap (scenesOf st.chapters) ++ l).flatMap
          (pend { st with newLines := st.newLines ++ [line] })
          = (st.srtChapters.dropLast.flatMap (scenesOf st.chapters) ++ l).flatMap (pend st) := by
        apply flatMap_congr'
        intro x hxn
        have hne : x ≠ st.sceneId := fun e => hni (e ▸ hxn)
        simp [pend, hne]
      have e2 : pend { st with newLines := st.newLines ++ [line] } st.sceneId
          = pend st st.sceneId ++ [line].filter (fun l => l ≠ [] && !isHeading l) := by
        rw [filter_body hline]
        simp [pend, hin0]
      rw [e1]
      simp only [List.flatMap_cons, List.flatMap_nil, List.append_nil] at ht ⊢
      rw [e2, ← List.append_assoc, ht, List.filter_append, List.append_assoc]
    · intro hf; simp [hin0] at hf
    · intro hall
      have := hx.self (fun l hl => hall l (by simp [hl]))
      exact ⟨this.1, this.2.1, this.2.2.1, by simp [this.2.2.2]⟩
    · intro hf
      obtain ⟨a, b, c⟩ := hx.flagF hf
      refine ⟨a, b, ?_⟩
      intro l hl
      rcases List.mem_append.1 hl with hl | hl
      · exact c l hl
      · simp at hl; subst hl
        cases l with
        | nil => rfl
        | cons x xs =>
          have : ('#' == x) = false := by
            simp [isHeading] at hline; simpa using Ne.symm hline
          simp [Str.startsWith, List.isPrefixOf, this]

/-- The whole line loop. -/
theorem lines_loop {pre0 : List Str} (hpre : pre = pre0 ++ [scId]) :
    ∀ (rest done : List Str) (st : SplitState), LInv n pre rem preCh remCh scId st →
      LExtra n pre0 preCh scId done st → linesOf (textOf n.scenes scId) = done ++ rest →
      ∃ st', foldE (splitLine scId) st rest = .ok st' ∧ LInv n pre rem preCh remCh scId st' ∧
        LExtra n pre0 preCh scId (done ++ rest) st' := by
  intro rest
  induction rest with
  | nil => intro done st h hx _; exact ⟨st, rfl, h, by simpa using hx⟩
  | cons line rest ih =>
    intro done st h hx hl
    obtain ⟨st1, he, h1, hs⟩ := splitLine_shape h line
    have hx1 := hx.step h hpre hs h1 hl
    obtain ⟨st2, he2, h2, hx2⟩ := ih (done ++ [line]) st1 h1 hx1 (by simpa using hl)
    refine ⟨st2, ?_, h2, by simpa using hx2⟩
    simp only [foldE, he, he2]

/-- One scene of the current chapter. -/
theorem splitScene_step {s : Str} {rem' : List Str}
    (hc : Core n pre (s :: rem') preCh remCh st.scenes st.chapters st.srtChapters (narr st))
    (hlast : ∃ D, st.srtChapters = D ++ [st.chapterId])
    (hx : SExtra n pre preCh st.scenes st.chapters st.srtChapters (narr st) st.scenesSplit) :
    ∃ st', splitScene st s = .ok st' ∧
      Core n (pre ++ [s]) rem' preCh remCh st'.scenes st'.chapters st'.srtChapters (narr st') ∧
      (∃ D, st'.srtChapters = D ++ [st'.chapterId]) ∧
      SExtra n (pre ++ [s]) preCh st'.scenes st'.chapters st'.srtChapters (narr st') st'.scenesSplit := by
  have hs0 : st.scenes.get? s = n.scenes.get? s := hc.scSame s (by simp)
  have hskey : s ∈ st.scenes.keys := hc.scIn s (by simp)
  obtain ⟨sc, hsc⟩ := (Dict.mem_keys_iff _ _).1 hskey
  have hn1 : ∀ x : SplitState, x.srtChapters = st.srtChapters → x.chapters = st.chapters →
      x.srtScenes = st.srtScenes ++ [s] → narr x = narr st ++ [s] := by
    intro x h1 h2 h3; simp [narr, h1, h2, h3]
  have hsN : s ∉ pre := by
    intro hm
    have : s ∈ narr st := hc.subN.subset hm
    exact (List.nodup_append.1 hc.scNodup).2.2 s this s (by simp) rfl
  -- the structural invariant after moving `s` from the remaining to the processed scenes
  have hc1 : Core n (pre ++ [s]) rem' preCh remCh st.scenes st.chapters st.srtChapters (narr st ++ [s]) :=
    { hc with
      scNodup := by simpa using hc.scNodup
      scIn := by simpa using hc.scIn
      scSame := fun x hx => hc.scSame x (by simp [hx])
      stat := by
        intro x c hxm hg
        exact hc.stat x c (by simpa using hxm) hg
      splitN := by simp [hc.splitN]
      subN := hc.subN.append (List.Sublist.refl _)
      scNew := by
        intro k hk
        rcases hc.scNew k hk with h | h
        · exact .inl h
        · right; simp [h]
      scOld := by
        intro x hx hxo
        rcases List.mem_append.1 hx with hx | hx
        · exact List.mem_append_left _ (hc.scOld x hx hxo)
        · simp at hx; subst hx; simp }
  have hso : s ∈ n.scenes.keys := by
    rw [Dict.mem_keys_iff]; exact ⟨sc, by rw [← hs0, hsc]⟩
  -- text of the scene
  have htxt0 : textOf st.scenes s = textOf n.scenes s := by unfold textOf; rw [hs0]
  by_cases hempty : sc.sceneContent = none ∨ sc.sceneContent = some []
  · -- nothing to split
    have hte : textOf n.scenes s = [] := by
      rw [← htxt0]; unfold textOf; rw [hsc]
      rcases hempty with h | h <;> simp [h]
    refine ⟨{ st with srtScenes := st.srtScenes ++ [s] }, ?_, ?_, hlast, ?_⟩
    · unfold splitScene
      simp only [hsc]
      rcases hempty with h | h <;> simp [h]
    · rw [hn1 { st with srtScenes := st.srtScenes ++ [s] } rfl rfl rfl]; exact hc1
    · rw [hn1 { st with srtScenes := st.srtScenes ++ [s] } rfl rfl rfl]
      refine ⟨?_, ?_, ?_, hx.fit, ?_, ?_, hx.metaS, hx.metaC⟩
      · intro id hid
        rcases List.mem_append.1 hid with hid | hid
        · exact hx.head id hid
        · simp at hid; subst hid; rw [htxt0, hte]; rfl
      · intro hg
        rw [List.flatMap_append, List.flatMap_append, hx.text hg]
        simp [htxt0]
      · intro id hid hq
        by_cases hids : id = s
        · subst hids; exact hs0
        · refine hx.frame id hid ?_
          rcases hq with hq | hq
          · left; intro hm; exact hq (by simp [hm])
          · exact .inr hq
      · intro hf
        rcases hx.flagT hf with h | h
        · left; simp; omega
        · right; exact h
      · intro hf
        obtain ⟨a, b⟩ := hx.flagF hf
        refine ⟨by rw [a], ?_⟩
        intro id hid l hl
        rcases List.mem_append.1 hid with hid | hid
        · exact b id hid l hl
        · simp at hid; subst hid
          rw [hte, linesOf_nil] at hl
          simp at hl; subst hl; rfl
  · -- there is some text
    have hsome : ∃ c cs, sc.sceneContent = some (c :: cs) := by
      cases hcc : sc.sceneContent with
      | none => exact absurd (.inl hcc) hempty
      | some t =>
        cases t with
        | nil => exact absurd (.inr hcc) hempty
        | cons c cs => exact ⟨c, cs, rfl⟩
    obtain ⟨c, cs, hcon⟩ := hsome
    have hte : textOf n.scenes s = c :: cs := by
      rw [← htxt0]; unfold textOf; rw [hsc]; simp [hcon]
    let st1 : SplitState := { st with srtScenes := st.srtScenes ++ [s], sceneId := s, newLines := [], inScene := true, splitCount := 0 }
    have hnar : narr st1 = narr st ++ [s] := hn1 st1 rfl rfl rfl
    have hL : LInv n (pre ++ [s]) rem' preCh remCh s st1 := by
      refine ⟨?_, hlast, ?_, ?_, ?_, ?_⟩
      · rw [hnar]; exact hc1
      · rw [hnar]; simp
      · rw [hnar]; simp [st1]
      · intro _; exact ⟨_, rfl⟩
      · intro hf; simp [st1] at hf
    have hX : LExtra n pre preCh s [] st1 := by
      refine ⟨?_, by simp [st1], ?_, by simp [st1], ?_, ?_, .inl rfl, hx.fit, ?_, ?_, hx.metaS, hx.metaC⟩
      · intro id hid
        rw [hnar] at hid
        rcases List.mem_append.1 hid with hid | hid
        · exact .inr (hx.head id hid)
        · simp at hid; subst hid; exact .inl ⟨rfl, rfl⟩
      · intro hg
        rw [hnar, List.flatMap_append]
        have e1 : (narr st).flatMap (pend st1) = (narr st).flatMap (fun id => bodyLines (textOf st.scenes id)) := by
          apply flatMap_congr'
          intro x hxn
          have hne : x ≠ s := by
            intro e; subst e
            exact (List.nodup_append.1 hc.scNodup).2.2 _ hxn x (by simp) rfl
          simp [pend, st1, hne]
        rw [e1, hx.text hg]
        simp [pend, st1]
      · intro id hid _ hq
        exact hx.frame id hid hq
      · intro _; exact ⟨hs0, rfl, rfl, rfl⟩
      · intro hf
        rw [hnar]
        rcases hx.flagT hf with h | h
        · left; simp; omega
        · right; exact h
      · intro hf
        obtain ⟨a, b⟩ := hx.flagF hf
        refine ⟨by rw [hnar, a], b, by simp⟩
    obtain ⟨st2, he, h2, hx2⟩ := lines_loop (n := n) (pre0 := pre) rfl (linesOf (textOf n.scenes s)) [] st1 hL hX (by simp)
    simp only [List.nil_append] at hx2
    have hrun : splitScene st s = if st2.inScene = true then storeLines st2 else .ok st2 := by
      unfold splitScene
      simp only [hsc, hcon]
      have he' : foldE (splitLine s) st1 (Str.split (c :: cs) c!"\n") = .ok st2 := by
        rw [hte] at he; exact he
      simp only [st1] at he'
      rw [he']
    -- facts about the final scenes
    have final : ∀ scs : Dict Scene,
        scs = (if st2.inScene = true then flushed st2 else st2.scenes) →
        Core n (pre ++ [s]) rem' preCh remCh scs st2.chapters st2.srtChapters (narr st2) ∧
        SExtra n (pre ++ [s]) preCh scs st2.chapters st2.srtChapters (narr st2) st2.scenesSplit := by
      intro scs hscs
      constructor
      · subst hscs; split
        · exact h2.coreFlushed
        · exact h2.core
      · refine ⟨?_, ?_, ?_, ?_, ?_, ?_, ?_, hx2.metaC⟩
        · intro id hid
          subst hscs
          split
          · exact head_flushed h2 hx2 id hid
          · rename_i hi
            rcases hx2.head id hid with h | h
            · exact absurd h.1 hi
            · exact h
        · intro hg
          have e : (narr st2).flatMap (fun id => bodyLines (textOf scs id)) = (narr st2).flatMap (pend st2) := by
            apply flatMap_congr'
            intro x _
            subst hscs
            split
            · rename_i hi; exact pend_flushed h2 hx2 hi x
            · rename_i hi; unfold pend; rw [if_neg (fun e => hi e.1)]
          rw [e, hx2.text hg]
          simp [bodyLines]
        · intro id hid hq
          by_cases hids : id = s
          · subst hids
            rcases hq with hq | hq
            · exact absurd (by simp) hq
            · have hnh : ∀ l ∈ linesOf (textOf n.scenes id), isHeading l = false := by
                have h := hq.1
                unfold hasHeading at h
                simpa using h
              obtain ⟨a1, a2, a3, a4⟩ := hx2.self hnh
              subst hscs
              rw [if_pos a2]
              unfold flushed
              rw [a3, a4, Dict.get?_modify_self, a1, ← hs0, hsc, Option.map_some]
              congr 1
              rw [join_linesOf, hte]
              have hfit := hq.2 id sc (c :: cs) (by rw [← hs0, hsc]) hcon
              unfold Scene.setContent
              rw [← hcon, ← hfit.1, ← hfit.2]
          · have hq' : id ∉ pre ∨ Quiet n id := by
              rcases hq with hq | hq
              · left; intro hm; exact hq (by simp [hm])
              · exact .inr hq
            subst hscs
            split
            · exact frame_flushed hx2 id hid hids hq'
            · exact hx2.frame id hid hids hq'
        · intro hf
          subst hscs
          split
          · exact (hx2.fit hf).flush _ _
          · exact hx2.fit hf
        · intro hf
          rcases hx2.flagT hf with h | h
          · left; simpa using h
          · right; exact h
        · intro hf
          obtain ⟨a, b, d⟩ := hx2.flagF hf
          refine ⟨a, ?_⟩
          intro id hid l hl
          rcases List.mem_append.1 hid with hid | hid
          · exact b id hid l hl
          · simp at hid; subst hid; exact d l hl
        · subst hscs
          split
          · exact hx2.metaS.flush _ _
          · exact hx2.metaS
    by_cases hi : st2.inScene = true
    · refine ⟨{ st2 with scenes := flushed st2 }, ?_, ?_, h2.last, ?_⟩
      · rw [hrun, if_pos hi, storeLines_eq h2.curIn]
      · exact (final (flushed st2) (by rw [if_pos hi])).1
      · exact (final (flushed st2) (by rw [if_pos hi])).2
    · refine ⟨st2, ?_, ?_, h2.last, ?_⟩
      · rw [hrun, if_neg hi]
      · exact (final st2.scenes (by rw [if_neg hi])).1
      · exact (final st2.scenes (by rw [if_neg hi])).2

end
end Verif
