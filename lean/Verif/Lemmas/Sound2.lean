/-
What splitting keeps, for scenes with and without a state: a scene without a state only makes the splitter fail.
-/
import Verif.Lemmas.Sound
import Verif.Props.C06_C09_Splitter

namespace Verif.Kept
open Verif Spec

variable [Starts]

/-! ### Every step keeps what is said of all scenes and chapters -/

theorem foldE_inv {σ α : Type} {P : σ → Prop} {f : σ → α → Except Exc σ} (hf : ∀ s a s', P s → f s a = .ok s' → P s') :
    ∀ (l : List α) (s s' : σ), P s → foldE f s l = .ok s' → P s'
  | [], _, _, h, e => by cases e; exact h
  | a :: r, s, s', h, e => by
    unfold foldE at e
    cases ha : f s a with
    | error x => rw [ha] at e; exact nomatch e
    | ok s1 => rw [ha] at e; exact foldE_inv hf r s1 s' (hf s a s1 h ha) e

/-- All scenes and chapters are in order. -/
def All (st : SplitState) : Prop :=
  (∀ k s, st.scenes.get? k = some s → Good s) ∧ ∀ k c, st.chapters.get? k = some c → c.chType.getD 0 ≤ 3

theorem good_mark {s : Scene} (h : Good s) : Good (markParent s) := h

theorem all_modify {d : Dict Scene} (h : ∀ k s, d.get? k = some s → Good s) (id : Str) {f : Scene → Scene} (hf : ∀ s, Good s → Good (f s)) :
    ∀ k s, (d.modify id f).get? k = some s → Good s := by
  intro k s e
  rw [Dict.get?_modify] at e
  split at e
  · obtain ⟨s0, h0, rfl⟩ := Option.map_eq_some_iff.1 e
    exact hf s0 (h k s0 h0)
  · exact h k s e

theorem all_store {st st' : SplitState} (h : All st) (e : storeLines st = .ok st') : All st' := by
  unfold storeLines at e
  split at e
  · cases e
    exact ⟨all_modify h.1 _ (fun s hs => good_content hs _), h.2⟩
  · exact nomatch e

theorem all_scenes {st st' : SplitState} (h : All st) (e : storeScenes st = .ok st') : All st' := by
  unfold storeScenes at e
  split at e
  · cases e
    refine ⟨h.1, ?_⟩
    intro k c e
    have e : (st.chapters.modify st.chapterId (fun c => { c with srtScenes := st.srtScenes })).get? k = some c := e
    rw [Dict.get?_modify] at e
    split at e
    · obtain ⟨c0, h0, rfl⟩ := Option.map_eq_some_iff.1 e
      exact h.2 k c0 h0
    · exact h.2 k c e
  · exact nomatch e

theorem all_create {d d' : Dict Scene} {a b t u : Str} {c : Nat} (h : ∀ k s, d.get? k = some s → Good s) (e : createScene d a b c t u = .ok d') :
    ∀ k s, d'.get? k = some s → Good s := by
  unfold createScene at e
  split at e
  · exact nomatch e
  · rename_i p hp
    split at e
    · exact nomatch e
    · cases e
      intro k s hs
      rw [Dict.get?_set] at hs
      split at hs
      · cases hs
        have hg := h b p hp
        exact ⟨hg.1, hg.2.1, fun _ hx => nomatch hx⟩
      · exact all_modify h b (fun s hs => good_mark hs) k s hs

theorem all_chapter {st st' : SplitState} {t u : Str} {lv : Nat} (h : All st) (e : splitAtChapter st t u lv = .ok st') : All st' := by
  unfold splitAtChapter at e
  have h1 : ∀ s1, (if st.inScene then
      match storeLines st with
      | .error e => .error e
      | .ok st => .ok { st with newLines := [], splitCount := 0, inScene := false }
    else .ok st : Except Exc SplitState) = .ok s1 → All s1 := by
    intro s1 e1
    split at e1
    · cases hs : storeLines st with
      | error x => rw [hs] at e1; exact nomatch e1
      | ok s2 =>
        rw [hs] at e1
        cases e1
        have hx : All s2 := all_store h hs
        exact hx
    · cases e1; exact h
  dsimp only at e
  split at e
  · exact nomatch e
  · rename_i s1 e1
    have h2 := h1 s1 e1
    split at e
    · exact nomatch e
    · rename_i s2 e2
      cases e
      have h3 := all_scenes h2 e2
      refine ⟨h3.1, ?_⟩
      intro k c hc
      have hc : (createChapter s2.chapters (createId s2.chapters.keys) t u lv).get? k = some c := hc
      unfold createChapter at hc
      rw [Dict.get?_set] at hc
      split at hc
      · cases hc; exact Nat.zero_le _
      · exact h3.2 k c hc

theorem all_line {scId : Str} {st st' : SplitState} {line : Str} (h : All st) (e : splitLine scId st line = .ok st') : All st' := by
  unfold splitLine at e
  dsimp only at e
  split at e
  · unfold splitAtScene at e
    split at e
    · exact nomatch e
    · rename_i s1 e1
      have h1 := all_store h e1
      dsimp only at e
      split at e
      · exact nomatch e
      · rename_i d ed
        cases e
        exact ⟨all_create h1.1 ed, h1.2⟩
  · split at e
    · split at e
      · exact nomatch e
      · rename_i s1 e1
        cases e
        have hx : All s1 := all_chapter h e1
        exact hx
    · split at e
      · exact all_chapter h e
      · split at e
        · split at e
          · exact nomatch e
          · rename_i d ed
            cases e
            exact ⟨all_create h.1 ed, h.2⟩
        · cases e; exact h

theorem all_scene {st st' : SplitState} {scId : Str} (h : All st) (e : splitScene st scId = .ok st') : All st' := by
  unfold splitScene at e
  dsimp only at e
  split at e
  · exact nomatch e
  · split at e
    · cases e; exact h
    · cases e; exact h
    · split at e
      · exact nomatch e
      · rename_i s1 e1
        have h1 : All s1 := foldE_inv (P := All) (f := splitLine scId) (fun s a s' hs he => all_line hs he) _ _ _
          (show All { st with srtScenes := st.srtScenes ++ [scId], sceneId := scId, newLines := [], inScene := true, splitCount := 0 } from h) e1
        split at e
        · exact all_store h1 e
        · cases e; exact h1

theorem all_chapters {st st' : SplitState} {chId : Str} (h : All st) (e : splitChapter st chId = .ok st') : All st' := by
  unfold splitChapter at e
  dsimp only at e
  split at e
  · exact nomatch e
  · split at e
    · exact nomatch e
    · rename_i s1 e1
      have h1 : All s1 := foldE_inv (P := All) (f := splitScene) (fun s a s' hs he => all_scene hs he) _ _ _
        (show All { st with srtChapters := st.srtChapters ++ [chId], chapterId := chId, srtScenes := [] } from h) e1
      exact all_scenes h1 e

/-! ### A state for every scene -/

/-- The scene with a state. -/
def fillScene (s : Scene) : Scene := { s with status := some (s.status.getD 0) }

/-- All scenes with a state. -/
def fill (d : Dict Scene) : Dict Scene := d.map (fun p => (p.1, fillScene p.2))

theorem fill_keys (d : Dict Scene) : (fill d).keys = d.keys := by
  unfold fill Dict.keys
  rw [List.map_map]
  rfl

theorem fill_get (k : Str) : ∀ d : Dict Scene, (fill d).get? k = (d.get? k).map fillScene
  | [] => rfl
  | p :: r => by
    obtain ⟨a, s⟩ := p
    have ih := fill_get k r
    show (if a = k then some (fillScene s) else (fill r).get? k) = (if a = k then some s else Dict.get? r k).map fillScene
    split
    · rfl
    · exact ih

theorem fill_has (d : Dict Scene) (k : Str) : (fill d).has k = d.has k := by
  rw [Bool.eq_iff_iff, Dict.has_iff, Dict.has_iff, fill_keys]

theorem fill_modify (id : Str) {f : Scene → Scene} (hf : ∀ s, fillScene (f s) = f (fillScene s)) : ∀ d : Dict Scene, fill (d.modify id f) = (fill d).modify id f
  | [] => rfl
  | p :: r => by
    obtain ⟨a, s⟩ := p
    have ih := fill_modify id hf r
    show fill (if a = id then (a, f s) :: r else (a, s) :: Dict.modify r id f) =
      (if a = id then (a, f (fillScene s)) :: fill r else (a, fillScene s) :: (fill r).modify id f)
    split
    · rw [← hf]; rfl
    · rw [← ih]; rfl

theorem fill_set (id : Str) (s : Scene) : ∀ d : Dict Scene, fill (d.set id s) = (fill d).set id (fillScene s)
  | [] => rfl
  | p :: r => by
    obtain ⟨a, s'⟩ := p
    have ih := fill_set id s r
    show fill (if a = id then (a, s) :: r else (a, s') :: Dict.set r id s) =
      (if a = id then (a, fillScene s) :: fill r else (a, fillScene s') :: (fill r).set id (fillScene s))
    split
    · rfl
    · rw [← ih]; rfl

/-- The state of the splitter with the filled scenes. -/
def fillSt (st : SplitState) : SplitState := { st with scenes := fill st.scenes }

theorem fill_mark (s : Scene) : fillScene (markParent s) = markParent (fillScene s) := by
  unfold fillScene markParent
  cases s.status with
  | none => rfl
  | some v =>
    show ({ s with desc := _, goal := _, conflict := _, outcome := _, status := some (if v > 2 then 2 else v) } : Scene) = _
    rfl

theorem fill_create {d d' : Dict Scene} {a b t u : Str} {c : Nat} (e : createScene d a b c t u = .ok d') :
    createScene (fill d) a b c t u = .ok (fill d') := by
  unfold createScene at e ⊢
  rw [fill_get]
  cases hp : d.get? b with
  | none => rw [hp] at e; exact nomatch e
  | some p =>
    rw [hp] at e
    dsimp only [Option.map_some] at e ⊢
    cases hs : p.status with
    | none => rw [hs] at e; exact nomatch e
    | some v =>
      rw [hs] at e
      have e : Except.ok ((d.modify b markParent).set a (newSplitScene (markParent p) c t u)) = .ok d' := e
      cases e
      have hn : fillScene (newSplitScene (markParent p) c t u) = newSplitScene (markParent (fillScene p)) c t u := by
        have : fillScene p = p := by unfold fillScene; rw [hs]; obtain ⟨⟩ := p; cases hs; rfl
        rw [this]
        unfold fillScene newSplitScene markParent
        rw [hs]
        rfl
      rw [fill_set, fill_modify b fill_mark, hn]
      rfl

theorem fill_store {st st' : SplitState} (e : storeLines st = .ok st') : storeLines (fillSt st) = .ok (fillSt st') := by
  unfold storeLines at e ⊢
  show (if (fill st.scenes).has st.sceneId then _ else _) = _
  rw [fill_has]
  split at e
  · rename_i h
    cases e
    rw [if_pos h]
    have := fill_modify st.sceneId (f := fun s => s.setContent (Str.join c!"\n" st.newLines)) (fun _ => rfl) st.scenes
    simp only [fillSt, this]
  · exact nomatch e

theorem fill_scenes {st st' : SplitState} (e : storeScenes st = .ok st') : storeScenes (fillSt st) = .ok (fillSt st') := by
  unfold storeScenes at e ⊢
  show (if st.chapters.has st.chapterId then _ else _) = _
  split at e
  · rename_i h
    cases e
    rw [if_pos h]
    rfl
  · exact nomatch e

theorem fill_chapter {st st' : SplitState} {t u : Str} {lv : Nat} (e : splitAtChapter st t u lv = .ok st') :
    splitAtChapter (fillSt st) t u lv = .ok (fillSt st') := by
  unfold splitAtChapter at e ⊢
  dsimp only at e ⊢
  by_cases hi : st.inScene = true
  · have hi' : (fillSt st).inScene = true := hi
    rw [if_pos hi] at e
    rw [if_pos hi']
    cases hs : storeLines st with
    | error x => rw [hs] at e; exact nomatch e
    | ok s1 =>
      rw [hs] at e
      rw [fill_store hs]
      dsimp only at e ⊢
      split at e
      · exact nomatch e
      · rename_i s2 e2
        have := fill_scenes e2
        cases e
        simp only [fillSt] at this ⊢
        rw [this]
  · have hi' : ¬ (fillSt st).inScene = true := hi
    rw [if_neg hi] at e
    rw [if_neg hi']
    dsimp only at e ⊢
    split at e
    · exact nomatch e
    · rename_i s2 e2
      rw [fill_scenes e2]
      cases e
      rfl

theorem fill_line {scId : Str} {st st' : SplitState} {line : Str} (e : splitLine scId st line = .ok st') :
    splitLine scId (fillSt st) line = .ok (fillSt st') := by
  unfold splitLine at e ⊢
  dsimp only at e ⊢
  split at e
  · rename_i c1
    rw [if_pos c1]
    unfold splitAtScene at e ⊢
    split at e
    · exact nomatch e
    · rename_i s1 e1
      rw [fill_store e1]
      dsimp only at e ⊢
      split at e
      · exact nomatch e
      · rename_i d ed
        cases e
        have := fill_create ed
        have hk : (fillSt s1).scenes.keys = s1.scenes.keys := fill_keys _
        rw [hk]
        show (match createScene (fill s1.scenes) (createId s1.scenes.keys) scId (s1.splitCount + 1) _ _ with | .error e => _ | .ok scenes => _) = _
        rw [this]
        rfl
  · rename_i c1
    rw [if_neg c1]
    split at e
    · rename_i c2
      rw [if_pos c2]
      split at e
      · exact nomatch e
      · rename_i s1 e1
        cases e
        rw [fill_chapter e1]
        rfl
    · rename_i c2
      rw [if_neg c2]
      split at e
      · rename_i c3
        rw [if_pos c3]
        exact fill_chapter e
      · rename_i c3
        rw [if_neg c3]
        show (if st.inScene = false then _ else _) = _
        split at e
        · rename_i c4
          rw [if_pos c4]
          split at e
          · exact nomatch e
          · rename_i d ed
            cases e
            have := fill_create ed
            have hk : (fillSt st).scenes.keys = st.scenes.keys := fill_keys _
            rw [hk]
            show (match createScene (fill st.scenes) (createId st.scenes.keys) scId (st.splitCount + 1) _ _ with | .error e => _ | .ok scenes => _) = _
            rw [this]
            rfl
        · rename_i c4
          rw [if_neg c4]
          cases e; rfl

theorem fill_fold {α : Type} {f : SplitState → α → Except Exc SplitState} (hf : ∀ s a s', f s a = .ok s' → f (fillSt s) a = .ok (fillSt s')) :
    ∀ (l : List α) (s s' : SplitState), foldE f s l = .ok s' → foldE f (fillSt s) l = .ok (fillSt s')
  | [], _, _, e => by cases e; rfl
  | a :: r, s, s', e => by
    unfold foldE at e ⊢
    cases ha : f s a with
    | error x => rw [ha] at e; exact nomatch e
    | ok s1 =>
      rw [ha] at e
      rw [hf s a s1 ha]
      exact fill_fold hf r s1 s' e

theorem fill_scene {st st' : SplitState} {scId : Str} (e : splitScene st scId = .ok st') : splitScene (fillSt st) scId = .ok (fillSt st') := by
  unfold splitScene at e ⊢
  dsimp only at e ⊢
  show (match (fill st.scenes).get? scId with | none => _ | some sc => _) = _
  rw [fill_get]
  cases hg : st.scenes.get? scId with
  | none => rw [hg] at e; exact nomatch e
  | some sc =>
    rw [hg] at e
    dsimp only [Option.map_some] at e ⊢
    show (match sc.sceneContent with | none => _ | some [] => _ | some text => _) = _
    rcases hc : sc.sceneContent with _ | _ | ⟨c, cs⟩
    · rw [hc] at e; cases e; rfl
    · rw [hc] at e; cases e; rfl
    · rw [hc] at e
      dsimp only at e ⊢
      split at e
      · exact nomatch e
      · rename_i s1 e1
        have := fill_fold (fun s a s' he => fill_line he) _ _ _ e1
        simp only [fillSt] at this ⊢
        rw [this]
        show (if s1.inScene then _ else _) = _
        split at e
        · rename_i hi
          rw [if_pos hi]
          exact fill_store e
        · rename_i hi
          rw [if_neg hi]
          cases e; rfl

theorem fill_chapters {st st' : SplitState} {chId : Str} (e : splitChapter st chId = .ok st') : splitChapter (fillSt st) chId = .ok (fillSt st') := by
  unfold splitChapter at e ⊢
  dsimp only at e ⊢
  show (match st.chapters.get? chId with | none => _ | some ch => _) = _
  cases hg : st.chapters.get? chId with
  | none => rw [hg] at e; exact nomatch e
  | some ch =>
    rw [hg] at e
    dsimp only at e ⊢
    split at e
    · exact nomatch e
    · rename_i s1 e1
      have := fill_fold (fun s a s' he => fill_scene he) _ _ _ e1
      simp only [fillSt] at this ⊢
      rw [this]
      exact fill_scenes e

theorem fill_narrative (n : Novel) : narrative { n with scenes := fill n.scenes } = narrative n := rfl

theorem fill_sound {n : Novel} : Sound { n with scenes := fill n.scenes } ↔ Sound n := by
  constructor
  · intro h
    exact { chKeys := h.chKeys, scKeys := fill_keys n.scenes ▸ h.scKeys, chNodup := h.chNodup, chIn := h.chIn, scNodup := h.scNodup,
            scIn := fun s hs => fill_keys n.scenes ▸ h.scIn s hs }
  · intro h
    exact { chKeys := h.chKeys, scKeys := (fill_keys n.scenes).symm ▸ h.scKeys, chNodup := h.chNodup, chIn := h.chIn, scNodup := h.scNodup,
            scIn := fun s hs => (fill_keys n.scenes).symm ▸ h.scIn s hs }

theorem fill_status (n : Novel) : HasStatus { n with scenes := fill n.scenes } := by
  intro id _ sc h
  have h : (fill n.scenes).get? id = some sc := h
  rw [fill_get] at h
  obtain ⟨s, _, rfl⟩ := Option.map_eq_some_iff.1 h
  rfl

theorem fill_split {n m : Novel} {b : Bool} (e : splitScenes n = .ok (m, b)) :
    splitScenes { n with scenes := fill n.scenes } = .ok ({ m with scenes := fill m.scenes }, b) := by
  unfold splitScenes at e ⊢
  split at e
  · exact nomatch e
  · rename_i st e1
    have := fill_fold (fun s a s' he => fill_chapters he) _ _ _ e1
    show (match foldE splitChapter (fillSt { scenes := n.scenes, chapters := n.chapters }) _ with | .error e => _ | .ok st => _) = _
    rw [this]
    cases e
    rfl

theorem split_keeps {n m : Novel} {b : Bool} (hk : K n) (e : splitScenes n = .ok (m, b)) : K m := by
  have hs : Sound m := by
    obtain ⟨m', b', e', h, _⟩ := C08_sound { n with scenes := fill n.scenes } (fill_sound.2 hk.sound) (fill_status n)
    rw [fill_split e] at e'
    cases e'
    exact fill_sound.1 h
  unfold splitScenes at e
  split at e
  · exact nomatch e
  · rename_i st e1
    have h0 : All { scenes := n.scenes, chapters := n.chapters } := ⟨hk.sc, hk.ch⟩
    have := foldE_inv (fun s a s' hs he => all_chapters hs he) _ _ _ h0 e1
    cases e
    exact ⟨hs, this.1, this.2, hk.langs⟩

end Verif.Kept
