/-
The IDs that imports and the splitter make are numbers.
-/
import Verif.Lemmas.Sound2
import Verif.Lemmas.Yw7Vars
import Verif.Props.C35_Elements
import Verif.Props.C35_Frame
import Verif.Props.C35_Proof

namespace Verif.Kept
open Verif Spec

variable [Starts]

/-- The new IDs of scenes and chapters are good ones. -/
def NewGood (A B : List Str) (st : SplitState) : Prop :=
  (∀ k ∈ st.scenes.keys, k ∈ A ∨ GoodId k) ∧ ∀ k ∈ st.chapters.keys, k ∈ B ∨ GoodId k

variable {A B : List Str}

theorem new_store {st st' : SplitState} (h : NewGood A B st) (e : storeLines st = .ok st') : NewGood A B st' := by
  unfold storeLines at e
  split at e
  · cases e
    refine ⟨?_, h.2⟩
    show ∀ k ∈ (Dict.modify _ _ _).keys, _
    rw [Dict.keys_modify]; exact h.1
  · exact nomatch e

theorem new_scenes {st st' : SplitState} (h : NewGood A B st) (e : storeScenes st = .ok st') : NewGood A B st' := by
  unfold storeScenes at e
  split at e
  · cases e
    refine ⟨h.1, ?_⟩
    show ∀ k ∈ (Dict.modify _ _ _).keys, _
    rw [Dict.keys_modify]; exact h.2
  · exact nomatch e

theorem new_create {d d' : Dict Scene} {b t u : Str} {c : Nat} (h : ∀ k ∈ d.keys, k ∈ A ∨ GoodId k) (e : createScene d (createId d.keys) b c t u = .ok d') :
    ∀ k ∈ d'.keys, k ∈ A ∨ GoodId k := by
  unfold createScene at e
  split at e
  · exact nomatch e
  · split at e
    · exact nomatch e
    · cases e
      intro k hk
      rw [Dict.mem_keys_set, Dict.keys_modify] at hk
      rcases hk with rfl | hk
      · exact .inr (goodId_createId _)
      · exact h k hk

theorem new_chapter {st st' : SplitState} {t u : Str} {lv : Nat} (h : NewGood A B st) (e : splitAtChapter st t u lv = .ok st') : NewGood A B st' := by
  unfold splitAtChapter at e
  have h1 : ∀ s1, (if st.inScene then
      match storeLines st with
      | .error e => .error e
      | .ok st => .ok { st with newLines := [], splitCount := 0, inScene := false }
    else .ok st : Except Exc SplitState) = .ok s1 → NewGood A B s1 := by
    intro s1 e1
    split at e1
    · cases hs : storeLines st with
      | error x => rw [hs] at e1; exact nomatch e1
      | ok s2 =>
        rw [hs] at e1
        cases e1
        have hx : NewGood A B s2 := new_store h hs
        exact hx
    · cases e1; exact h
  dsimp only at e
  split at e
  · exact nomatch e
  · rename_i s1 e1
    have h2 := h1 s1 e1
    split at e
    · exact nomatch e
    · rename_i s2 e2
      cases e
      have h3 := new_scenes h2 e2
      refine ⟨h3.1, ?_⟩
      intro k hk
      have hk : k ∈ (Dict.set s2.chapters (createId s2.chapters.keys) _).keys := hk
      rw [Dict.mem_keys_set] at hk
      rcases hk with rfl | hk
      · exact .inr (goodId_createId _)
      · exact h3.2 k hk

theorem new_line {scId : Str} {st st' : SplitState} {line : Str} (h : NewGood A B st) (e : splitLine scId st line = .ok st') : NewGood A B st' := by
  unfold splitLine at e
  dsimp only at e
  split at e
  · unfold splitAtScene at e
    split at e
    · exact nomatch e
    · rename_i s1 e1
      have h1 := new_store h e1
      dsimp only at e
      split at e
      · exact nomatch e
      · rename_i d ed
        cases e
        exact ⟨new_create h1.1 ed, h1.2⟩
  · split at e
    · split at e
      · exact nomatch e
      · rename_i s1 e1
        cases e
        have hx : NewGood A B s1 := new_chapter h e1
        exact hx
    · split at e
      · exact new_chapter h e
      · split at e
        · split at e
          · exact nomatch e
          · rename_i d ed
            cases e
            exact ⟨new_create h.1 ed, h.2⟩
        · cases e; exact h

theorem new_scene {st st' : SplitState} {scId : Str} (h : NewGood A B st) (e : splitScene st scId = .ok st') : NewGood A B st' := by
  unfold splitScene at e
  dsimp only at e
  split at e
  · exact nomatch e
  · split at e
    · cases e; exact h
    · cases e; exact h
    · split at e
      · exact nomatch e
      · rename_i s1 e1
        have h1 : NewGood A B s1 := foldE_inv (P := NewGood A B) (f := splitLine scId) (fun s a s' hs he => new_line hs he) _ _ _
          (show NewGood A B { st with srtScenes := st.srtScenes ++ [scId], sceneId := scId, newLines := [], inScene := true, splitCount := 0 } from h) e1
        split at e
        · exact new_store h1 e
        · cases e; exact h1

theorem new_chapters {st st' : SplitState} {chId : Str} (h : NewGood A B st) (e : splitChapter st chId = .ok st') : NewGood A B st' := by
  unfold splitChapter at e
  dsimp only at e
  split at e
  · exact nomatch e
  · split at e
    · exact nomatch e
    · rename_i s1 e1
      have h1 : NewGood A B s1 := foldE_inv (P := NewGood A B) (f := splitScene) (fun s a s' hs he => new_scene hs he) _ _ _
        (show NewGood A B { st with srtChapters := st.srtChapters ++ [chId], chapterId := chId, srtScenes := [] } from h) e1
      exact new_scenes h1 e

/-- The IDs of the scenes and of the chapters that are listed are good ones. -/
structure Ids (n : Novel) : Prop where
  scenes : ∀ id ∈ n.scenes.keys, GoodId id
  chapters : ∀ id ∈ n.srtChapters, GoodId id

theorem split_ids {n m : Novel} {b : Bool} (hn : Sound n) (h : Ids n) (e : splitScenes n = .ok (m, b)) : Ids m := by
  have hs := C08_structure _ _ b (fill_sound.2 hn) (fill_status n) (fill_split e)
  have hm : Sound m := by
    obtain ⟨m', b', e', h, _⟩ := C08_sound { n with scenes := fill n.scenes } (fill_sound.2 hn) (fill_status n)
    rw [fill_split e] at e'
    cases e'
    exact fill_sound.1 h
  have hnew : NewGood n.scenes.keys n.chapters.keys { scenes := m.scenes, chapters := m.chapters } := by
    unfold splitScenes at e
    split at e
    · exact nomatch e
    · rename_i st e1
      have h0 : NewGood n.scenes.keys n.chapters.keys { scenes := n.scenes, chapters := n.chapters } := ⟨fun k hk => .inl hk, fun k hk => .inl hk⟩
      have := foldE_inv (P := NewGood n.scenes.keys n.chapters.keys) (fun s a s' hs he => new_chapters hs he) _ _ _ h0 e1
      cases e
      exact this
  refine ⟨fun id hid => (hnew.1 id hid).elim (h.scenes id) (fun g => g), fun id hid => ?_⟩
  rcases hnew.2 id (hm.chIn id hid) with hk | hk
  · exact h.chapters id (hs.2.2.2.2.2.2.2 id hid hk)
  · exact hk

/-! ### Sections and marks -/

theorem goodId_digits {id : Str} (h0 : id ≠ []) (h : ∀ c ∈ id, Str.isDig c = true) : GoodId id := ⟨h0, fun c hc => plain_digit (h c hc)⟩

theorem takeWhile_dig (s : Str) : ∀ c ∈ s.takeWhile Str.isDig, Str.isDig c = true := by
  intro c hc
  induction s with
  | nil => exact nomatch hc
  | cons a s ih =>
    rw [List.takeWhile_cons] at hc
    split at hc
    · rename_i h
      rcases List.mem_cons.1 hc with rfl | hc
      · exact h
      · exact ih hc
    · exact nomatch hc

theorem occurs_good {mark id : Str} {x : List Ev} (h : Occurs mark x id) : GoodId id := by
  obtain ⟨name, _, _, e, hne⟩ := h
  refine goodId_digits hne ?_
  rw [← e]
  exact takeWhile_dig _

theorem searchId_good {mark : Str} : ∀ {v id : Str}, searchId mark v = .ok id → GoodId id
  | [], _, e => nomatch e
  | c :: cs, id, e => by
    rw [searchId.eq_def] at e
    dsimp only at e
    split at e
    · rename_i h
      cases e
      exact goodId_digits h.2 (takeWhile_dig _)
    · exact searchId_good e

end Verif.Kept
