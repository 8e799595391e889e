/-
The sections of the project tree after saving and parsing, and the lists of scenes and chapters on the second saving.
-/
import Verif.Lemmas.Fix7
import Verif.Lemmas.Fix5
import Verif.Lemmas.Stable3

namespace Verif
open Xml Spec Elem

def listTags : List Str := [c!"LOCATIONS", c!"ITEMS", c!"CHARACTERS", c!"PROJECTNOTES"]

theorem withoutLists_rest {e : Elem} (h : e.tag ∉ listTags) : withoutLists rebuiltLists e = e := by
  refine withoutLists_of (fun p hp h0 => h ?_)
  rw [← h0]
  have : ∀ p ∈ rebuiltLists, p.1 ∈ listTags := by decide
  exact this p hp

theorem parsed_rel (e e' : Elem) (l : Nat) (hg : GoodTree SafePlain (withoutLists rebuiltLists e)) (hp : Parsed (indent (l + 1) e) e') (ht : TailAlike e.tail e'.tail) : RelE listTags e e' := by
  cases e with
  | node t x y ks =>
    by_cases hd : t ∈ listTags
    · have htc : t ∉ cdataTags := by
        have : ∀ t ∈ listTags, t ∉ cdataTags := by decide
        exact this t hd
      rw [indent_eq (l + 1) t x y ks (.inl (by omega))] at hp
      cases hp with
      | node _ _ x' _ y' _ ks' h1 h2 =>
        refine ⟨rfl, text_parsed (fun h => absurd h htc) (fun _ => ?_) h1, ht, fun h => absurd hd h⟩
        rw [withoutLists, mapKids, GoodTree, if_neg htc] at hg
        exact hg.2.1
    · rw [withoutLists_rest (e := node t x y ks) hd] at hg
      have := alike_iff.1 (parsed_alike _ e' l hg hp ht)
      exact ⟨this.1, this.2.1, this.2.2.1, fun _ => this.2.2.2⟩

theorem parsed_relL : ∀ (ks ks' : List Elem) (l : Nat), Secs SafePlain rebuiltLists ks → ParsedL (indentKids l ks) ks' → RelL listTags ks ks'
  | [], ks', l, _, h => by
    rw [indentKids] at h
    cases h
    rfl
  | [node t x y ks], ks', l, hg, h => by
    rw [indentKids] at h
    cases h with
    | cons _ e' _ r' p1 p2 p3 p4 =>
      cases p4
      have hg1 := hg _ List.mem_cons_self
      have hy : SafePlain (y.getD []) := by
        have := hg1
        rw [withoutLists, mapKids, GoodTree] at this
        exact this.2.2.1
      refine ⟨?_, rfl⟩
      rw [indent_eq (l + 1) t x y ks (.inl (by omega)), fixTail_node] at p1 p2
      refine parsed_rel (node t x y ks) e' l hg1 ?_ (tail_parsed2 hy p2)
      rw [indent_eq (l + 1) t x y ks (.inl (by omega))]
      cases p1 with
      | node _ _ x' _ y' _ ks' h1 h2 => exact .node _ _ _ _ _ _ _ h1 h2
  | node t x y ks :: f :: r, ks', l, hg, h => by
    rw [indentKids] at h
    cases h with
    | cons _ e' _ r' p1 p2 p3 p4 =>
      have hg1 := hg _ List.mem_cons_self
      have hy : SafePlain (y.getD []) := by
        have := hg1
        rw [withoutLists, mapKids, GoodTree] at this
        exact this.2.2.1
      refine ⟨parsed_rel (node t x y ks) e' l hg1 p1 ?_, parsed_relL (f :: r) r' l (fun z hz => hg z (List.mem_cons_of_mem _ hz)) p4⟩
      rw [indent_eq (l + 1) t x y ks (.inl (by omega))] at p2
      exact tail_parsed hy p2

/-- An entry of a list: an old element with new children. -/
def entryOf {β : Type} (tag : Str) (key : β → Str) (g : β → List Elem → Except Exc (List Elem)) (prev : Dict Elem) (b : β) : Except Exc Elem :=
  match g b (oldElem tag prev (key b)).kids with
  | .error x => .error x
  | .ok k => .ok ((oldElem tag prev (key b)).mapKids (fun _ => k))

theorem entryOf_ok {β : Type} {tag : Str} {key : β → Str} {g : β → List Elem → Except Exc (List Elem)} {prev : Dict Elem} {b : β} {e : Elem} (h : entryOf tag key g prev b = .ok e) :
    ∃ k, g b (oldElem tag prev (key b)).kids = .ok k ∧ e = (oldElem tag prev (key b)).mapKids (fun _ => k) := by
  unfold entryOf at h
  split at h
  · cases h
  · rename_i k hk
    cases h
    exact ⟨k, hk, rfl⟩

theorem ids_alike {β : Type} {g : β → Except Exc Elem} {key : β → Str} {l : List β} {o k : List Elem} (h : mapE g l = .ok o) (hid : ∀ b ∈ l, ∀ e, g b = .ok e → HasId (key b) e)
    (hk : ∀ b ∈ l, key b ≠ []) (ha : AlikeL o k) : k.map (fun e => textOf c!"ID" e.kids) = (l.map key).map some := by
  induction l generalizing o k with
  | nil =>
    cases h
    rw [AlikeL] at ha
    subst ha
    rfl
  | cons b r ih =>
    obtain ⟨e, es, h1, h2, rfl⟩ := mapE_cons_ok h
    cases k with
    | nil => exact ha.elim
    | cons e' es' =>
      have hi := hid b List.mem_cons_self e h1
      have := (alike_iff.1 ha.1).2.2.2.textOf (t := c!"ID") hi.2 ((idOf_ok_iff _ _).1 hi.1) (hk b List.mem_cons_self)
      rw [List.map_cons, List.map_cons, List.map_cons, this, ih h2 (fun c hc => hid c (List.mem_cons_of_mem _ hc)) (fun c hc => hk c (List.mem_cons_of_mem _ hc)) ha.2]

/-- The entries that are written on the second saving are like those that were written before. -/
theorem entries_alike {β : Type} {tag : Str} {key : β → Str} {g : β → List Elem → Except Exc (List Elem)} {prev prev' : Dict Elem} {l : List β} {o k o' : List Elem}
    (h : mapE (entryOf tag key g prev) l = .ok o) (h' : mapE (entryOf tag key g prev') l = .ok o') (ha : AlikeL o k) (hid : ∀ b ∈ l, ∀ e, entryOf tag key g prev b = .ok e → HasId (key b) e)
    (hk : ∀ b ∈ l, key b ≠ []) (hp : ∀ e ∈ k, ∀ id, textOf c!"ID" e.kids = some id → prev'.get? id = some e)
    (hf : ∀ b ∈ l, ∀ a a', g b (oldElem tag prev (key b)).kids = .ok a → AlikeL a a' → ∃ c, g b a' = .ok c ∧ AlikeL a c) : AlikeL o o' := by
  induction l generalizing o k o' with
  | nil => cases h; cases h'; rfl
  | cons b r ih =>
    obtain ⟨e, es, h1, h2, rfl⟩ := mapE_cons_ok h
    obtain ⟨f, fs, f1, f2, rfl⟩ := mapE_cons_ok h'
    cases k with
    | nil => exact ha.elim
    | cons e' es' =>
      refine ⟨?_, ih h2 f2 ha.2 (fun c hc => hid c (List.mem_cons_of_mem _ hc)) (fun c hc => hk c (List.mem_cons_of_mem _ hc)) (fun c hc => hp c (List.mem_cons_of_mem _ hc))
        (fun c hc => hf c (List.mem_cons_of_mem _ hc))⟩
      have hi := hid b List.mem_cons_self e h1
      have hae := alike_iff.1 ha.1
      have ht := hae.2.2.2.textOf (t := c!"ID") hi.2 ((idOf_ok_iff _ _).1 hi.1) (hk b List.mem_cons_self)
      have hold : oldElem tag prev' (key b) = e' := by
        unfold oldElem
        rw [hp e' List.mem_cons_self _ ht]
        rfl
      obtain ⟨a, a1, rfl⟩ := entryOf_ok h1
      obtain ⟨c, c1, rfl⟩ := entryOf_ok f1
      rw [hold] at c1 ⊢
      rw [Elem.kids_mapKids'] at hae
      obtain ⟨d, d1, d2⟩ := hf b List.mem_cons_self a e'.kids a1 hae.2.2.2
      rw [d1] at c1
      cases c1
      refine alike_iff.2 ⟨?_, ?_, ?_, ?_⟩
      · have := hae.1; cases e'; exact this
      · rw [Elem.kids_mapKids']
        have := hae.2.1; cases e'; exact this
      · have := hae.2.2.1; cases e'; exact this
      · rw [Elem.kids_mapKids', Elem.kids_mapKids']; exact d2

/-- The dictionary of the elements of a list with distinct IDs. -/
theorem prevDict_all {k : List Elem} {prev : Dict Elem} (h : prevDict [] k = .ok prev) (hd : (k.map (fun e => textOf c!"ID" e.kids)).Nodup) :
    ∀ e ∈ k, ∀ id, textOf c!"ID" e.kids = some id → prev.get? id = some e := by
  intro e he id hi
  have hs := (prevDict_has h).2 e he id ((idOf_ok_iff _ _).2 hi)
  obtain ⟨f, hf⟩ := Option.isSome_iff_exists.1 hs
  rcases prevDict_mem h hf with h0 | ⟨h1, h2⟩
  · cases h0
  · rw [hf, entry_unique hd h1 he (((idOf_ok_iff _ _).1 h2).trans hi.symm)]

theorem sceneElem_entry (prev : Dict Elem) (p : Str × Scene) : sceneElem prev p = entryOf c!"SCENE" Prod.fst (fun p ks => sceneOut p.2 ks) prev p := rfl

/-- The children of a chapter element. -/
def chapterKids (n : Novel) (id : Str) (ks : List Elem) : Except Exc (List Elem) :=
  match n.chapters.get? id with
  | none => .error .keyError
  | some c => buildChapter c ks

theorem chapterElem_entry (n : Novel) (prev : Dict Elem) (id : Str) : chapterElem n prev id = entryOf c!"CHAPTER" _root_.id (chapterKids n) prev id := by
  unfold chapterElem entryOf chapterKids
  dsimp only [_root_.id]
  cases n.chapters.get? id <;> rfl

/-- The scenes section on the second saving. -/
theorem scenes_fixed {n : Novel} {ks k1 k2 q q1 q2 : List Elem} (hn : n.scenes.keys.Nodup) (hne : ∀ id ∈ n.scenes.keys, id ≠ []) (hk : ∀ e ∈ ks, e.tag = c!"SCENE")
    (hi : ∀ e ∈ ks, ∀ i ∈ sel c!"ID" e.kids, i.kids = []) (hse : ∀ e ∈ ks, SceneElement e.kids) (tidy : ∀ e ∈ ks, ∀ t ∈ droppedScene, (sel t e.kids).length ≤ 1)
    (hst : ∀ p ∈ n.scenes, ∀ d t, p.2.date = some d → p.2.time = some t → d ++ ' ' :: t = c!" " ∨ 2 ≤ (d ++ ' ' :: t).count ':')
    (h1 : buildScenes n ks = .ok k1) (h2 : finishScenes n k1 = .ok k2) (ha : AlikeL k2 q) (hq : ∀ e ∈ q, e.tag = c!"SCENE") (h3 : buildScenes n q = .ok q1)
    (h4 : finishScenes n q1 = .ok q2) : AlikeL k2 q2 := by
  obtain ⟨prev, p1, p2⟩ := scenesSection_ok hn hk h1 h2
  obtain ⟨prev', p3, p4⟩ := scenesSection_ok hn hq h3 h4
  have hmem : ∀ p ∈ n.scenes, p.1 ∈ n.scenes.keys := fun p hp => List.mem_map.2 ⟨p, hp, rfl⟩
  have hid : ∀ p ∈ n.scenes, ∀ e, sceneElem prev p = .ok e → HasId p.1 e := fun p _ e he => sceneElem_hasId p1 hi he
  have hids := ids_alike (key := Prod.fst) p2 hid (fun p hp => hne _ (hmem p hp)) ha
  refine entries_alike (tag := c!"SCENE") (key := Prod.fst) (g := fun p ks => sceneOut p.2 ks) p2 p4 ha hid (fun p hp => hne _ (hmem p hp)) (prevDict_all p3 ?_) ?_
  · rw [hids]
    exact nodup_map_some hn
  · intro p hp a a' h0 hal
    have hold : SceneElement (oldElem c!"SCENE" prev p.1).kids ∧ ∀ t ∈ droppedScene, (sel t (oldElem c!"SCENE" prev p.1).kids).length ≤ 1 := by
      rcases oldElem_cases (tag := c!"SCENE") p1 p.1 with h | h
      · rw [h]
        refine ⟨(newScene_regular p.1).1, fun t ht => ?_⟩
        show (sel t [leaf c!"ID" (some p.1)]).length ≤ 1
        unfold sel
        exact Nat.le_trans (List.length_filter_le _ _) (Nat.le_refl _)
      · exact ⟨hse _ h.1, tidy _ h.1⟩
    exact scene_fixed hold.1 hold.2 (hst p hp) h0 hal

/-- The chapters section on the second saving. -/
theorem chapters_fixed {n : Novel} {ks k1 q q1 : List Elem} (hn : n.srtChapters.Nodup) (hne : ∀ id ∈ n.srtChapters, id ≠ []) (hk : ∀ e ∈ ks, e.tag = c!"CHAPTER")
    (hi : ∀ e ∈ ks, ∀ i ∈ sel c!"ID" e.kids, i.kids = []) (hse : ∀ e ∈ ks, ChapterElement e.kids) (tidy : ∀ e ∈ ks, (sel c!"SortOrder" e.kids).length ≤ 1)
    (h1 : buildChapters n ks = .ok k1) (ha : AlikeL k1 q) (hq : ∀ e ∈ q, e.tag = c!"CHAPTER") (h3 : buildChapters n q = .ok q1) : AlikeL k1 q1 := by
  obtain ⟨prev, p1, p2⟩ := chaptersSection_ok hk h1
  obtain ⟨prev', p3, p4⟩ := chaptersSection_ok hq h3
  have hid : ∀ p ∈ n.srtChapters, ∀ e, chapterElem n prev p = .ok e → HasId p e := fun p _ e he => chapterElem_hasId p1 hi he
  have hids := ids_alike (key := id) p2 hid hne ha
  rw [funext (chapterElem_entry n prev)] at p2 hid
  rw [funext (chapterElem_entry n prev')] at p4
  refine entries_alike p2 p4 ha hid hne (prevDict_all p3 ?_) ?_
  · rw [hids, List.map_id]
    exact nodup_map_some hn
  · intro p hp a a' h0 hal
    have hold : ChapterElement (oldElem c!"CHAPTER" prev p).kids ∧ (sel c!"SortOrder" (oldElem c!"CHAPTER" prev p).kids).length ≤ 1 := by
      rcases oldElem_cases (tag := c!"CHAPTER") p1 p with h | h
      · rw [h]
        refine ⟨?_, ?_⟩
        · exact newChapter p
        show (sel _ [leaf c!"ID" (some p)]).length ≤ 1
        unfold sel
        exact Nat.le_trans (List.length_filter_le _ _) (Nat.le_refl _)
      · exact ⟨hse _ h.1, tidy _ h.1⟩
    unfold chapterKids at h0 ⊢
    split at h0
    · cases h0
    · rename_i c hc
      exact chapter_fixed hold.1 hold.2 h0 hal

/-- A section that is rebuilt has the same entries again. -/
theorem rebuilt_fixed {α : Type} {tag : Str} {d : Dict α} {f : α → List Elem → List Elem} {ids : List Str} {ks ks' q q' : List Elem} (ht : ∀ e ∈ ks, e.tag = tag) (ht' : ∀ e ∈ q, e.tag = tag)
    (h : rebuildSection tag d f ids ks = .ok ks') (h' : rebuildSection tag d f ids q = .ok q') : AlikeL ks' q' := by
  have a := rebuildSection_ok h ht
  have b := rebuildSection_ok h' ht'
  rw [a] at b
  cases b
  exact AlikeL.refl _

end Verif
