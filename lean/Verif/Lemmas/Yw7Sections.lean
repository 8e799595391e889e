/-
Lemmas about the written sections and what is read back from them.
-/
import Verif.Lemmas.Yw7Root

namespace Verif
open Xml Elem Spec

/-- The IDs of written entries are read back in the written order. -/
theorem reload_section {β : Type} {g : β → Except Exc Elem} {key : β → Str} {l : List β}
    {es es' : List Elem} (hm : mapE g l = .ok es) (hid : ∀ b ∈ l, ∀ e, g b = .ok e → HasId (key b) e)
    (hp : ∀ b ∈ l, key b ≠ [] ∧ PlainStr (key b)) (hr : ReloadedL es es') :
    mapE idOf es' = .ok (l.map key) ∧
    (∀ b ∈ l, ∃ e e', g b = .ok e ∧ e' ∈ es' ∧ Reloaded e e' ∧ idOf e' = .ok (key b)) ∧
    (∀ e' ∈ es', ∃ b ∈ l, ∃ e, g b = .ok e ∧ Reloaded e e' ∧ idOf e' = .ok (key b)) := by
  induction l generalizing es es' with
  | nil =>
    unfold mapE at hm; cases hm; cases hr
    exact ⟨rfl, by simp, by simp⟩
  | cons b r ih =>
    obtain ⟨e, rs, h1, h2, rfl⟩ := mapE_cons_ok hm
    cases hr with
    | cons _ e' _ rs' hr1 hr2 =>
      have hi := (hid b (by simp) e h1).reloaded hr1 (hp b (by simp))
      obtain ⟨i1, i2, i3⟩ := ih h2 (fun x hx => hid x (by simp [hx])) (fun x hx => hp x (by simp [hx])) hr2
      refine ⟨mapE_cons_of hi.1 i1, ?_, ?_⟩
      · intro x hx
        rcases List.mem_cons.1 hx with rfl | hx
        · exact ⟨e, e', h1, by simp, hr1, hi.1⟩
        · obtain ⟨y, y', hy1, hy2, hy3⟩ := i2 x hx
          exact ⟨y, y', hy1, by simp [hy2], hy3⟩
      · intro x hx
        rcases List.mem_cons.1 hx with rfl | hx
        · exact ⟨b, by simp, e, h1, hr1, hi.1⟩
        · obtain ⟨y, hy, hy2⟩ := i3 x hx
          exact ⟨y, by simp [hy], hy2⟩

theorem filter_eq_nil_of_tag {t : Str} {ks : List Elem} (h : ∀ e ∈ ks, e.tag = t) :
    ks.filter (fun e => decide (e.tag ≠ t)) = [] := by
  rw [List.filter_eq_nil_iff]
  intro e he
  simp [h e he]

theorem sel_eq_self {t : Str} {ks : List Elem} (h : ∀ e ∈ ks, e.tag = t) : sel t ks = ks := by
  unfold sel
  rw [List.filter_eq_self]
  intro e he
  simp [h e he]

/-- The entry `rebuildSection` writes. -/
def newEntry {α : Type} (tag : Str) (d : Dict α) (f : α → List Elem → List Elem) (id : Str) : Except Exc Elem :=
  match d.get? id with
  | none => .error .keyError
  | some a => .ok (node tag none none (f a [leaf c!"ID" (some id)]))

theorem rebuildSection_ok {α : Type} {tag : Str} {d : Dict α} {f : α → List Elem → List Elem}
    {ids : List Str} {ks out : List Elem} (h : rebuildSection tag d f ids ks = .ok out)
    (ht : ∀ e ∈ ks, e.tag = tag) : mapE (newEntry tag d f) ids = .ok out := by
  unfold rebuildSection at h
  rw [filter_eq_nil_of_tag ht] at h
  change (match mapE (newEntry tag d f) ids with
    | .error e => Except.error e
    | .ok es => .ok ([] ++ es)) = _ at h
  cases hm : mapE (newEntry tag d f) ids with
  | error x => rw [hm] at h; cases h
  | ok es => rw [hm] at h; cases h; rfl

theorem newEntry_hasId {α : Type} {tag : Str} {d : Dict α} {f : α → List Elem → List Elem}
    (hf : ∀ a ks, sel c!"ID" (f a ks) = sel c!"ID" ks) {id : Str} {e : Elem}
    (h : newEntry tag d f id = .ok e) : HasId id e := by
  unfold newEntry at h
  cases hd : d.get? id with
  | none => rw [hd] at h; cases h
  | some a =>
    rw [hd] at h; cases h
    unfold HasId
    rw [idOf_ok_iff, kids_node, textOf_eq, hf]
    exact ⟨rfl, by intro i hi; simp [sel, leaf] at hi; subst hi; rfl⟩

theorem sel_ID_buildWorld (w : WorldElement) (ks : List Elem) :
    sel c!"ID" (buildWorld w ks) = sel c!"ID" ks := by
  unfold buildWorld
  rw [sel_removeFirst_ne (by decide), sel_putCustom_ne (by decide), sel_putNew_ne (by decide),
    sel_putNew_ne (by decide), sel_putNew_ne (by decide), sel_putNew_ne (by decide),
    sel_putNew_ne (by decide)]

theorem sel_ID_buildCharacter (w : Character) (ks : List Elem) :
    sel c!"ID" (buildCharacter w ks) = sel c!"ID" ks := by
  unfold buildCharacter
  rw [sel_removeFirst_ne (by decide), sel_putCustom_ne (by decide), sel_putCustom_ne (by decide),
    sel_putCustom_ne (by decide), sel_putNew_ne (by decide),
    sel_putNew_ne (by decide), sel_putNew_ne (by decide), sel_putNew_ne (by decide),
    sel_putNew_ne (by decide), sel_putNew_ne (by decide), sel_putNew_ne (by decide),
    sel_putNew_ne (by decide), sel_putNew_ne (by decide), sel_putNew_ne (by decide)]

theorem sel_ID_buildNote (w : BasicElement) (ks : List Elem) :
    sel c!"ID" (buildNote w ks) = sel c!"ID" ks := by
  unfold buildNote
  rw [sel_putNew_ne (by decide), sel_putNew_ne (by decide)]

/-! ### Scenes and chapters -/

theorem prevDict_mem {d r : Dict Elem} {l : List Elem} (h : prevDict d l = .ok r) {id : Str} {e : Elem}
    (he : r.get? id = some e) : d.get? id = some e ∨ (e ∈ l ∧ idOf e = .ok id) := by
  induction l generalizing d with
  | nil => unfold prevDict at h; cases h; exact Or.inl he
  | cons a s ih =>
    unfold prevDict at h
    cases hi : idOf a with
    | error x => rw [hi] at h; cases h
    | ok i =>
      rw [hi] at h; simp only at h
      rcases ih h with h1 | ⟨h1, h2⟩
      · rw [Dict.get?_set] at h1
        split at h1
        · rename_i heq
          cases h1; subst heq
          exact Or.inr ⟨by simp, hi⟩
        · exact Or.inl h1
      · exact Or.inr ⟨by simp [h1], h2⟩

/-- The element of the previous tree with the ID, or a new one. -/
def oldElem (tag : Str) (prev : Dict Elem) (id : Str) : Elem :=
  (prev.get? id).getD (node tag none none [leaf c!"ID" (some id)])

theorem hasId_newElem (tag id : Str) : HasId id (node tag none none [leaf c!"ID" (some id)]) := by
  refine ⟨rfl, ?_⟩
  intro i hi
  simp [sel, leaf] at hi
  subst hi; rfl

theorem oldElem_cases {tag : Str} {l : List Elem} {prev : Dict Elem} (h : prevDict [] l = .ok prev) (id : Str) :
    oldElem tag prev id = node tag none none [leaf c!"ID" (some id)] ∨
      (oldElem tag prev id ∈ l ∧ idOf (oldElem tag prev id) = .ok id) := by
  unfold oldElem
  cases he : prev.get? id with
  | none => exact Or.inl rfl
  | some e =>
    right
    rcases prevDict_mem h he with h1 | h1
    · cases h1
    · exact h1

theorem oldElem_hasId {tag : Str} {l : List Elem} {prev : Dict Elem} (h : prevDict [] l = .ok prev)
    (hl : ∀ e ∈ l, ∀ i ∈ sel c!"ID" e.kids, i.kids = []) (id : Str) : HasId id (oldElem tag prev id) := by
  rcases oldElem_cases (tag := tag) h id with h1 | ⟨h1, h2⟩
  · rw [h1]; exact hasId_newElem tag id
  · exact ⟨h2, hl _ h1⟩

/-- The scene element that is saved. -/
def sceneElem (prev : Dict Elem) (p : Str × Scene) : Except Exc Elem :=
  match sceneOut p.2 (oldElem c!"SCENE" prev p.1).kids with
  | .error x => .error x
  | .ok k => .ok ((oldElem c!"SCENE" prev p.1).mapKids (fun _ => k))

/-- The chapter element that is saved. -/
def chapterElem (n : Novel) (prev : Dict Elem) (id : Str) : Except Exc Elem :=
  match n.chapters.get? id with
  | none => .error .keyError
  | some c =>
    match buildChapter c (oldElem c!"CHAPTER" prev id).kids with
    | .error x => .error x
    | .ok k => .ok ((oldElem c!"CHAPTER" prev id).mapKids (fun _ => k))

theorem Elem.kids_mapKids' (e : Elem) (f : List Elem → List Elem) : (e.mapKids f).kids = f e.kids := by
  cases e; rfl

theorem Elem.mapKids_mapKids (e : Elem) (f g : List Elem → List Elem) :
    (e.mapKids f).mapKids g = e.mapKids (fun k => g (f k)) := by
  cases e; rfl

theorem sel_ID_buildScene {s : Scene} {ks out : List Elem} (h : buildScene s ks = .ok out) :
    sel c!"ID" out = sel c!"ID" ks := by
  have h2 : sceneOut s ks = .ok (finishScene s.sceneContent out) := by
    unfold sceneOut; rw [h]
  rw [← scene_ID h2, sel_finishScene_ne (by decide)]

theorem get?_of_mem_nodup {α : Type} {d : Dict α} (hn : d.keys.Nodup) {p : Str × α} (hp : p ∈ d) :
    d.get? p.1 = some p.2 := by
  induction d with
  | nil => simp at hp
  | cons q r ih =>
    obtain ⟨k, v⟩ := q
    simp only [Dict.keys, List.map_cons, List.nodup_cons] at hn
    rcases List.mem_cons.1 hp with rfl | hp
    · simp [Dict.get?]
    · have : k ≠ p.1 := by
        intro he
        exact hn.1 (by rw [he]; exact List.mem_map.2 ⟨p, hp, rfl⟩)
      simp only [Dict.get?, this, if_false]
      exact ih hn.2 hp

theorem mem_of_get? {α : Type} {d : Dict α} {id : Str} {a : α} (h : d.get? id = some a) : (id, a) ∈ d := by
  induction d with
  | nil => cases h
  | cons q r ih =>
    obtain ⟨k, v⟩ := q
    simp only [Dict.get?] at h
    split at h
    · rename_i hk; cases h; subst hk; simp
    · exact List.mem_cons_of_mem _ (ih h)

/-- The first pass. -/
def sceneElem1 (prev : Dict Elem) (p : Str × Scene) : Except Exc Elem :=
  match buildScene p.2 (oldElem c!"SCENE" prev p.1).kids with
  | .error x => .error x
  | .ok k => .ok ((oldElem c!"SCENE" prev p.1).mapKids (fun _ => k))

/-- The two passes over the scenes, combined. -/
theorem scenesSection_ok {n : Novel} {ks k1 k2 : List Elem} (hn : n.scenes.keys.Nodup)
    (ht : ∀ e ∈ ks, e.tag = c!"SCENE") (h1 : buildScenes n ks = .ok k1) (h2 : finishScenes n k1 = .ok k2) :
    ∃ prev, prevDict [] ks = .ok prev ∧ mapE (sceneElem prev) n.scenes = .ok k2 := by
  unfold buildScenes at h1
  rw [sel_eq_self ht, filter_eq_nil_of_tag ht] at h1
  cases hp : prevDict [] ks with
  | error x => rw [hp] at h1; cases h1
  | ok prev =>
    refine ⟨prev, rfl, ?_⟩
    rw [hp] at h1
    simp only [List.nil_append] at h1
    have h1' : mapE (sceneElem1 prev) n.scenes = .ok k1 := by
      change (match mapE (sceneElem1 prev) n.scenes with
        | .error x => Except.error x
        | .ok es => .ok es) = _ at h1
      generalize mapE (sceneElem1 prev) n.scenes = q at h1 ⊢
      cases q with
      | error x => cases h1
      | ok es => cases h1; rfl
    clear h1
    have hmem : ∀ p ∈ n.scenes, n.scenes.get? p.1 = some p.2 := fun p hp => get?_of_mem_nodup hn hp
    generalize hsc : n.scenes = sc at h1' 
    rw [hsc] at hmem
    have hsub : ∀ p ∈ sc, n.scenes.get? p.1 = some p.2 := by rw [hsc]; exact hmem
    clear hmem
    unfold finishScenes at h2
    clear hsc hn
    induction sc generalizing k1 k2 with
    | nil => unfold mapE at h1'; cases h1'; unfold mapE at h2; cases h2; rfl
    | cons p r ih =>
      obtain ⟨b, bs, g1, g2, rfl⟩ := mapE_cons_ok h1'
      obtain ⟨c, cs, f1, f2, rfl⟩ := mapE_cons_ok h2
      refine mapE_cons_of ?_ (ih f2 g2 (fun x hx => hsub x (by simp [hx])))
      unfold sceneElem1 at g1
      cases hb : buildScene p.2 (oldElem c!"SCENE" prev p.1).kids with
      | error x => rw [hb] at g1; cases g1
      | ok k =>
        rw [hb] at g1
        cases g1
        have hid : idOf (oldElem c!"SCENE" prev p.1) = .ok p.1 := by
          rcases oldElem_cases (tag := c!"SCENE") hp p.1 with h | h
          · rw [h]; rfl
          · exact h.2
        have hid2 : idOf ((oldElem c!"SCENE" prev p.1).mapKids (fun _ => k)) = .ok p.1 := by
          rw [idOf_ok_iff] at hid ⊢
          rw [Elem.kids_mapKids', textOf_eq, sel_ID_buildScene hb, ← textOf_eq]
          exact hid
        rw [hid2] at f1
        simp only at f1
        rw [hsub p (by simp)] at f1
        simp only at f1
        split at f1
        · cases f1
        · cases f1
          unfold sceneElem sceneOut
          rw [hb]
          simp only
          rw [Elem.mapKids_mapKids]

theorem sceneElem_hasId {prev : Dict Elem} {l : List Elem} (h : prevDict [] l = .ok prev)
    (hl : ∀ e ∈ l, ∀ i ∈ sel c!"ID" e.kids, i.kids = []) {p : Str × Scene} {e : Elem}
    (he : sceneElem prev p = .ok e) : HasId p.1 e := by
  have ho := oldElem_hasId (tag := c!"SCENE") h hl p.1
  unfold sceneElem at he
  cases hs : sceneOut p.2 (oldElem c!"SCENE" prev p.1).kids with
  | error x => rw [hs] at he; cases he
  | ok k =>
    rw [hs] at he; cases he
    unfold HasId at ho ⊢
    rw [idOf_ok_iff, Elem.kids_mapKids', textOf_eq, scene_ID hs, ← textOf_eq, ← idOf_ok_iff]
    exact ho

theorem chaptersSection_ok {n : Novel} {ks out : List Elem}
    (ht : ∀ e ∈ ks, e.tag = c!"CHAPTER") (h : buildChapters n ks = .ok out) :
    ∃ prev, prevDict [] ks = .ok prev ∧ mapE (chapterElem n prev) n.srtChapters = .ok out := by
  unfold buildChapters at h
  rw [sel_eq_self ht, filter_eq_nil_of_tag ht] at h
  cases hp : prevDict [] ks with
  | error x => rw [hp] at h; cases h
  | ok prev =>
    refine ⟨prev, rfl, ?_⟩
    rw [hp] at h
    simp only [List.nil_append] at h
    change (match mapE (chapterElem n prev) n.srtChapters with
      | .error x => Except.error x
      | .ok es => .ok es) = _ at h
    generalize mapE (chapterElem n prev) n.srtChapters = q at h ⊢
    cases q with
    | error x => cases h
    | ok es => cases h; rfl

theorem chapterElem_hasId {n : Novel} {prev : Dict Elem} {l : List Elem} (h : prevDict [] l = .ok prev)
    (hl : ∀ e ∈ l, ∀ i ∈ sel c!"ID" e.kids, i.kids = []) {id : Str} {e : Elem}
    (he : chapterElem n prev id = .ok e) : HasId id e := by
  have ho := oldElem_hasId (tag := c!"CHAPTER") h hl id
  unfold chapterElem at he
  cases hc : n.chapters.get? id with
  | none => rw [hc] at he; cases he
  | some c =>
    rw [hc] at he; simp only at he
    cases hs : buildChapter c (oldElem c!"CHAPTER" prev id).kids with
    | error x => rw [hs] at he; cases he
    | ok k =>
      rw [hs] at he; cases he
      obtain ⟨_, _, _, _, _, _, _, _, _, _, _, _, _, hID, _⟩ := buildChapter_ok hs
      unfold HasId at ho ⊢
      rw [idOf_ok_iff, Elem.kids_mapKids', textOf_eq, hID, ← textOf_eq, ← idOf_ok_iff]
      exact ho

end Verif
