/-
C39: `adjust_scene_types` lets scenes inherit the type of non-normal chapters.
-/
import Verif.Model.Yw7Read
import Verif.Spec.Novel

namespace Verif
open Spec

namespace Spec

/-- The chapter has a type other than Normal. -/
def nonNormal (n : Novel) (chId : Str) : Bool :=
  match n.chapters.get? chId with
  | some c => decide (c.chType ≠ some 0)
  | none => false

/-- The last chapter in the order of the novel that has a type other than Normal and lists the scene. -/
def governing (n : Novel) (scId : Str) : Option Str :=
  (n.srtChapters.filter (fun ch => nonNormal n ch && decide (scId ∈ scenesOf n.chapters ch))).getLast?

/-- The type of a chapter. -/
def typeOf (n : Novel) (chId : Str) : Option Nat := (n.chapters.get? chId).bind (·.chType)

end Spec

/-- One chapter of the loop. -/
def adjustChapter (chapters : Dict Chapter) (d : Dict Scene) (chId : Str) : Dict Scene :=
  match chapters.get? chId with
  | none => d
  | some c =>
    if c.chType = some 0 then d
    else c.srtScenes.foldl (fun d s => d.modify s (fun sc => { sc with scType := c.chType })) d

theorem get?_foldl_modify (l : List Str) (ty : Option Nat) (d : Dict Scene) (x : Str) :
    (l.foldl (fun d s => d.modify s (fun sc => { sc with scType := ty })) d).get? x
      = if x ∈ l then (d.get? x).map (fun sc => { sc with scType := ty }) else d.get? x := by
  induction l generalizing d with
  | nil => simp
  | cons a r ih =>
    rw [List.foldl_cons, ih, Dict.get?_modify]
    by_cases h : a = x
    · subst h
      by_cases hr : a ∈ r
      · simp only [hr, if_true, List.mem_cons, true_or]
        cases d.get? a <;> rfl
      · simp [hr]
    · by_cases hr : x ∈ r
      · simp [hr, h]
      · simp [hr, h, Ne.symm h]

theorem keys_foldl_modify (l : List Str) (ty : Option Nat) (d : Dict Scene) :
    (l.foldl (fun d s => d.modify s (fun sc => { sc with scType := ty })) d).keys = d.keys := by
  induction l generalizing d with
  | nil => rfl
  | cons a r ih => rw [List.foldl_cons, ih, Dict.keys_modify]

theorem keys_adjustChapter (ch : Dict Chapter) (d : Dict Scene) (id : Str) :
    (adjustChapter ch d id).keys = d.keys := by
  unfold adjustChapter
  split
  · rfl
  · split
    · rfl
    · exact keys_foldl_modify _ _ _

/-- The condition under which the chapter raises no `KeyError`. -/
def adjustOk (n : Novel) (chId : Str) : Bool :=
  match n.chapters.get? chId with
  | none => false
  | some c => c.chType = some 0 || c.srtScenes.all (fun s => n.scenes.has s)

def adjustStep (acc : Except Exc Novel) (chId : Str) : Except Exc Novel :=
  match acc with
  | .error x => .error x
  | .ok n =>
    match n.chapters.get? chId with
    | none => .error .keyError
    | some c =>
      if c.chType = some 0 then .ok n
      else if c.srtScenes.all (fun s => n.scenes.has s) then
        .ok { n with scenes := c.srtScenes.foldl (fun d s => d.modify s (fun sc => { sc with scType := c.chType })) n.scenes }
      else .error .keyError

theorem foldl_adjustStep_error (l : List Str) (x : Exc) : l.foldl adjustStep (.error x) = .error x := by
  induction l with
  | nil => rfl
  | cons a r ih => exact ih

theorem all_has_congr {d d' : Dict Scene} (h : d'.keys = d.keys) (l : List Str) :
    l.all (fun s => d'.has s) = l.all (fun s => d.has s) := by
  have : ∀ s, d'.has s = d.has s := by
    intro s
    rw [Bool.eq_iff_iff, Dict.has_iff, Dict.has_iff, h]
  simp [this]

theorem adjustOk_congr {n : Novel} {d : Dict Scene} (h : d.keys = n.scenes.keys) (a : Str) :
    adjustOk { n with scenes := d } a = adjustOk n a := by
  unfold adjustOk
  dsimp only
  cases n.chapters.get? a with
  | none => rfl
  | some c => simp only [all_has_congr h]

theorem foldl_adjustStep (l : List Str) (n : Novel) :
    l.foldl adjustStep (.ok n) = if l.all (adjustOk n) then .ok { n with scenes := l.foldl (adjustChapter n.chapters) n.scenes }
      else .error .keyError := by
  induction l generalizing n with
  | nil => rfl
  | cons a r ih =>
    rw [List.foldl_cons]
    simp only [adjustStep]
    cases hc : n.chapters.get? a with
    | none =>
      simp only [List.all_cons, adjustOk, hc, Bool.false_and, Bool.false_eq_true, if_false]
      exact foldl_adjustStep_error r _
    | some c =>
      have hch : adjustChapter n.chapters n.scenes a = if c.chType = some 0 then n.scenes
          else c.srtScenes.foldl (fun d s => d.modify s (fun sc => { sc with scType := c.chType })) n.scenes := by
        unfold adjustChapter
        rw [hc]
      simp only
      by_cases h0 : c.chType = some 0
      · rw [if_pos h0, ih, List.all_cons, List.foldl_cons, hch, if_pos h0]
        have : adjustOk n a = true := by unfold adjustOk; rw [hc]; simp [h0]
        rw [this, Bool.true_and]
      · rw [if_neg h0]
        by_cases h1 : (c.srtScenes.all (fun s => n.scenes.has s)) = true
        · rw [if_pos h1, ih]
          have hk := keys_foldl_modify c.srtScenes c.chType n.scenes
          have : adjustOk n a = true := by unfold adjustOk; rw [hc]; simp only [h1, Bool.or_true]
          have hall : r.all (adjustOk { n with scenes := c.srtScenes.foldl (fun d s => d.modify s (fun sc => { sc with scType := c.chType })) n.scenes })
              = r.all (adjustOk n) := by
            congr 1
            funext b
            exact adjustOk_congr hk b
          rw [hall, List.all_cons, this, Bool.true_and, List.foldl_cons, hch, if_neg h0]
        · rw [if_neg h1]
          have : adjustOk n a = false := by
            unfold adjustOk; rw [hc]
            simp only [h0, decide_false, Bool.false_or]
            simpa using h1
          rw [List.all_cons, this]
          simp only [Bool.false_and, Bool.false_eq_true, if_false]
          exact foldl_adjustStep_error r _

theorem adjustSceneTypes_eq (n : Novel) : adjustSceneTypes n = n.srtChapters.foldl adjustStep (.ok n) := rfl

theorem get?_adjustChapters (n : Novel) (l : List Str) (d : Dict Scene) (x : Str) :
    (l.foldl (adjustChapter n.chapters) d).get? x
      = (d.get? x).map (fun s =>
          match (l.filter (fun ch => nonNormal n ch && decide (x ∈ scenesOf n.chapters ch))).getLast? with
          | none => s
          | some ch => { s with scType := typeOf n ch }) := by
  induction l generalizing d with
  | nil =>
    show d.get? x = (d.get? x).map (fun s => s)
    cases d.get? x <;> rfl
  | cons a r ih =>
    rw [List.foldl_cons, ih, List.filter_cons]
    cases hc : n.chapters.get? a with
    | none =>
      have hn : nonNormal n a = false := by unfold nonNormal; rw [hc]
      have hd : adjustChapter n.chapters d a = d := by unfold adjustChapter; rw [hc]
      rw [hn, hd, Bool.false_and, if_neg (by simp)]
    | some c =>
      have hsc : scenesOf n.chapters a = c.srtScenes := by unfold scenesOf; rw [hc]
      by_cases h0 : c.chType = some 0
      · have hn : nonNormal n a = false := by unfold nonNormal; rw [hc]; simp [h0]
        have hd : adjustChapter n.chapters d a = d := by unfold adjustChapter; rw [hc]; simp [h0]
        rw [hn, hd, Bool.false_and, if_neg (by simp)]
      · have hn : nonNormal n a = true := by unfold nonNormal; rw [hc]; simp [h0]
        have hd : adjustChapter n.chapters d a
            = c.srtScenes.foldl (fun d s => d.modify s (fun sc => { sc with scType := c.chType })) d := by
          unfold adjustChapter; rw [hc]; simp [h0]
        have hty : typeOf n a = c.chType := by unfold typeOf; rw [hc]; rfl
        rw [hn, hd, Bool.true_and, get?_foldl_modify, hsc]
        by_cases hx : x ∈ c.srtScenes
        · rw [if_pos hx, if_pos (by simp [hx]), List.getLast?_cons]
          generalize (r.filter (fun ch => nonNormal n ch && decide (x ∈ scenesOf n.chapters ch))).getLast? = o
          cases o with
          | none =>
            simp only [Option.getD_none, hty]
            cases d.get? x <;> rfl
          | some b =>
            simp only [Option.getD_some]
            cases d.get? x <;> rfl
        · rw [if_neg hx, if_neg (by simp [hx])]

theorem keys_adjustChapters (ch : Dict Chapter) (l : List Str) (d : Dict Scene) :
    (l.foldl (adjustChapter ch) d).keys = d.keys := by
  induction l generalizing d with
  | nil => rfl
  | cons a r ih => rw [List.foldl_cons, ih, keys_adjustChapter]

theorem nodup_flatMap_unique {α β : Type} (f : α → List β) (l : List α) (h : (l.flatMap f).Nodup)
    (x : β) (a b : α) (ha : a ∈ l) (hb : b ∈ l) (hxa : x ∈ f a) (hxb : x ∈ f b) : a = b := by
  induction l with
  | nil => simp at ha
  | cons c r ih =>
    rw [List.flatMap_cons, List.nodup_append] at h
    obtain ⟨_, h2, h3⟩ := h
    rcases List.mem_cons.1 ha with ha' | ha' <;> rcases List.mem_cons.1 hb with hb' | hb'
    · rw [ha', hb']
    · subst ha'
      exact absurd rfl (h3 x hxa x (List.mem_flatMap.2 ⟨b, hb', hxb⟩))
    · subst hb'
      exact absurd rfl (h3 x hxb x (List.mem_flatMap.2 ⟨a, ha', hxa⟩))
    · exact ih h2 ha' hb'

/-- **C39, exact effect**: nothing but the scenes changes; a scene has the type of the last listed
non-normal chapter that lists it, otherwise its own, and all other attributes are kept. -/
theorem C39_effect (n n' : Novel) (h : adjustSceneTypes n = .ok n') :
    n' = { n with scenes := n'.scenes } ∧ n'.scenes.keys = n.scenes.keys ∧
    ∀ id, n'.scenes.get? id = (n.scenes.get? id).map (fun s =>
      match governing n id with
      | none => s
      | some ch => { s with scType := typeOf n ch }) := by
  rw [adjustSceneTypes_eq, foldl_adjustStep] at h
  split at h
  · cases h
    refine ⟨rfl, ?_, ?_⟩
    · exact keys_adjustChapters n.chapters n.srtChapters n.scenes
    · intro id
      exact get?_adjustChapters n n.srtChapters n.scenes id
  · cases h

/-- It succeeds if and only if every listed chapter exists and every scene listed in a non-normal chapter
exists; in particular for every sound novel. -/
theorem C39_success_iff (n : Novel) : (∃ n', adjustSceneTypes n = .ok n') ↔
    ∀ ch ∈ n.srtChapters, ∃ c, n.chapters.get? ch = some c ∧
      (c.chType ≠ some 0 → ∀ s ∈ c.srtScenes, s ∈ n.scenes.keys) := by
  rw [adjustSceneTypes_eq, foldl_adjustStep]
  have hok : ∀ a, adjustOk n a = true ↔ ∃ c, n.chapters.get? a = some c ∧
      (c.chType ≠ some 0 → ∀ s ∈ c.srtScenes, s ∈ n.scenes.keys) := by
    intro a
    unfold adjustOk
    cases n.chapters.get? a with
    | none => simp
    | some c =>
      simp only [Bool.or_eq_true, decide_eq_true_eq, List.all_eq_true, Dict.has_iff, Option.some.injEq,
        exists_eq_left']
      constructor
      · rintro (h | h) hne
        · exact absurd h hne
        · exact h
      · intro h
        by_cases h0 : c.chType = some 0
        · exact Or.inl h0
        · exact Or.inr (h h0)
  by_cases h : n.srtChapters.all (adjustOk n) = true
  · rw [if_pos h]
    rw [List.all_eq_true] at h
    exact ⟨fun _ ch hch => (hok ch).1 (h ch hch), fun _ => ⟨_, rfl⟩⟩
  · rw [if_neg h]
    simp only [reduceCtorEq, exists_false, false_iff]
    intro hall
    refine h ?_
    rw [List.all_eq_true]
    exact fun ch hch => (hok ch).2 (hall ch hch)

/-- **C39 for sound novels**: a scene in a non-normal chapter gets the type of the chapter, every other
scene stays exactly as it is. -/
theorem C39_sound (n : Novel) (hn : Sound n) : ∃ n', adjustSceneTypes n = .ok n' ∧
    (∀ ch ∈ n.srtChapters, ∀ c, n.chapters.get? ch = some c → ∀ id ∈ c.srtScenes,
      n'.scenes.get? id = (n.scenes.get? id).map (fun s =>
        if c.chType = some 0 then s else { s with scType := c.chType })) ∧
    (∀ id, id ∉ narrative n → n'.scenes.get? id = n.scenes.get? id) := by
  obtain ⟨n', hn'⟩ := (C39_success_iff n).2 (by
    intro ch hch
    obtain ⟨c, hc⟩ := (Dict.mem_keys_iff _ _).1 (hn.chIn ch hch)
    refine ⟨c, hc, fun _ s hs => hn.scIn s ?_⟩
    unfold narrative
    rw [List.mem_flatMap]
    exact ⟨ch, hch, by unfold scenesOf; rw [hc]; exact hs⟩)
  obtain ⟨_, _, h3⟩ := C39_effect n n' hn'
  refine ⟨n', hn', ?_, ?_⟩
  · intro ch hch c hc id hid
    rw [h3]
    congr 1
    funext s
    have huniq : ∀ b ∈ n.srtChapters, id ∈ scenesOf n.chapters b → b = ch := by
      have hnd := hn.scNodup
      unfold narrative at hnd
      have hmem : id ∈ scenesOf n.chapters ch := by unfold scenesOf; rw [hc]; exact hid
      intro b hb hib
      exact nodup_flatMap_unique _ _ hnd id b ch hb hch hib hmem
    by_cases h0 : c.chType = some 0
    · have hg : governing n id = none := by
        unfold governing
        rw [List.getLast?_eq_none_iff, List.filter_eq_nil_iff]
        intro b hb hcon
        simp only [Bool.and_eq_true, decide_eq_true_eq] at hcon
        have := huniq b hb hcon.2
        subst this
        have hnn := hcon.1
        unfold nonNormal at hnn
        rw [hc] at hnn
        simp [h0] at hnn
      rw [hg, if_pos h0]
    · have hg : governing n id = some ch := by
        unfold governing
        have hmem : ch ∈ n.srtChapters.filter (fun b => nonNormal n b && decide (id ∈ scenesOf n.chapters b)) := by
          rw [List.mem_filter]
          refine ⟨hch, ?_⟩
          simp only [Bool.and_eq_true, decide_eq_true_eq]
          constructor
          · unfold nonNormal; rw [hc]; simp [h0]
          · unfold scenesOf; rw [hc]; exact hid
        cases hl : (n.srtChapters.filter (fun b => nonNormal n b && decide (id ∈ scenesOf n.chapters b))).getLast? with
        | none =>
          rw [List.getLast?_eq_none_iff] at hl
          rw [hl] at hmem; simp at hmem
        | some b =>
          have hb := List.mem_of_getLast? hl
          rw [List.mem_filter] at hb
          simp only [Bool.and_eq_true, decide_eq_true_eq] at hb
          rw [huniq b hb.1 hb.2.2]
      rw [hg, if_neg h0]
      have : typeOf n ch = c.chType := by unfold typeOf; rw [hc]; rfl
      simp only [this]
  · intro id hid
    rw [h3]
    have hg : governing n id = none := by
      unfold governing
      rw [List.getLast?_eq_none_iff, List.filter_eq_nil_iff]
      intro b hb hcon
      simp only [Bool.and_eq_true, decide_eq_true_eq] at hcon
      exact hid (List.mem_flatMap.2 ⟨b, hb, hcon.2⟩)
    rw [hg]
    cases n.scenes.get? id <;> rfl

/-- A concrete novel: chapter 1 is Notes and lists scene 1, chapter 2 is normal and lists scene 2. -/
example : (adjustSceneTypes { chapters := [(c!"1", { chType := some 1, srtScenes := [c!"1"] }), (c!"2", { chType := some 0, srtScenes := [c!"2"] })], srtChapters := [c!"1", c!"2"], scenes := [(c!"1", { scType := some 0 }), (c!"2", { scType := some 3 })] }).toOption.map
      (fun n => n.scenes.map (fun p => (p.1, p.2.scType))) = some [(c!"1", some 1), (c!"2", some 3)] := by
  decide

end Verif
