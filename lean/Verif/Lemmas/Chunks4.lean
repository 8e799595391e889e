/-
The division of character data into pieces: the readers that take chapter titles from character data (scene descriptions, manuscripts).
-/
import Verif.Lemmas.Chunks3

namespace Verif
open Spec

theorem untitled_get? (d : Dict Chapter) (id : Str) : (untitled d).get? id = (d.get? id).map (fun ch => { ch with title := none }) := by
  induction d with
  | nil => rfl
  | cons p d ih =>
    obtain ⟨k, ch⟩ := p
    simp only [untitled, List.map_cons, Dict.get?]
    split
    · rfl
    · exact ih

theorem untitled_has {d d' : Dict Chapter} (h : untitled d' = untitled d) (id : Str) : d'.has id = d.has id := by
  have := congrArg (fun x => (Dict.get? x id).isSome) h
  simp only [untitled_get?, Option.isSome_map] at this
  exact this

theorem untitled_modify {d d' : Dict Chapter} (h : untitled d' = untitled d) (id : Str) (f f' : Chapter → Chapter)
    (hf : ∀ a b : Chapter, { b with title := none } = { a with title := none } → { f' b with title := none } = { f a with title := none }) :
    untitled (d'.modify id f') = untitled (d.modify id f) := by
  induction d generalizing d' with
  | nil =>
    cases d' with
    | nil => rfl
    | cons p d' => cases h
  | cons p d ih =>
    cases d' with
    | nil => cases h
    | cons p' d' =>
      obtain ⟨k, ch⟩ := p
      obtain ⟨k', ch'⟩ := p'
      simp only [untitled, List.map_cons, List.cons.injEq, Prod.mk.injEq] at h
      obtain ⟨⟨rfl, h1⟩, h2⟩ := h
      simp only [Dict.modify]
      split
      · simp only [untitled, List.map_cons]
        rw [hf ch ch' h1]
        exact congrArg _ h2
      · simp only [untitled, List.map_cons]
        rw [h1]
        exact congrArg _ (ih h2)

theorem untitled_set {d d' : Dict Chapter} (h : untitled d' = untitled d) (id : Str) (c : Chapter) :
    untitled (d'.set id c) = untitled (d.set id c) := by
  induction d generalizing d' with
  | nil =>
    cases d' with
    | nil => rfl
    | cons p d' => cases h
  | cons p d ih =>
    cases d' with
    | nil => cases h
    | cons p' d' =>
      obtain ⟨k, ch⟩ := p
      obtain ⟨k', ch'⟩ := p'
      simp only [untitled, List.map_cons, List.cons.injEq, Prod.mk.injEq] at h
      obtain ⟨⟨rfl, h1⟩, h2⟩ := h
      simp only [Dict.set]
      split
      · simp only [untitled, List.map_cons]
        exact congrArg _ h2
      · simp only [untitled, List.map_cons]
        rw [h1]
        exact congrArg _ (ih h2)

/-- The same state, up to the pieces of the collected text and to the titles of chapters. -/
def SameText2 (r r' : Rd) : Prop :=
  ∃ l d, r' = { r with lines := l, novel := { r.novel with chapters := d } } ∧ l.flatten = r.lines.flatten ∧
    untitled d = untitled r.novel.chapters

theorem SameText2.refl (r : Rd) : SameText2 r r := ⟨r.lines, r.novel.chapters, rfl, rfl, rfl⟩
theorem SameText2.symm {a b : Rd} (h : SameText2 a b) : SameText2 b a := by
  obtain ⟨l, d, rfl, hl, hd⟩ := h
  exact ⟨a.lines, a.novel.chapters, rfl, hl.symm, hd.symm⟩
theorem SameText2.trans {a b c : Rd} (h1 : SameText2 a b) (h2 : SameText2 b c) : SameText2 a c := by
  obtain ⟨l, d, rfl, hl, hd⟩ := h1
  obtain ⟨m, e, rfl, hm, he⟩ := h2
  exact ⟨m, e, rfl, hm.trans hl, he.trans hd⟩

theorem SameText2.push {r r' : Rd} (h : SameText2 r r') (s : Str) : SameText2 (r.push s) (r'.push s) := by
  obtain ⟨l, d, rfl, hl, hd⟩ := h
  exact ⟨l ++ [s], d, rfl, by simp [Rd.push, hl], hd⟩

theorem SameText2.text {r r' : Rd} (h : SameText2 r r') : r'.text = r.text := by
  obtain ⟨l, d, rfl, hl, hd⟩ := h
  exact hl

theorem SameText2.push_push (r : Rd) (s t : Str) : SameText2 ((r.push s).push t) (r.push (s ++ t)) :=
  ⟨r.lines ++ [s ++ t], r.novel.chapters, rfl, by simp [Rd.push], rfl⟩

theorem SameText2.scId {r r' : Rd} (h : SameText2 r r') : r'.scId = r.scId := by obtain ⟨l, d, rfl, _⟩ := h; rfl
theorem SameText2.chId {r r' : Rd} (h : SameText2 r r') : r'.chId = r.chId := by obtain ⟨l, d, rfl, _⟩ := h; rfl
theorem SameText2.skip {r r' : Rd} (h : SameText2 r r') : r'.skipData = r.skipData := by obtain ⟨l, d, rfl, _⟩ := h; rfl

theorem SameText2.onScene {r r' : Rd} (h : SameText2 r r') (id : Str) (f : Scene → Scene) :
    SameOutcome SameText2 (r.onScene id f) (r'.onScene id f) := by
  obtain ⟨l, d, rfl, hl, hd⟩ := h
  unfold Rd.onScene
  dsimp only
  split
  · exact ⟨l, d, rfl, hl, hd⟩
  · rfl

theorem SameText2.onChapter {r r' : Rd} (h : SameText2 r r') (id : Str) (f f' : Chapter → Chapter)
    (hf : ∀ a b : Chapter, { b with title := none } = { a with title := none } → { f' b with title := none } = { f a with title := none }) :
    SameOutcome SameText2 (r.onChapter id f) (r'.onChapter id f') := by
  obtain ⟨l, d, rfl, hl, hd⟩ := h
  unfold Rd.onChapter
  dsimp only
  rw [untitled_has hd]
  split
  · exact ⟨l, d.modify id f', rfl, hl, untitled_modify hd id f f' hf⟩
  · rfl

theorem SameText2.listScene {r r' : Rd} (h : SameText2 r r') (id : Str) : SameOutcome SameText2 (r.listScene id) (r'.listScene id) := by
  unfold Rd.listScene
  rw [h.chId]
  split
  · rfl
  · refine h.onChapter _ _ _ (fun a b hab => ?_)
    cases a; cases b; cases hab; rfl

theorem SameText2.ensureScene {r r' : Rd} (h : SameText2 r r') (id : Str) : SameOutcome SameText2 (r.ensureScene id) (r'.ensureScene id) := by
  unfold Rd.ensureScene
  obtain ⟨l, d, rfl, hl, hd⟩ := h
  dsimp only
  split
  · exact ⟨l, d, rfl, hl, hd⟩
  · apply SameText2.listScene
    exact ⟨l, d, rfl, hl, hd⟩

theorem SameText2.startScene {r r' : Rd} (h : SameText2 r r') (type : Nat) (name : Str) :
    SameOutcome SameText2 (Rd.startScene type r name) (Rd.startScene type r' name) := by
  obtain ⟨l, d, rfl, hl, hd⟩ := h
  unfold Rd.startScene
  simp only [Bind.bind, Except.bind]
  cases Rd.firstNumber name with
  | error e => rfl
  | ok id =>
    refine outcome_bind (E := SameText2) (SameText2.ensureScene ?_ id) (fun a b hab => hab.onScene id _)
    exact ⟨l, d, rfl, hl, hd⟩

theorem SameText2.startChapter {r r' : Rd} (h : SameText2 r r') (type : Nat) (name : Str) :
    SameOutcome SameText2 (Rd.startChapter type r name) (Rd.startChapter type r' name) := by
  obtain ⟨l, d, rfl, hl, hd⟩ := h
  unfold Rd.startChapter
  simp only [Bind.bind, Except.bind]
  cases Rd.firstNumber name with
  | error e => rfl
  | ok id =>
    apply SameText2.onChapter
    · unfold Rd.ensureChapter
      dsimp only
      rw [untitled_has hd]
      split
      · exact ⟨l, d, rfl, hl, hd⟩
      · exact ⟨l, d.set id {}, rfl, hl, untitled_set hd id {}⟩
    · intro a b hab
      cases a; cases b; cases hab; rfl

theorem SameText2.baseStart {r r' : Rd} (h : SameText2 r r') (type : Nat) (t : Str) (as : List (Str × Option Str)) :
    SameOutcome SameText2 (Rd.baseStart type r t as) (Rd.baseStart type r' t as) := by
  unfold Rd.baseStart
  split
  · split
    · rfl
    · split
      · split
        · exact h.startScene _ _
        split
        · exact h.startChapter _ _
        · exact h
      · exact h
  split
  · exact h.push _
  · exact h

theorem SameText2.comment {r r' : Rd} (h : SameText2 r r') (s : Str) : SameText2 (r.baseComment s) (r'.baseComment s) := by
  unfold Rd.baseComment
  rw [h.scId]
  split
  · exact h.push _
  · exact h

theorem SameText2.close {r r' : Rd} (h : SameText2 r r') : SameText2 { r with lines := [], scId := none } { r' with lines := [], scId := none } := by
  obtain ⟨l, d, rfl, hl, hd⟩ := h
  exact ⟨[], d, rfl, rfl, hd⟩

theorem SameText2.closeChapter {r r' : Rd} (h : SameText2 r r') : SameText2 { r with chId := none } { r' with chId := none } := by
  obtain ⟨l, d, rfl, hl, hd⟩ := h
  exact ⟨l, d, rfl, hl, hd⟩

/-- The title of a chapter may be set or not. -/
theorem SameText2.title {r r' : Rd} (h : SameText2 r r') (id : Str) (p p' : Chapter → Bool) (v v' : Option Str) :
    SameOutcome SameText2
      (match r.novel.chapters.get? id with
        | none => .error .keyError
        | some ch => if p ch then r.onChapter id (fun ch => { ch with title := v }) else .ok r)
      (match r'.novel.chapters.get? id with
        | none => .error .keyError
        | some ch => if p' ch then r'.onChapter id (fun ch => { ch with title := v' }) else .ok r') := by
  have hhas : r'.novel.chapters.has id = r.novel.chapters.has id := by
    obtain ⟨l, d, rfl, hl, hd⟩ := h
    exact untitled_has hd id
  have hgo : ∀ (x : Rd) (q : Chapter → Bool) (w : Option Str), x.novel.chapters.has id = true → ∀ c, x.novel.chapters.get? id = some c →
      ∃ y, (if q c then x.onChapter id (fun ch => { ch with title := w }) else .ok x) = .ok y ∧ SameText2 x y := by
    intro x q w hx c hc
    split
    · refine ⟨_, if_pos hx, x.lines, _, rfl, rfl, ?_⟩
      have := untitled_modify (rfl : untitled x.novel.chapters = _) id (fun c => c) (fun ch => { ch with title := w }) (fun a b hab => hab)
      rw [this]
      have hid : ∀ d : Dict Chapter, d.modify id (fun c => c) = d := by
        intro d
        induction d with
        | nil => rfl
        | cons p d ih => simp only [Dict.modify, ih]; split <;> rfl
      rw [hid]
    · exact ⟨x, rfl, .refl x⟩
  unfold Dict.has at hhas
  cases h1 : r.novel.chapters.get? id with
  | none =>
    rw [h1] at hhas
    cases h2 : r'.novel.chapters.get? id with
    | none => rfl
    | some c => rw [h2] at hhas; cases hhas
  | some c =>
    rw [h1] at hhas
    cases h2 : r'.novel.chapters.get? id with
    | none => rw [h2] at hhas; cases hhas
    | some c' =>
      obtain ⟨y, hy, ey⟩ := hgo r p v (by unfold Dict.has; rw [h1]; rfl) c h1
      obtain ⟨z, hz, ez⟩ := hgo r' p' v' (by unfold Dict.has; rw [h2]; rfl) c' h2
      simp only [hy, hz]
      exact (ey.symm.trans h).trans ez

theorem SameText2.sdStop {r r' : Rd} (h : SameText2 r r') (t : Str) : SameOutcome SameText2 (sdStop r t) (sdStop r' t) := by
  unfold Verif.sdStop
  rw [h.scId, h.chId, h.text]
  split
  · refine outcome_ite (outcome_bind (h.onScene _ _) (fun a b hab => hab.close)) ?_
    exact outcome_ite (h.push _) h
  · refine outcome_ite ?_ h
    obtain ⟨l, d, rfl, hl, hd⟩ := h
    exact ⟨l, d, rfl, hl, hd⟩

theorem SameText2.sdData {r r' : Rd} (h : SameText2 r r') (s s' : Str) (hs : r.scId.isSome = true → s' = s) :
    SameOutcome SameText2 (sdData r s) (sdData r' s') := by
  unfold Verif.sdData
  rw [h.scId, h.chId]
  by_cases hc : r.scId.isSome = true
  · rw [if_pos hc, if_pos hc, hs hc]
    exact h.push _
  · rw [if_neg hc, if_neg hc]
    cases r.chId with
    | none => exact h
    | some id => exact h.title id _ _ _ _

/-- Data outside of scenes only concerns titles. -/
theorem sdData_title {r r1 : Rd} {s : Str} (hc : r.scId.isSome = false) (h : sdData r s = .ok r1) : SameText2 r r1 := by
  unfold sdData at h
  rw [if_neg (by rw [hc]; decide)] at h
  cases hch : r.chId with
  | none => rw [hch] at h; cases h; exact .refl _
  | some id =>
    rw [hch] at h
    dsimp only at h
    cases hg : r.novel.chapters.get? id with
    | none => rw [hg] at h; cases h
    | some c =>
      rw [hg] at h
      have := (SameText2.refl r).title id (fun ch => isBlankField ch.title) (fun _ => false) (some (Str.strip s)) none
      simp only [hg] at h this
      rw [h] at this
      exact this.symm

theorem sceneDesc_divisible : Divisible sceneDescReader (fun _ => True) SameText2 (fun _ _ => True) where
  refl := .refl
  symm := .symm
  trans := .trans
  app := fun _ _ _ _ => trivial
  kstep := fun _ _ => trivial
  kmerge := fun _ => Iff.rfl
  krel := fun _ _ => trivial
  merge := by
    intro r s t _ _ _ _
    by_cases hc : r.scId.isSome = true
    · refine outcome_ok ⟨r.push s, (r.push s).push t, r.push (s ++ t), if_pos hc, if_pos hc, if_pos hc, SameText2.push_push r s t⟩
    · have hc' : r.scId.isSome = false := by simpa using hc
      have h3 : SameOutcome SameText2 (sdData r s) (sdData r (s ++ t)) := (SameText2.refl r).sdData s _ (fun h => absurd h hc)
      show SameOutcome SameText2 (sdData r s >>= fun r1 => sdData r1 t) (sdData r (s ++ t))
      cases h1 : sdData r s with
      | error e => rw [h1] at h3; exact h3
      | ok r1 =>
        rw [h1] at h3
        have e1 := sdData_title hc' h1
        have h4 : SameOutcome SameText2 (sdData r s) (sdData r1 t) := e1.sdData s t (fun h => absurd h hc)
        rw [h1] at h4
        show SameOutcome SameText2 (sdData r1 t) _
        cases h5 : sdData r1 t with
        | error e => rw [h5] at h4; exact h4.elim
        | ok r2 =>
          rw [h5] at h4
          cases h6 : sdData r (s ++ t) with
          | error e => rw [h6] at h3; exact h3.elim
          | ok r3 => rw [h6] at h3; exact SameText2.trans (SameText2.symm h4) h3
  respects := by
    intro r r' c _ _ h
    cases c with
    | start t as => exact h.baseStart 0 t as
    | stop t => exact h.sdStop t
    | data s => exact h.sdData s s (fun _ => rfl)
    | comment s => exact h.comment s

end Verif
