/-
The division of character data into pieces: the readers of works in progress, scene descriptions and manuscripts.
-/
import Verif.Lemmas.Chunks2

namespace Verif
open Spec

/-! ### Work in progress -/

/-- The same state with the collected text in other pieces; there is something collected in both or in none. -/
def SameText1 (r r' : Rd) : Prop := ∃ l, r' = { r with lines := l } ∧ l.flatten = r.lines.flatten ∧ (l = [] ↔ r.lines = [])

theorem SameText1.refl (r : Rd) : SameText1 r r := ⟨r.lines, rfl, rfl, Iff.rfl⟩
theorem SameText1.symm {a b : Rd} (h : SameText1 a b) : SameText1 b a := by
  obtain ⟨l, rfl, hl, hn⟩ := h
  exact ⟨a.lines, rfl, hl.symm, hn.symm⟩
theorem SameText1.trans {a b c : Rd} (h1 : SameText1 a b) (h2 : SameText1 b c) : SameText1 a c := by
  obtain ⟨l, rfl, hl, hn⟩ := h1
  obtain ⟨m, rfl, hm, hk⟩ := h2
  exact ⟨m, rfl, hm.trans hl, hk.trans hn⟩

theorem SameText1.push {r r' : Rd} (h : SameText1 r r') (s : Str) : SameText1 (r.push s) (r'.push s) := by
  obtain ⟨l, rfl, hl, hn⟩ := h
  exact ⟨l ++ [s], rfl, by simp [Rd.push, hl], by simp [Rd.push]⟩

theorem SameText1.text {r r' : Rd} (h : SameText1 r r') : r'.text = r.text := by
  obtain ⟨l, rfl, hl, _⟩ := h
  exact hl

theorem SameText1.push_push (r : Rd) (s t : Str) : SameText1 ((r.push s).push t) (r.push (s ++ t)) :=
  ⟨r.lines ++ [s ++ t], rfl, by simp [Rd.push], by simp [Rd.push]⟩

/-- A change that does not look at the collected text. -/
theorem SameText1.keep {r r' : Rd} (h : SameText1 r r') (f : Rd → Rd) (hf : ∀ x l, f { x with lines := l } = { f x with lines := l })
    (hl : (f r).lines = r.lines) : SameText1 (f r) (f r') := by
  obtain ⟨l, rfl, h1, h2⟩ := h
  exact ⟨l, hf r l, by rw [hl]; exact h1, by rw [hl]; exact h2⟩

theorem SameText1.dropLines {a b : Rd} (h : SameText1 a b) (f : Rd → Rd) (hf : ∀ l, f { a with lines := l } = f a) :
    SameText1 (f a) (f b) := by
  obtain ⟨l, rfl, hl⟩ := h
  have := hf l
  rw [this]
  exact SameText1.refl _

theorem SameText1.onScene {r r' : Rd} (h : SameText1 r r') (id : Str) (f : Scene → Scene) :
    SameOutcome SameText1 (r.onScene id f) (r'.onScene id f) := by
  obtain ⟨l, rfl, hl⟩ := h
  unfold Rd.onScene
  dsimp only
  split
  · exact ⟨l, rfl, hl⟩
  · rfl

theorem SameText1.onChapter {r r' : Rd} (h : SameText1 r r') (id : Str) (f : Chapter → Chapter) :
    SameOutcome SameText1 (r.onChapter id f) (r'.onChapter id f) := by
  obtain ⟨l, rfl, hl⟩ := h
  unfold Rd.onChapter
  dsimp only
  split
  · exact ⟨l, rfl, hl⟩
  · rfl

theorem SameText1.startBody {r r' : Rd} (h : SameText1 r r') (as : List (Str × Option Str)) :
    SameText1 (r.startBody as) (r'.startBody as) := by
  induction as generalizing r r' with
  | nil => exact h
  | cons p as ih =>
    obtain ⟨k, v⟩ := p
    obtain ⟨l, rfl, hl⟩ := h
    simp only [Rd.startBody]
    apply ih
    rcases v with _ | _ | ⟨c, v⟩
    · exact ⟨l, rfl, hl⟩
    · exact ⟨l, rfl, hl⟩
    · dsimp only
      split
      · exact ⟨l, rfl, hl⟩
      split
      · exact ⟨l, rfl, hl⟩
      · exact ⟨l, rfl, hl⟩

theorem SameText1.startMeta {r r' : Rd} (h : SameText1 r r') (as : List (Str × Option Str)) :
    SameText1 (startMeta r as) (startMeta r' as) := by
  obtain ⟨l, rfl, hl⟩ := h
  unfold Verif.startMeta
  split
  · split
    · exact ⟨l, rfl, hl⟩
    split
    · exact ⟨l, rfl, hl⟩
    · exact ⟨l, rfl, hl⟩
  · exact ⟨l, rfl, hl⟩

theorem SameText1.startLanguage {r r' : Rd} (h : SameText1 r r') (as : List (Str × Option Str)) :
    SameText1 (r.startLanguage as) (r'.startLanguage as) := by
  unfold Rd.startLanguage
  split
  · split
    · apply SameText1.push
      obtain ⟨l, rfl, hl⟩ := h
      exact ⟨l, rfl, hl⟩
    · exact h
  · exact h

theorem SameText1.stopLanguage {r r' : Rd} (h : SameText1 r r') : SameText1 r.stopLanguage r'.stopLanguage := by
  have e : r'.language = r.language := by obtain ⟨l, rfl, hl⟩ := h; rfl
  unfold Rd.stopLanguage
  rw [e]
  split
  · exact h
  · exact (h.push _).keep (fun x => { x with language := [] }) (fun _ _ => rfl) rfl

theorem SameText1.cleanup {r r' : Rd} (h : SameText1 r r') (t : Str) : r'.cleanupScene t = r.cleanupScene t := by
  obtain ⟨l, rfl, hl⟩ := h
  rfl

theorem SameText1.imParagraph {r r' : Rd} (h : SameText1 r r') (as : List (Str × Option Str)) :
    SameOutcome SameText1 (imParagraph r as) (imParagraph r' as) := by
  have e1 : r'.scId = r.scId := by obtain ⟨l, rfl, hl⟩ := h; rfl
  have e2 : r'.chId = r.chId := by obtain ⟨l, rfl, hl⟩ := h; rfl
  have e4 : ∀ ch, imNewScene r' ch = imNewScene r ch := by obtain ⟨l, rfl, hl⟩ := h; intro ch; rfl
  unfold Verif.imParagraph
  rw [e1, e2]
  split
  · simp only [e4, Bind.bind, Except.bind]
    cases imNewScene r _ with
    | error e => rfl
    | ok x => exact SameText1.refl _
  · exact h.startLanguage _

theorem outcome_ite {E : Rd → Rd → Prop} {c : Prop} [Decidable c] {a a' b b' : Except Exc Rd} (h1 : SameOutcome E a a')
    (h2 : SameOutcome E b b') : SameOutcome E (if c then a else b) (if c then a' else b') := by
  by_cases hc : c
  · rw [if_pos hc, if_pos hc]; exact h1
  · rw [if_neg hc, if_neg hc]; exact h2

theorem SameText1.imStart {r r' : Rd} (h : SameText1 r r') (t : Str) (as : List (Str × Option Str)) :
    SameOutcome SameText1 (imStart r t as) (imStart r' t as) := by
  have e3 : r'.heading = r.heading := by obtain ⟨l, rfl, hl⟩ := h; rfl
  unfold Verif.imStart
  rw [e3]
  refine outcome_ite (h.imParagraph as) ?_
  refine outcome_ite (h.push _) ?_
  refine outcome_ite (h.push _) ?_
  refine outcome_ite (h.startLanguage _) ?_
  refine outcome_ite (h.dropLines (fun x => { addChapter x 1 with heading := true }) (fun _ => rfl)) ?_
  refine outcome_ite (h.dropLines (fun x => { addChapter x 0 with heading := true }) (fun _ => rfl)) ?_
  refine outcome_ite (by obtain ⟨l, rfl, hl⟩ := h; exact ⟨l, rfl, hl⟩) ?_
  refine outcome_ite (h.startMeta _) ?_
  refine outcome_ite (by obtain ⟨l, rfl, hl⟩ := h; exact SameText1.refl _) ?_
  refine outcome_ite (h.startBody _) ?_
  refine outcome_ite (h.push _) ?_
  refine outcome_ite ((h.push _).startLanguage _) ?_
  refine outcome_ite (h.push _) ?_
  exact h

theorem SameText1.imStop {r r' : Rd} (h : SameText1 r r') (t : Str) : SameOutcome SameText1 (imStop r t) (imStop r' t) := by
  have e2 : r'.chId = r.chId := by obtain ⟨l, rfl, hl⟩ := h; rfl
  have e3 : r'.heading = r.heading := by obtain ⟨l, rfl, hl⟩ := h; rfl
  have e4 : r'.novel = r.novel := by obtain ⟨l, rfl, hl⟩ := h; rfl
  have ht := h.text
  unfold Verif.imStop
  rw [e2, e3, ht]
  split
  · have hp : SameText1 (r.stopLanguage.push c!"\n") (r'.stopLanguage.push c!"\n") := h.stopLanguage.push _
    have e1 : (r'.stopLanguage.push c!"\n").scId = (r.stopLanguage.push c!"\n").scId := by obtain ⟨l, hl, _⟩ := hp; rw [hl]
    dsimp only
    rw [e1, hp.text, hp.cleanup]
    split
    · exact hp
    · exact hp.onScene _ _
  split
  · exact h.push _
  split
  · exact h.push _
  split
  · exact h.stopLanguage
  split
  · split
    · rfl
    · exact outcome_bind (h.onChapter _ _) (fun a b hab => hab.dropLines (fun x => { x with lines := [], heading := false }) (fun _ => rfl))
  split
  · obtain ⟨l, rfl, hl⟩ := h
    exact ⟨l, rfl, hl⟩
  · exact h

theorem import_divisible : Divisible importReader (fun s => '*' ∉ s) SameText1 (fun _ _ => True) where
  refl := .refl
  symm := .symm
  trans := .trans
  app := fun s t hs ht => by simp [hs, ht]
  kstep := fun _ _ => trivial
  kmerge := fun _ => Iff.rfl
  krel := fun _ _ => trivial
  merge := by
    intro r s t _ _ hs ht
    have hst : '*' ∉ s ++ t := by simp [hs, ht]
    have e : ∀ r x, '*' ∉ x → imData r x = r.push x := by
      intro r x hx
      unfold imData
      rw [if_neg (by rw [contains_noChar (show '*' ∈ c!"* * *" by decide) hx]; simp)]
    exact outcome_ok ⟨r.push s, (r.push s).push t, r.push (s ++ t), congrArg Except.ok (e r s hs), congrArg Except.ok (e _ t ht),
      congrArg Except.ok (e r _ hst), SameText1.push_push r s t⟩
  respects := by
    intro r r' c _ _ h
    have e1 : r'.scId = r.scId := by obtain ⟨l, rfl, hl⟩ := h; rfl
    cases c with
    | start t as => exact h.imStart t as
    | stop t => exact h.imStop t
    | data s =>
      show SameText1 (imData r s) (imData r' s)
      unfold imData
      rw [e1]
      split
      · exact h.keep (fun x => { x with scId := none }) (fun _ _ => rfl) rfl
      · exact h.push _
    | comment s =>
      show SameText1 (imComment r s) (imComment r' s)
      have hn : (r'.lines = []) = (r.lines = []) := by obtain ⟨l, rfl, hl⟩ := h; exact propext hl.2
      unfold imComment
      rw [e1]
      split
      · exact h
      · simp only [hn]
        split
        · obtain ⟨l, rfl, hl⟩ := h
          exact ⟨l, rfl, hl⟩
        · exact h.push _

end Verif
