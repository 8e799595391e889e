/-
For which readers the division of character data into pieces matters: lemmas for C34.
-/
import Verif.Lemmas.Chunks
import Verif.Lemmas.Str

namespace Verif
open Spec

/-- The same state with the collected text in other pieces. -/
def SameText (r r' : Rd) : Prop := ∃ l, r' = { r with lines := l } ∧ l.flatten = r.lines.flatten

theorem SameText.refl (r : Rd) : SameText r r := ⟨r.lines, rfl, rfl⟩
theorem SameText.symm {a b : Rd} (h : SameText a b) : SameText b a := by
  obtain ⟨l, rfl, hl⟩ := h
  exact ⟨a.lines, rfl, hl.symm⟩
theorem SameText.trans {a b c : Rd} (h1 : SameText a b) (h2 : SameText b c) : SameText a c := by
  obtain ⟨l, rfl, hl⟩ := h1
  obtain ⟨m, rfl, hm⟩ := h2
  exact ⟨m, rfl, hm.trans hl⟩

theorem SameText.push {r r' : Rd} (h : SameText r r') (s : Str) : SameText (r.push s) (r'.push s) := by
  obtain ⟨l, rfl, hl⟩ := h
  exact ⟨l ++ [s], rfl, by simp [Rd.push, hl]⟩

theorem SameText.text {r r' : Rd} (h : SameText r r') : r'.text = r.text := by
  obtain ⟨l, rfl, hl⟩ := h
  exact hl

theorem SameText.push_push (r : Rd) (s t : Str) : SameText ((r.push s).push t) (r.push (s ++ t)) :=
  ⟨r.lines ++ [s ++ t], rfl, by simp [Rd.push]⟩

theorem SameText.lines_eq {r r' : Rd} (h : SameText r r') (l : List Str) : { r' with lines := l } = { r with lines := l } := by
  obtain ⟨m, rfl, _⟩ := h
  rfl

theorem SameText.onScene {r r' : Rd} (h : SameText r r') (id : Str) (f : Scene → Scene) :
    SameOutcome SameText (r.onScene id f) (r'.onScene id f) := by
  obtain ⟨l, rfl, hl⟩ := h
  unfold Rd.onScene
  dsimp only
  split
  · exact ⟨l, rfl, hl⟩
  · rfl

theorem SameText.onChapter {r r' : Rd} (h : SameText r r') (id : Str) (f : Chapter → Chapter) :
    SameOutcome SameText (r.onChapter id f) (r'.onChapter id f) := by
  obtain ⟨l, rfl, hl⟩ := h
  unfold Rd.onChapter
  dsimp only
  split
  · exact ⟨l, rfl, hl⟩
  · rfl

theorem SameText.startBody {r r' : Rd} (h : SameText r r') (as : List (Str × Option Str)) : SameText (r.startBody as) (r'.startBody as) := by
  induction as generalizing r r' with
  | nil => exact h
  | cons p as ih =>
    obtain ⟨k, v⟩ := p
    obtain ⟨l, rfl, hl⟩ := h
    simp only [Rd.startBody]
    apply ih
    rcases v with _ | _ | ⟨c, v⟩
    · exact ⟨l, rfl, hl⟩
    · exact ⟨l, rfl, hl⟩
    · dsimp only
      split
      · exact ⟨l, rfl, hl⟩
      split
      · exact ⟨l, rfl, hl⟩
      · exact ⟨l, rfl, hl⟩

theorem SameText.startMeta {r r' : Rd} (h : SameText r r') (as : List (Str × Option Str)) : SameText (startMeta r as) (startMeta r' as) := by
  obtain ⟨l, rfl, hl⟩ := h
  unfold Verif.startMeta
  split
  · split
    · exact ⟨l, rfl, hl⟩
    split
    · exact ⟨l, rfl, hl⟩
    · exact ⟨l, rfl, hl⟩
  · exact ⟨l, rfl, hl⟩

theorem SameText.comment {r r' : Rd} (h : SameText r r') (s : Str) : SameText (r.baseComment s) (r'.baseComment s) := by
  obtain ⟨l, rfl, hl⟩ := h
  unfold Rd.baseComment
  dsimp only
  split
  · exact SameText.push ⟨l, rfl, hl⟩ _
  · exact ⟨l, rfl, hl⟩

theorem outcome_bind {E : Rd → Rd → Prop} {x y : Except Exc Rd} {f g : Rd → Except Exc Rd} (h : SameOutcome E x y)
    (hf : ∀ a b, E a b → SameOutcome E (f a) (g b)) : SameOutcome E (x >>= f) (y >>= g) := by
  cases x <;> cases y <;> simp only [SameOutcome] at h
  · exact h
  · exact hf _ _ h

theorem outline_divisible : Divisible outlineReader (fun _ => True) SameText (fun _ _ => True) where
  refl := .refl
  symm := .symm
  trans := .trans
  app := fun _ _ _ _ => trivial
  kstep := fun _ _ => trivial
  kmerge := fun _ => Iff.rfl
  krel := fun _ _ => trivial
  merge := fun r s t _ _ _ _ => outcome_ok ⟨_, _, _, rfl, rfl, rfl, SameText.push_push r s t⟩
  respects := by
    intro r r' c _ _ h
    cases c with
    | start t as =>
      simp only [outlineReader, olStart]
      split
      · obtain ⟨l, rfl, hl⟩ := h; exact SameText.refl _
      split
      · obtain ⟨l, rfl, hl⟩ := h; exact SameText.refl _
      split
      · obtain ⟨l, rfl, hl⟩ := h
        have : olNewScene { r with lines := l } = olNewScene r := rfl
        rw [this]
        cases olNewScene r with
        | error e => rfl
        | ok x => exact SameText.refl _
      split
      · obtain ⟨l, rfl, hl⟩ := h; exact ⟨l, rfl, hl⟩
      split
      · exact h.startMeta as
      split
      · obtain ⟨l, rfl, hl⟩ := h; exact SameText.refl _
      split
      · exact h.startBody as
      split
      · exact h.push _
      · exact h
    | stop t =>
      have ht := h.text
      simp only [outlineReader, olStop]
      rw [ht]
      have hrefl : ∀ x : Except Exc Rd, SameOutcome SameText x x := by
        intro x; cases x with
        | error e => rfl
        | ok x => exact SameText.refl _
      have e1 : r'.scId = r.scId := by obtain ⟨l, rfl, hl⟩ := h; rfl
      have e2 : r'.chId = r.chId := by obtain ⟨l, rfl, hl⟩ := h; rfl
      rw [h.lines_eq, e1, e2]
      split
      · exact hrefl _
      split
      · cases r.chId with
        | none => rfl
        | some id => exact outcome_bind (h.onChapter id _) (fun a b hab => by rw [← hab.lines_eq]; exact SameText.refl _)
      split
      · cases r.scId with
        | none => rfl
        | some id => exact outcome_bind (h.onScene id _) (fun a b hab => by rw [← hab.lines_eq]; exact SameText.refl _)
      split
      · obtain ⟨l, rfl, hl⟩ := h; exact ⟨l, rfl, hl⟩
      · exact h
    | data s => exact h.push s
    | comment s => exact h.comment s

/-! ### The readers of descriptions -/

theorem Spec.Trimmed.strip {s : Str} (h : Trimmed s) : Str.strip s = s :=
  (Str.stripBy_eq_self_iff _ _).2 ⟨h.2.1, h.2.2⟩

theorem Spec.Trimmed.append {s t : Str} (hs : Trimmed s) (ht : Trimmed t) : Trimmed (s ++ t) := by
  refine ⟨by simp [hs.1], ?_, ?_⟩
  · intro c hc
    apply hs.2.1 c
    cases s with
    | nil => exact absurd rfl hs.1
    | cons a s => exact hc
  · intro c hc
    apply ht.2.2 c
    rw [List.getLast?_append, Option.or_of_isSome (by simp [ht.1])] at hc
    exact hc

theorem SameText.listScene {r r' : Rd} (h : SameText r r') (id : Str) : SameOutcome SameText (r.listScene id) (r'.listScene id) := by
  have e : r'.chId = r.chId := by obtain ⟨l, rfl, hl⟩ := h; rfl
  unfold Rd.listScene
  rw [e]
  split
  · rfl
  · exact h.onChapter _ _

theorem SameText.ensureScene {r r' : Rd} (h : SameText r r') (id : Str) : SameOutcome SameText (r.ensureScene id) (r'.ensureScene id) := by
  unfold Rd.ensureScene
  obtain ⟨l, rfl, hl⟩ := h
  dsimp only
  split
  · exact ⟨l, rfl, hl⟩
  · apply SameText.listScene
    exact ⟨l, rfl, hl⟩

theorem SameText.startScene {r r' : Rd} (h : SameText r r') (type : Nat) (name : Str) :
    SameOutcome SameText (Rd.startScene type r name) (Rd.startScene type r' name) := by
  obtain ⟨l, rfl, hl⟩ := h
  unfold Rd.startScene
  simp only [Bind.bind, Except.bind]
  cases Rd.firstNumber name with
  | error e => rfl
  | ok id =>
    refine outcome_bind (E := SameText) (SameText.ensureScene ?_ id) (fun a b hab => hab.onScene id _)
    exact ⟨l, rfl, hl⟩

theorem SameText.startChapter {r r' : Rd} (h : SameText r r') (type : Nat) (name : Str) :
    SameOutcome SameText (Rd.startChapter type r name) (Rd.startChapter type r' name) := by
  obtain ⟨l, rfl, hl⟩ := h
  unfold Rd.startChapter
  simp only [Bind.bind, Except.bind]
  cases Rd.firstNumber name with
  | error e => rfl
  | ok id =>
    apply SameText.onChapter
    unfold Rd.ensureChapter
    dsimp only
    split
    · exact ⟨l, rfl, hl⟩
    · exact ⟨l, rfl, hl⟩

theorem SameText.baseStart {r r' : Rd} (h : SameText r r') (type : Nat) (t : Str) (as : List (Str × Option Str)) :
    SameOutcome SameText (Rd.baseStart type r t as) (Rd.baseStart type r' t as) := by
  unfold Rd.baseStart
  split
  · split
    · rfl
    · split
      · split
        · exact h.startScene _ _
        split
        · exact h.startChapter _ _
        · exact h
      · exact h
  split
  · exact h.push _
  · exact h

theorem SameText.dropLines {a b : Rd} (h : SameText a b) (f : Rd → Rd) (hf : ∀ l, f { a with lines := l } = f a) : SameText (f a) (f b) := by
  obtain ⟨l, rfl, hl⟩ := h
  have := hf l
  rw [this]
  exact SameText.refl _

theorem chapterDesc_divisible : Divisible chapterDescReader Trimmed SameText (fun _ _ => True) where
  refl := .refl
  symm := .symm
  trans := .trans
  app := fun _ _ hs ht => hs.append ht
  kstep := fun _ _ => trivial
  kmerge := fun _ => Iff.rfl
  krel := fun _ _ => trivial
  merge := by
    intro r s t _ _ hs ht
    refine outcome_ok ⟨_, _, _, rfl, rfl, rfl, ?_⟩
    rw [hs.strip, ht.strip, (hs.append ht).strip]
    by_cases hc : r.chId.isSome = true
    · have : (r.push s).chId.isSome = true := hc
      simp only [hc, if_true, this]
      exact SameText.push_push r s t
    · simp only [hc, Bool.false_eq_true, if_false]
      exact SameText.refl _
  respects := by
    intro r r' c _ _ h
    have e2 : r'.chId = r.chId := by obtain ⟨l, rfl, hl⟩ := h; rfl
    cases c with
    | start t as => exact h.baseStart 0 t as
    | stop t =>
      have ht := h.text
      simp only [chapterDescReader, cdStop]
      rw [ht, e2]
      cases r.chId with
      | none => exact h
      | some id =>
        dsimp only
        split
        · exact outcome_bind (h.onChapter id _) (fun a b hab => hab.dropLines (fun x => { x with lines := [], chId := none }) (fun _ => rfl))
        split
        · exact h.push _
        split
        · exact outcome_bind (h.onChapter id _) (fun a b hab => hab.dropLines (fun x => { x with lines := [] }) (fun _ => rfl))
        · exact h
    | data s =>
      simp only [chapterDescReader, e2]
      split
      · exact h.push _
      · exact h
    | comment s => exact h.comment s

theorem characters_divisible : Divisible charactersReader Trimmed SameText (fun _ _ => True) where
  refl := .refl
  symm := .symm
  trans := .trans
  app := fun _ _ hs ht => hs.append ht
  kstep := fun _ _ => trivial
  kmerge := fun _ => Iff.rfl
  krel := fun _ _ => trivial
  merge := by
    intro r s t _ _ hs ht
    refine outcome_ok ⟨_, _, _, rfl, rfl, rfl, ?_⟩
    rw [hs.strip, ht.strip, (hs.append ht).strip]
    by_cases hc : r.sect.isSome = true
    · have : (r.push s).sect.isSome = true := hc
      simp only [hc, if_true, this]
      exact SameText.push_push r s t
    · simp only [hc, Bool.false_eq_true, if_false]
      exact SameText.refl _
  respects := by
    intro r r' c _ _ h
    have ht := h.text
    cases c with
    | start t as =>
      simp only [charactersReader, crStart]
      split
      · obtain ⟨l, rfl, hl⟩ := h
        split
        · rfl
        · split
          · split
            · simp only [Bind.bind, Except.bind]
              cases Rd.firstNumber _ with
              | error e => rfl
              | ok id => exact ⟨l, rfl, hl⟩
            split
            · exact ⟨l, rfl, hl⟩
            split
            · exact ⟨l, rfl, hl⟩
            split
            · exact ⟨l, rfl, hl⟩
            · exact ⟨l, rfl, hl⟩
          · exact ⟨l, rfl, hl⟩
      split
      · exact h.push _
      · exact h
    | stop t =>
      simp only [charactersReader, crStop]
      rw [ht]
      have e1 : r'.elId = r.elId := by obtain ⟨l, rfl, hl⟩ := h; rfl
      have e2 : r'.sect = r.sect := by obtain ⟨l, rfl, hl⟩ := h; rfl
      rw [e1, e2]
      split
      · exact h
      split
      · split
        · exact h
        · obtain ⟨l, rfl, hl⟩ := h
          dsimp only
          split
          · exact SameText.refl _
          · rfl
      split
      · exact h.push _
      · exact h
    | data s =>
      have e2 : r'.sect = r.sect := by obtain ⟨l, rfl, hl⟩ := h; rfl
      simp only [charactersReader, e2]
      split
      · exact h.push _
      · exact h
    | comment s => exact h.comment s

theorem world_divisible (w : WorldKind) : Divisible (worldReader w) Trimmed SameText (fun _ _ => True) where
  refl := .refl
  symm := .symm
  trans := .trans
  app := fun _ _ hs ht => hs.append ht
  kstep := fun _ _ => trivial
  kmerge := fun _ => Iff.rfl
  krel := fun _ _ => trivial
  merge := by
    intro r s t _ _ hs ht
    refine outcome_ok ⟨_, _, _, rfl, rfl, rfl, ?_⟩
    rw [hs.strip, ht.strip, (hs.append ht).strip]
    by_cases hc : r.elId.isSome = true
    · have : (r.push s).elId.isSome = true := hc
      simp only [hc, if_true, this]
      exact SameText.push_push r s t
    · simp only [hc, Bool.false_eq_true, if_false]
      exact SameText.refl _
  respects := by
    intro r r' c _ _ h
    have ht := h.text
    have e1 : r'.elId = r.elId := by obtain ⟨l, rfl, hl⟩ := h; rfl
    cases c with
    | start t as =>
      simp only [worldReader, weStart]
      split
      · obtain ⟨l, rfl, hl⟩ := h
        split
        · rfl
        · split
          · simp only [Bind.bind, Except.bind]
            cases Rd.firstNumber _ with
            | error e => rfl
            | ok id => exact ⟨l, rfl, hl⟩
          · exact ⟨l, rfl, hl⟩
      split
      · exact h.push _
      · exact h
    | stop t =>
      simp only [worldReader, weStop]
      rw [ht, e1]
      split
      · exact h
      split
      · obtain ⟨l, rfl, hl⟩ := h
        dsimp only
        split
        · exact SameText.refl _
        · rfl
      split
      · exact h.push _
      · exact h
    | data s =>
      simp only [worldReader, e1]
      split
      · exact h.push _
      · exact h
    | comment s => exact h.comment s

/-! ### Proof reading -/

theorem SameText.startLanguage {r r' : Rd} (h : SameText r r') (as : List (Str × Option Str)) :
    SameText (r.startLanguage as) (r'.startLanguage as) := by
  unfold Rd.startLanguage
  split
  · split
    · apply SameText.push
      obtain ⟨l, rfl, hl⟩ := h
      exact ⟨l, rfl, hl⟩
    · exact h
  · exact h

theorem SameText.stopLanguage {r r' : Rd} (h : SameText r r') : SameText r.stopLanguage r'.stopLanguage := by
  obtain ⟨l, rfl, hl⟩ := h
  unfold Rd.stopLanguage
  dsimp only
  split
  · exact ⟨l, rfl, hl⟩
  · exact ⟨_, rfl, by simp [Rd.push, hl]⟩

theorem SameText.cleanup {r r' : Rd} (h : SameText r r') (t : Str) : r'.cleanupScene t = r.cleanupScene t := by
  obtain ⟨l, rfl, hl⟩ := h
  rfl

theorem contains_noChar {s p : Str} {c : Char} (hp : c ∈ p) (h : c ∉ s) : Str.contains s p = false := by
  induction s with
  | nil =>
    cases p with
    | nil => cases hp
    | cons a p => rfl
  | cons a s ih =>
    simp only [Str.contains, Bool.or_eq_false_iff]
    refine ⟨?_, ih (fun hc => h (by simp [hc]))⟩
    rw [Bool.eq_false_iff]
    intro hpre
    rw [List.isPrefixOf_iff_prefix] at hpre
    exact h (hpre.subset hp)

/-- The tags the ODT parser never reports. -/
def NoBreaks (cs : List Call) : Prop := ∀ t as, Call.start t as ∈ cs → t ≠ c!"br" ∧ t ≠ c!"ul"

theorem NoBreaks.rechunk {Q : Str → Prop} {a b : List Call} (h : Rechunk Q a b) : NoBreaks a ↔ NoBreaks b := by
  induction h with
  | refl a => exact Iff.rfl
  | cons c _ ih =>
    simp only [NoBreaks, List.mem_cons] at ih ⊢
    constructor
    · intro h t as hm
      rcases hm with hm | hm
      · exact h t as (.inl hm)
      · exact ih.1 (fun t as h2 => h t as (.inr h2)) t as hm
    · intro h t as hm
      rcases hm with hm | hm
      · exact h t as (.inl hm)
      · exact ih.2 (fun t as h2 => h t as (.inr h2)) t as hm
  | merge hs ht a => simp [NoBreaks]
  | trans _ _ ih1 ih2 => exact ih1.trans ih2

theorem SameText.proofStart {r r' : Rd} (h : SameText r r') (t : Str) (as : List (Str × Option Str)) :
    SameText (proofStart r t as) (proofStart r' t as) := by
  unfold Verif.proofStart
  split
  · exact h.push _
  split
  · exact h.push _
  split
  · exact h.startLanguage _
  split
  · exact h.push _
  split
  · exact h.push _
  split
  · exact h.push _
  split
  · exact (h.push _).startLanguage _
  split
  · exact h.startBody _
  split
  · obtain ⟨l, rfl, hl⟩ := h; exact ⟨l, rfl, hl⟩
  split
  · exact h.push _
  · exact h

theorem SameText.proofStop {r r' : Rd} (h : SameText r r') (t : Str) : SameText (proofStop r t) (proofStop r' t) := by
  unfold Verif.proofStop
  split
  · exact (h.push _).stopLanguage
  split
  · exact h.push _
  split
  · exact h.push _
  split
  · exact h.stopLanguage
  · exact h

theorem startLanguage_skip (r : Rd) (as : List (Str × Option Str)) : (r.startLanguage as).skipData = r.skipData := by
  unfold Rd.startLanguage
  split
  · split <;> rfl
  · rfl

theorem stopLanguage_skip (r : Rd) : r.stopLanguage.skipData = r.skipData := by
  unfold Rd.stopLanguage
  split <;> rfl

theorem startBody_skip (r : Rd) (as : List (Str × Option Str)) : (r.startBody as).skipData = r.skipData := by
  induction as generalizing r with
  | nil => rfl
  | cons p as ih =>
    obtain ⟨k, v⟩ := p
    simp only [Rd.startBody]
    rw [ih]
    rcases v with _ | _ | ⟨c, v⟩
    · rfl
    · rfl
    · dsimp only
      split
      · rfl
      split <;> rfl

theorem proofStart_skip (r : Rd) (t : Str) (as : List (Str × Option Str)) (h1 : t ≠ c!"br") (h2 : t ≠ c!"ul") :
    (proofStart r t as).skipData = r.skipData := by
  unfold proofStart
  split
  · rfl
  split
  · rfl
  split
  · exact startLanguage_skip _ _
  split
  · rfl
  split
  · rfl
  split
  · rfl
  split
  · exact startLanguage_skip _ _
  split
  · exact startBody_skip _ _
  split
  · rename_i h; exact absurd h (by simp [h1, h2])
  split
  · rfl
  · rfl

theorem proofStop_skip (r : Rd) (t : Str) : (proofStop r t).skipData = r.skipData := by
  unfold proofStop
  split
  · exact stopLanguage_skip _
  split
  · rfl
  split
  · rfl
  split
  · exact stopLanguage_skip _
  · rfl

theorem onScene_skip {r r' : Rd} {id : Str} {f : Scene → Scene} (h : r.onScene id f = .ok r') : r'.skipData = r.skipData := by
  unfold Rd.onScene at h
  split at h
  · cases h; rfl
  · cases h

theorem proofData_skip {r r' : Rd} {s : Str} (hr : r.skipData = false) (h : proofData r s = .ok r') : r'.skipData = false := by
  unfold proofData at h
  rw [if_neg (by rw [hr]; decide)] at h
  split at h
  · split at h
    · cases h; exact hr
    · cases h
  split at h
  · split at h
    · split at h
      · split at h
        · rename_i he
          cases h
          exact (onScene_skip he).trans hr
        · cases h
      · cases h; exact hr
    · cases h; exact hr
  · cases h
    split
    · exact hr
    · exact hr

theorem proof_divisible : Divisible proofReader (fun s => '[' ∉ s) SameText (fun r cs => r.skipData = false ∧ NoBreaks cs) where
  refl := .refl
  symm := .symm
  trans := .trans
  app := fun s t hs ht => by simp [hs, ht]
  kstep := by
    intro r r' c cs hk h
    refine ⟨?_, fun t as hm => hk.2 t as (by simp [hm])⟩
    cases c with
    | start t as =>
      have := hk.2 t as (by simp)
      cases h
      rw [proofStart_skip _ _ _ this.1 this.2]
      exact hk.1
    | stop t =>
      cases h
      rw [proofStop_skip]
      exact hk.1
    | data s => exact proofData_skip hk.1 h
    | comment s =>
      cases h
      unfold Rd.baseComment
      split
      · exact hk.1
      · exact hk.1
  kmerge := fun h => and_congr_right (fun _ => NoBreaks.rechunk h)
  krel := by
    intro r r' _ h hk
    obtain ⟨l, rfl, hl⟩ := h
    exact hk
  merge := by
    intro r s t _ hk hs ht
    apply outcome_ok
    have hk := hk.1
    have hst : '[' ∉ s ++ t := by simp [hs, ht]
    have e : ∀ r x, '[' ∉ x → r.skipData = false → proofReader r (.data x) = .ok (if r.scId.isSome then r.push x else r) := by
      intro r x hx hr
      simp only [proofReader, proofData, hr, contains_noChar (show '[' ∈ c!"[ScID" by decide) hx,
        contains_noChar (show '[' ∈ c!"[/ScID" by decide) hx, Bool.false_eq_true, if_false]
    by_cases hc : r.scId.isSome = true
    · refine ⟨r.push s, (r.push s).push t, r.push (s ++ t), ?_, ?_, ?_, SameText.push_push r s t⟩
      · rw [e r s hs hk, if_pos hc]
      · rw [e (r.push s) t ht hk]; exact congrArg Except.ok (if_pos hc)
      · rw [e r _ hst hk, if_pos hc]
    · refine ⟨r, r, r, ?_, ?_, ?_, .refl _⟩
      · rw [e r s hs hk, if_neg hc]
      · rw [e r t ht hk, if_neg hc]
      · rw [e r _ hst hk, if_neg hc]
  respects := by
    intro r r' c _ _ h
    have ht := h.text
    have e1 : r'.scId = r.scId := by obtain ⟨l, rfl, hl⟩ := h; rfl
    have e2 : r'.skipData = r.skipData := by obtain ⟨l, rfl, hl⟩ := h; rfl
    have e3 : r'.novel = r.novel := by obtain ⟨l, rfl, hl⟩ := h; rfl
    cases c with
    | start t as =>
      exact h.proofStart t as
    | stop t => exact h.proofStop t
    | data s =>
      simp only [proofReader, proofData]
      rw [e1, e2, e3, ht, h.cleanup]
      split
      · obtain ⟨l, rfl, hl⟩ := h; exact ⟨l, rfl, hl⟩
      split
      · split
        · obtain ⟨l, rfl, hl⟩ := h; exact SameText.refl _
        · rfl
      split
      · split
        · split
          · rename_i id _ _
            have := h.onScene id (fun sc => sc.setContent (Str.strip (r.cleanupScene r.text)))
            cases h1 : r.onScene id (fun sc => sc.setContent (Str.strip (r.cleanupScene r.text))) <;>
              cases h2 : r'.onScene id (fun sc => sc.setContent (Str.strip (r.cleanupScene r.text))) <;> rw [h1, h2] at this <;>
              simp only [SameOutcome] at this ⊢
            exact this.dropLines (fun x => { x with lines := [], scId := none }) (fun _ => rfl)
          · obtain ⟨l, rfl, hl⟩ := h; exact ⟨l, rfl, hl⟩
        · exact h
      · split
        · exact h.push _
        · exact h
    | comment s => exact h.comment s

end Verif
