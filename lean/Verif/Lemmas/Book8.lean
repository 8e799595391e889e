/-
What a line shows (C56).
-/
import Verif.Lemmas.Book7
import Verif.Lemmas.Balance3

namespace Verif.Book
open Spec Re

variable {ls : List Str} {author : Option Str}

/-! ### Nesting -/

/-- The end of a formatting. -/
theorem close_split : ∀ {l : List Piece} {d : Nat}, spans (d + 1) l = some 0 → ∃ a u b, l = a ++ .cl u :: b ∧ spans d a = some 0 ∧ spans 0 b = some 0 := by
  intro l
  induction l with
  | nil => intro d h; simp [spans] at h
  | cons x l ih =>
    intro d h
    cases x with
    | op u =>
      obtain ⟨a, v, b, rfl, h1, h2⟩ := ih (d := d + 1) h
      exact ⟨.op u :: a, v, b, rfl, h1, h2⟩
    | cl u =>
      rw [spans, if_neg (by omega), Nat.add_sub_cancel] at h
      cases d with
      | zero => exact ⟨[], u, l, rfl, rfl, h⟩
      | succ d =>
        obtain ⟨a, v, b, rfl, h1, h2⟩ := ih h
        refine ⟨.cl u :: a, v, b, rfl, ?_, h2⟩
        rw [spans, if_neg (by omega), Nat.add_sub_cancel]
        exact h1
    | ch c =>
      obtain ⟨a, v, b, rfl, h1, h2⟩ := ih (d := d) h
      exact ⟨.ch c :: a, v, b, rfl, h1, h2⟩
    | note s =>
      obtain ⟨a, v, b, rfl, h1, h2⟩ := ih (d := d) h
      exact ⟨.note s :: a, v, b, rfl, h1, h2⟩
    | nl =>
      rw [spans, if_neg (by omega)] at h
      cases h

/-- A line is shown part by part. -/
theorem shownLine_split {ls : List Str} {au : Str} : ∀ {a : List Piece} {p st : List Str} {b : List Piece}, spans p.length a = some 0 →
    shownLine ls au (p ++ st) (a ++ b) = shownLine ls au (p ++ st) a ++ shownLine ls au st b := by
  intro a
  induction a with
  | nil =>
    intro p st b h
    unfold spans at h
    rw [List.length_eq_zero_iff.1 (Option.some.inj h)]
    rfl
  | cons x a ih =>
    intro p st b h
    cases x with
    | op u => exact ih (p := u :: p) (st := st) (b := b) h
    | cl u =>
      cases p with
      | nil => cases h
      | cons v p =>
        rw [spans, if_neg (by simp), List.length_cons, Nat.add_sub_cancel] at h
        exact ih (p := p) (st := st) (b := b) h
    | ch c => exact congrArg (_ :: ·) (ih (p := p) h)
    | note s => exact congrArg (_ :: ·) (ih (p := p) h)
    | nl =>
      rw [spans] at h
      split at h
      · rename_i e
        rw [List.length_eq_zero_iff.1 e]
        exact ih (p := []) h
      · cases h

/-! ### Numbers -/

theorem noteCount_append (a b : List Shown) : noteCount (a ++ b) = noteCount a + noteCount b := List.countP_append

theorem numberShown_append (k : Nat) (a b : List Shown) : numberShown k (a ++ b) = numberShown k a ++ numberShown (k + noteCount a) b := by
  induction a generalizing k with
  | nil => rfl
  | cons x a ih =>
    cases x with
    | ch c s =>
      have : noteCount (Shown.ch c s :: a) = noteCount a := by unfold noteCount; rw [List.countP_cons]; rfl
      rw [this]
      exact congrArg (_ :: ·) (ih k)
    | comment c s =>
      have : noteCount (Shown.comment c s :: a) = noteCount a := by unfold noteCount; rw [List.countP_cons]; rfl
      rw [this]
      exact congrArg (_ :: ·) (ih k)
    | note c s t u =>
      have : noteCount (Shown.note c s t u :: a) = noteCount a + 1 := by unfold noteCount; rw [List.countP_cons]; rfl
      rw [this, show k + (noteCount a + 1) = k + 1 + noteCount a by omega]
      exact congrArg (_ :: ·) (ih (k + 1))

theorem noteCount_note (au s : Str) (r : List Shown) : noteCount (shownNote au s :: r) = (if isNote s then 1 else 0) + noteCount r := by
  unfold shownNote
  by_cases h1 : c!"@fn " <+: s
  · have : isNote s = true := by unfold isNote; simp [h1]
    rw [if_pos h1, this]
    unfold noteCount
    rw [List.countP_cons]
    simp
    omega
  · by_cases h2 : c!"@en " <+: s
    · have : isNote s = true := by unfold isNote; simp [h2]
      rw [if_neg h1, if_pos h2, this]
      unfold noteCount
      rw [List.countP_cons]
      simp
      omega
    · have : isNote s = false := by unfold isNote; simp [h1, h2]
      rw [if_neg h1, if_neg h2, this]
      unfold noteCount
      rw [List.countP_cons]
      simp

theorem noteCount_line (ls : List Str) (au : Str) (l : List Piece) : ∀ st, noteCount (shownLine ls au st l) = lineNotes l := by
  induction l with
  | nil => intro st; rfl
  | cons x l ih =>
    intro st
    cases x with
    | note s =>
      show noteCount (shownNote au s :: shownLine ls au st l) = _
      rw [noteCount_note, ih]
      rfl
    | ch c =>
      show noteCount (Shown.ch c _ :: shownLine ls au st l) = lineNotes l
      rw [← ih st]
      unfold noteCount
      rw [List.countP_cons]
      simp
    | op t => exact ih _
    | cl t => exact ih _
    | nl => exact ih _

theorem lineNotes_append (a b : List Piece) : lineNotes (a ++ b) = lineNotes a + lineNotes b := by
  rw [← noteCount_line [] [] (a ++ b) [], ← noteCount_line [] [] a [], ← noteCount_line [] [] b []]
  rw [noteCount_line, noteCount_line, noteCount_line]
  induction a with
  | nil => simp [lineNotes]
  | cons x a ih =>
    cases x with
    | note s => simp only [List.cons_append, lineNotes, ih]; omega
    | _ => exact ih

theorem lineFin_append (k : Nat) (a b : List Piece) : lineFin author ls k (a ++ b) = lineFin author ls k a ++ lineFin author ls (k + lineNotes a) b := by
  induction a generalizing k with
  | nil => rfl
  | cons x a ih =>
    cases x with
    | note s =>
      have e1 : ∀ (k : Nat) (l : List Piece), lineFin author ls k (.note s :: l) = if isNote s then noteText k s ++ lineFin author ls (k + 1) l else
        noteStart author ++ s.flatMap escChar ++ noteEnd ++ lineFin author ls k l := fun _ _ => rfl
      have e2 : lineNotes (.note s :: a) = (if isNote s then 1 else 0) + lineNotes a := rfl
      rw [List.cons_append, e1, e1, e2]
      split
      · rw [ih, List.append_assoc, show k + (1 + lineNotes a) = k + 1 + lineNotes a by omega]
      · rw [ih, Nat.zero_add]
        simp only [List.append_assoc]
    | ch c => rw [List.cons_append, lineFin_cons (by simp), lineFin_cons (by simp), lineNotes_cons (by simp), ih, List.append_assoc]
    | op c => rw [List.cons_append, lineFin_cons (by simp), lineFin_cons (by simp), lineNotes_cons (by simp), ih, List.append_assoc]
    | cl c => rw [List.cons_append, lineFin_cons (by simp), lineFin_cons (by simp), lineNotes_cons (by simp), ih, List.append_assoc]
    | nl => rw [List.cons_append, lineFin_cons (by simp), lineFin_cons (by simp), lineNotes_cons (by simp), ih, List.append_assoc]

/-! ### Lines -/

theorem noteOk_carriable {s : Str} (h : NoteOk s) : Carriable s := fun c hc => ⟨(h c hc).1, (h c hc).2.2.1⟩

theorem line_show (ha : AuthorOk author) : ∀ (n : Nat) {l : List Piece}, l.length ≤ n → (∀ x ∈ l, x.Ok ls) → Piece.nl ∉ l → spans 0 l = some 0 → ∀ k,
    Show ls (lineFin author ls k l) (fun st => numberShown k (shownLine ls (pyStr author) st l)) := by
  intro n
  induction n with
  | zero =>
    intro l hn _ _ _ k
    cases l with
    | nil => exact Show.nil
    | cons x l => simp at hn
  | succ n ih =>
    intro l hn ho hnl hopen k
    cases l with
    | nil => exact Show.nil
    | cons x l =>
      have hn' : l.length ≤ n := by simpa using hn
      have ho' : ∀ y ∈ l, y.Ok ls := fun y hy => ho y (by simp [hy])
      have hnl' : Piece.nl ∉ l := fun hm => hnl (by simp [hm])
      cases x with
      | nl => exact absurd (by simp) hnl
      | cl t => cases hopen
      | ch c =>
        rw [lineFin_cons (by simp), out_ch]
        have hc := ho (.ch c) (by simp)
        have h1 : Show ls (escChar c) (fun st => chs (stk ls st) [c]) := by
          have := Show.esc (ls := ls) (t := [c]) (by
            intro d hd
            rw [List.mem_singleton] at hd
            subst hd
            exact ⟨hc.1, hc.2.2⟩)
          rwa [List.flatMap_cons, List.flatMap_nil, List.append_nil] at this
        exact (h1.append (ih hn' ho' hnl' hopen k)).congr (fun st => rfl)
      | note s =>
        have hs := ho (.note s) (by simp)
        have hc : Carriable s := noteOk_carriable hs.1
        unfold lineFin
        by_cases hi : isNote s = true
        · rw [if_pos hi]
          refine ((Show.foot k hc).append (ih hn' ho' hnl' hopen (k + 1))).congr ?_
          intro st
          show _ = numberShown k (shownNote (pyStr author) s :: shownLine ls (pyStr author) st l)
          unfold shownNote noteClass
          by_cases h1 : c!"@fn " <+: s
          · rw [if_pos h1, if_pos h1]
            rfl
          · rw [if_neg h1, if_neg h1]
            have h2 : c!"@en " <+: s := by
              unfold isNote at hi
              simpa [h1] using hi
            rw [if_pos h2]
            rfl
        · rw [if_neg hi]
          refine ((Show.comment ha hc).append (ih hn' ho' hnl' hopen k)).congr ?_
          intro st
          show _ = numberShown k (shownNote (pyStr author) s :: shownLine ls (pyStr author) st l)
          obtain ⟨h1, h2⟩ := isNote_false (by cases h : isNote s with | true => exact absurd h hi | false => rfl)
          unfold shownNote
          rw [if_neg h1, if_neg h2]
          rfl
      | op t =>
        obtain ⟨a, u, b, rfl, h1, h2⟩ := close_split (d := 0) hopen
        have hla : a.length ≤ n := by simp at hn'; omega
        have hlb : b.length ≤ n := by simp at hn'; omega
        have sa := ih hla (fun y hy => ho' y (by simp [hy])) (fun hm => hnl' (by simp [hm])) h1 k
        have sb := ih hlb (fun y hy => ho' y (by simp [hy])) (fun hm => hnl' (by simp [hm])) h2 (k + lineNotes a)
        have ht : t ∈ formats ls := ho (.op t) (by simp)
        have e : lineFin author ls k (.op t :: (a ++ .cl u :: b)) = opText ls t ++ (lineFin author ls k a ++ spanEnd) ++ lineFin author ls (k + lineNotes a) b := by
          rw [lineFin_cons (by simp), lineFin_append, lineFin_cons (by simp)]
          show opText ls t ++ (_ ++ (spanEnd ++ _)) = _
          simp only [List.append_assoc]
        rw [e]
        refine ((Show.span ht sa).append sb).congr ?_
        intro st
        have e2 : shownLine ls (pyStr author) st (.op t :: (a ++ .cl u :: b)) = shownLine ls (pyStr author) (t :: st) a ++ shownLine ls (pyStr author) st b := by
          have := shownLine_split (ls := ls) (au := pyStr author) (p := []) (st := t :: st) (b := .cl u :: b) h1
          exact this
        rw [e2, numberShown_append, noteCount_line]

end Verif.Book
