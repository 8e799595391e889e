/-
Comments, footnotes and endnotes in the exported document (C56): the substitutions over the whole document, composed from their effects on
parts of it.
-/
import Verif.Lemmas.Book2

namespace Verif.Book
open Spec Re

variable {ls : List Str}

/-! ### Substitution with a state -/

section
variable {σ : Type} {m : Matcher} {f : σ → Str → σ × Str}

theorem subStGo_bol (hm : ∀ b b' s, m b s = m b' s) (s : Str) : ∀ (st : σ) (b b' : Bool) (n : Nat), subStGo m f st b n s = subStGo m f st b' n s := by
  induction s with
  | nil => intro st b b' n; rfl
  | cons c s ih =>
    intro st b b' n
    cases n with
    | succ n => rfl
    | zero =>
      unfold subStGo
      rw [hm b b']

/-- The substitution. -/
def go (m : Matcher) (f : σ → Str → σ × Str) (st : σ) (s : Str) : Str := subStGo m f st true 0 s

theorem go_miss (hm : ∀ b b' s, m b s = m b' s) {c : Char} {s : Str} (st : σ) (h : m true (c :: s) = none) : go m f st (c :: s) = c :: go m f st s := by
  unfold go
  rw [subStGo]
  rw [h]
  simp only
  rw [subStGo_bol hm]

theorem subStGo_skip (hm : ∀ b b' s, m b s = m b' s) (a r : Str) : ∀ (st : σ) (b : Bool), subStGo m f st b a.length (a ++ r) = go m f st r := by
  induction a with
  | nil => intro st b; exact subStGo_bol hm r st _ _ _
  | cons c a ih =>
    intro st b
    show subStGo m f st b (a.length + 1) (c :: (a ++ r)) = _
    rw [subStGo, ih]

theorem go_hit (hm : ∀ b b' s, m b s = m b' s) {c : Char} {a r : Str} (st : σ) (h : m true (c :: (a ++ r)) = some (a.length + 1)) :
    go m f st (c :: (a ++ r)) = (f st (c :: a)).2 ++ go m f (f st (c :: a)).1 r := by
  unfold go
  rw [subStGo]
  rw [h]
  simp only
  have e : (c :: (a ++ r)).take (a.length + 1) = c :: a := by simp
  rw [e, subStGo_skip hm]
  rfl
end

/-- No occurrence of `p` begins in `s`, whatever follows. -/
def NoBegin (p s : Str) : Prop := ∀ a b, s = a ++ b → b ≠ [] → ∀ r, ¬ p <+: b ++ r

theorem NoBegin.nil (p : Str) : NoBegin p [] := by
  intro a b h hb
  exact absurd (List.append_eq_nil_iff.1 h.symm).2 hb

theorem NoBegin.append {p a b : Str} (h1 : NoBegin p a) (h2 : NoBegin p b) : NoBegin p (a ++ b) := by
  intro x y h hy r
  rcases List.append_eq_append_iff.1 h with ⟨z, hz1, hz2⟩ | ⟨z, hz1, hz2⟩
  · exact h2 z y hz2 hy r
  · by_cases hz : z = []
    · subst hz
      rw [List.nil_append] at hz2
      exact h2 [] y hz2.symm hy r
    · rw [hz2, List.append_assoc]
      exact h1 x z hz1 hz _

theorem NoBegin.lit {p s : Str} (h : noStart p s = true) : NoBegin p s := by
  induction s with
  | nil => exact NoBegin.nil p
  | cons c s ih =>
    have h' := h
    simp only [noStart, Bool.and_eq_true] at h'
    intro a b e hb r
    cases a with
    | nil =>
      rw [List.nil_append] at e
      subst e
      exact noStart_prefix h r
    | cons d a =>
      injection e with _ e
      exact ih h'.2 a b e hb r

theorem NoBegin.of_not_mem {c : Char} {p s : Str} (h : c ∉ s) : NoBegin (c :: p) s := by
  intro a b e hb r hp
  cases b with
  | nil => exact hb rfl
  | cons d b =>
    obtain ⟨z, hz⟩ := hp
    injection hz with hz _
    exact h (by rw [e]; simp [hz])

theorem NoBegin.tail {p : Str} {c : Char} {s : Str} (h : NoBegin p (c :: s)) : NoBegin p s :=
  fun a b e hb r => h (c :: a) b (by rw [e]; rfl) hb r

/-- Two characters, the second of which does not follow. -/
theorem NoBegin.guard {c d x : Char} {s : Str} (h : ¬ [c, d] <:+: s) (hx : x ≠ d) (hc : x ≠ c) : NoBegin [c, d] (s ++ [x]) := by
  intro a b e hb r hp
  have hi : s ++ [x] = a ++ b := e
  rcases List.append_eq_append_iff.1 hi with ⟨z, hz1, hz2⟩ | ⟨z, hz1, hz2⟩
  · -- b is [x] (or part of it)
    cases z with
    | nil =>
      rw [List.nil_append] at hz2
      rw [← hz2] at hp
      obtain ⟨w, hw⟩ := hp
      injection hw with hw _
      exact hc hw.symm
    | cons y z =>
      have : z ++ b = [] := by injection hz2 with _ e; exact e.symm
      exact hb (List.append_eq_nil_iff.1 this).2
  · rw [hz2] at hp
    match z, hz1 with
    | [], _ =>
      obtain ⟨w, hw⟩ := hp
      injection hw with hw _
      exact hc hw.symm
    | [y], _ =>
      obtain ⟨w, hw⟩ := hp
      injection hw with _ hw
      injection hw with hw _
      exact hx hw.symm
    | y :: y' :: z, hz1 =>
      obtain ⟨w, hw⟩ := hp
      injection hw with h1 hw
      injection hw with h2 hw
      refine h ⟨a, z, ?_⟩
      rw [hz1, ← h1, ← h2]
      simp

/-! ### Line breaks -/

/-- Line breaks are replaced by other letters. -/
def nlE (s : Str) : Str := s.flatMap (fun c => if c = '\n' then c!"@n@" else [c])

theorem nlE_append (a b : Str) : nlE (a ++ b) = nlE a ++ nlE b := List.flatMap_append

theorem nlE_id {s : Str} (h : '\n' ∉ s) : nlE s = s := by
  induction s with
  | nil => rfl
  | cons c s ih =>
    unfold nlE at *
    rw [List.flatMap_cons, if_neg (fun e => h (by simp [e])), ih (fun hm => h (by simp [hm]))]
    rfl

theorem nlE_replace (s : Str) : Str.replace s c!"\n" c!"@n@" = nlE s := replace_single _ _ _

theorem nlE_begin {s : Str} (h : NoBegin c!"/*" s) : NoBegin c!"/*" (nlE s) := by
  induction s with
  | nil => exact h
  | cons c s ih =>
    have ih := ih h.tail
    by_cases hc : c = '\n'
    · subst hc
      exact NoBegin.append (a := c!"@n@") (NoBegin.lit (by decide)) ih
    · have e : nlE (c :: s) = c :: nlE s := by unfold nlE; rw [List.flatMap_cons, if_neg hc]; rfl
      rw [e]
      intro a b he hb r hp
      cases a with
      | cons d a =>
        injection he with _ he
        exact ih a b he hb r hp
      | nil =>
        rw [List.nil_append] at he
        subst he
        have h0 := h [] (c :: s) rfl (by simp)
        cases s with
        | nil => exact h0 r hp
        | cons d s =>
          obtain ⟨w, hw⟩ := hp
          injection hw with h1 hw
          by_cases hd : d = '\n'
          · subst hd
            injection hw with h2 _
            exact absurd h2 (by decide)
          · have e' : nlE (d :: s) = d :: nlE s := by unfold nlE; rw [List.flatMap_cons, if_neg hd]; rfl
            rw [e'] at hw
            injection hw with h2 _
            exact h0 [] ⟨s, by rw [← h1, ← h2]; simp⟩

/-! ### The two substitutions -/

/-- `\/\* *@([ef]n\**) (.*?)\*\/`. -/
def noteM : Matcher := fun _ s => (noteMatch s).map (·.1)
/-- `\/\*(.*?)\*\/`. -/
def annM : Matcher := between0 c!"/*" c!"*/"
/-- The replacement of a comment. -/
def annF (author : Option Str) : Unit → Str → Unit × Str := fun _ m =>
  ((), c!"<office:annotation><dc:creator>" ++ pyStr author ++ c!"</dc:creator><text:p>" ++ (m.drop 2).take (m.length - 4) ++ c!"</text:p></office:annotation>")

theorem noteM_none {s : Str} (h : ¬ c!"/*" <+: s) : noteM true s = none := by
  unfold noteM noteMatch
  rw [if_neg (fun hp => h (List.isPrefixOf_iff_prefix.1 hp))]
  rfl

theorem annM_none {s : Str} (h : ¬ c!"/*" <+: s) : annM true s = none := by
  unfold annM between0
  rw [if_neg (fun hp => h (List.isPrefixOf_iff_prefix.1 hp))]

/-- The first substitution. -/
abbrev go1 (st : NoteState) (s : Str) : Str := go noteM replaceNote st s
/-- The second substitution. -/
abbrev go2 (author : Option Str) (s : Str) : Str := go annM (annF author) () s

theorem noteM_b (b b' : Bool) (s : Str) : noteM b s = noteM b' s := rfl
theorem annM_b (b b' : Bool) (s : Str) : annM b s = annM b' s := rfl

theorem go1_calm {s : Str} (h : NoBegin c!"/*" s) (st : NoteState) (r : Str) : go1 st (s ++ r) = s ++ go1 st r := by
  induction s with
  | nil => rfl
  | cons c s ih =>
    show go1 st (c :: (s ++ r)) = _
    have h0 : noteM true (c :: (s ++ r)) = none := noteM_none (h [] (c :: s) rfl (by simp) r)
    unfold go1
    rw [go_miss noteM_b st h0]
    rw [List.cons_append]
    exact congrArg (c :: ·) (ih h.tail)

theorem go2_calm (author : Option Str) {s : Str} (h : NoBegin c!"/*" s) (r : Str) : go2 author (s ++ r) = s ++ go2 author r := by
  induction s with
  | nil => rfl
  | cons c s ih =>
    show go2 author (c :: (s ++ r)) = _
    have h0 : annM true (c :: (s ++ r)) = none := annM_none (h [] (c :: s) rfl (by simp) r)
    unfold go2
    rw [go_miss annM_b () h0]
    rw [List.cons_append]
    exact congrArg (c :: ·) (ih h.tail)

/-- The effect of both substitutions on a part of the document. -/
def Noted (author : Option Str) (k : Nat) (s s' : Str) (k' : Nat) : Prop :=
  (∃ m, (∀ r, go1 (k, k) (nlE s ++ r) = m ++ go1 (k', k') r) ∧ ∀ r, go2 author (m ++ r) = nlE s' ++ go2 author r) ∧ (¬ c!"/*" <:+: s → s' = s)

variable {author : Option Str}

theorem Noted.append {k k1 k2 : Nat} {a a' b b' : Str} (h1 : Noted author k a a' k1) (h2 : Noted author k1 b b' k2) : Noted author k (a ++ b) (a' ++ b') k2 := by
  obtain ⟨⟨m1, e1, f1⟩, g1⟩ := h1
  obtain ⟨⟨m2, e2, f2⟩, g2⟩ := h2
  refine ⟨⟨m1 ++ m2, ?_, ?_⟩, ?_⟩
  · intro r
    rw [nlE_append, List.append_assoc, e1, e2, List.append_assoc]
  · intro r
    rw [List.append_assoc, f1, f2, nlE_append, List.append_assoc]
  · intro h
    rw [g1 (fun hi => h (hi.trans (List.prefix_append _ _).isInfix)), g2 (fun hi => h (hi.trans (List.suffix_append _ _).isInfix))]

theorem Noted.calm (k : Nat) {s : Str} (h : NoBegin c!"/*" s) : Noted author k s s k :=
  ⟨⟨nlE s, fun r => go1_calm (nlE_begin h) _ r, fun r => go2_calm author (nlE_begin h) r⟩, fun _ => rfl⟩

/-! ### Lines -/

/-- Is the comment a footnote or an endnote? -/
def isNote (s : Str) : Bool := decide (c!"@fn " <+: s) || decide (c!"@en " <+: s)

/-- A footnote or endnote in the document. -/
def noteText (k : Nat) (s : Str) : Str :=
  let cls := if c!"@fn " <+: s then c!"footnote" else c!"endnote"
  let style := if c!"@fn " <+: s then c!"Footnote" else c!"Endnote"
  c!"<text:note text:id=\"ftn" ++ Str.ofNat (k + 1) ++ c!"\" text:note-class=\"" ++ cls ++ c!"\"><text:note-citation text:label=\"" ++ Str.ofNat (k + 1) ++
    c!"\">*</text:note-citation><text:note-body><text:p text:style-name=\"" ++ style ++ c!"\">" ++ (s.drop 4).flatMap escChar ++ c!"</text:p></text:note-body></text:note>"

/-- The line after the first substitution. -/
def lineMid (ls : List Str) : Nat → List Piece → Str
  | _, [] => []
  | k, .note s :: l => if isNote s then noteText k s ++ lineMid ls (k + 1) l else c!"/*" ++ s.flatMap escChar ++ c!"*/" ++ lineMid ls k l
  | k, p :: l => (rawStage ls).out (some p) ++ lineMid ls k l

/-- The line after the second substitution. -/
def lineFin (author : Option Str) (ls : List Str) : Nat → List Piece → Str
  | _, [] => []
  | k, .note s :: l => if isNote s then noteText k s ++ lineFin author ls (k + 1) l else noteStart author ++ s.flatMap escChar ++ noteEnd ++ lineFin author ls k l
  | k, p :: l => (rawStage ls).out (some p) ++ lineFin author ls k l

/-- The number of footnotes and endnotes. -/
def lineNotes : List Piece → Nat
  | [] => 0
  | .note s :: l => (if isNote s then 1 else 0) + lineNotes l
  | _ :: l => lineNotes l

theorem lineMid_cons {p : Piece} (h : ∀ s, p ≠ .note s) (k : Nat) (l : List Piece) : lineMid ls k (p :: l) = (rawStage ls).out (some p) ++ lineMid ls k l := by
  cases p <;> first | rfl | exact absurd rfl (h _)
theorem lineFin_cons {p : Piece} (h : ∀ s, p ≠ .note s) (k : Nat) (l : List Piece) : lineFin author ls k (p :: l) = (rawStage ls).out (some p) ++ lineFin author ls k l := by
  cases p <;> first | rfl | exact absurd rfl (h _)
theorem lineNotes_cons {p : Piece} (h : ∀ s, p ≠ .note s) (l : List Piece) : lineNotes (p :: l) = lineNotes l := by
  cases p <;> first | rfl | exact absurd rfl (h _)

theorem opText_ltStart {t : Str} (ht : t ∈ formats ls) : ∃ z, opText ls t = '<' :: z := by
  rcases opText_cases (ls := ls) ht with e | e | ⟨i, e⟩
  · exact ⟨_, e⟩
  · exact ⟨_, e⟩
  · exact ⟨_, e⟩

theorem noteText_lt (k : Nat) (s : Str) : ∃ z, noteText k s = '<' :: z := ⟨_, rfl⟩

/-- No text begins with a star unless the line does. -/
theorem esc_star {c : Char} {z : Str} (h : escChar c = '*' :: z) : c = '*' := by
  unfold escChar at h
  repeat' split at h
  all_goals first
    | (injection h with h; exact absurd h (by decide))
    | (injection h with h)

theorem lineOut_star {l : List Piece} (ho : ∀ x ∈ l, x.Ok ls) {r w : Str} (h : lineOut ls l ++ pEnd ++ r = '*' :: w) : ∃ l', l = .ch '*' :: l' := by
  cases l with
  | nil => injection h with h; exact absurd h (by decide)
  | cons x l =>
    rw [lineOut_cons] at h
    cases x with
    | nl => injection h with h; exact absurd h (by decide)
    | op t =>
      obtain ⟨z, hz⟩ := opText_ltStart (ls := ls) (ho (.op t) (by simp))
      replace h : opText ls t ++ lineOut ls l ++ pEnd ++ r = _ := h
      rw [hz] at h
      injection h with h; exact absurd h (by decide)
    | cl t => injection h with h; exact absurd h (by decide)
    | note t => injection h with h; exact absurd h (by decide)
    | ch c =>
      obtain ⟨x, y, e2, _⟩ := escChar_head c
      rw [out_ch, e2] at h
      have e : x = '*' := by injection h
      rw [e] at e2
      exact ⟨l, by rw [esc_star e2]⟩

theorem lineMid_star {k : Nat} {l : List Piece} (ho : ∀ x ∈ l, x.Ok ls) {r w : Str} (h : lineMid ls k l ++ pEnd ++ r = '*' :: w) : ∃ l', l = .ch '*' :: l' := by
  cases l with
  | nil => injection h with h; exact absurd h (by decide)
  | cons x l =>
    cases x with
    | nl => injection h with h; exact absurd h (by decide)
    | op t =>
      obtain ⟨z, hz⟩ := opText_ltStart (ls := ls) (ho (.op t) (by simp))
      replace h : opText ls t ++ lineMid ls k l ++ pEnd ++ r = _ := h
      rw [hz] at h
      injection h with h; exact absurd h (by decide)
    | cl t => injection h with h; exact absurd h (by decide)
    | note t =>
      unfold lineMid at h
      split at h
      · obtain ⟨z, hz⟩ := noteText_lt k t
        rw [hz] at h
        injection h with h; exact absurd h (by decide)
      · injection h with h; exact absurd h (by decide)
    | ch c =>
      obtain ⟨x, y, e2, _⟩ := escChar_head c
      rw [lineMid_cons (by simp), out_ch, e2] at h
      have e : x = '*' := by injection h
      rw [e] at e2
      exact ⟨l, by rw [esc_star e2]⟩

theorem lazyTo_text {s r : Str} (h : ∀ c ∈ s, c ≠ '*' ∧ c ≠ '\n') : lazyTo c!"*/" (s ++ (c!"*/" ++ r)) = some (s.length + 2) := by
  induction s with
  | nil => rfl
  | cons c s ih =>
    have hc := h c (by simp)
    show lazyTo c!"*/" (c :: (s ++ (c!"*/" ++ r))) = _
    unfold lazyTo
    rw [if_neg, if_neg hc.2, ih (fun d hd => h d (by simp [hd]))]
    · rfl
    · intro hp
      obtain ⟨w, hw⟩ := List.isPrefixOf_iff_prefix.1 hp
      injection hw with hw _
      exact hc.1 hw.symm

/-- Text of comments. -/
def NoteOk (s : Str) : Prop := ∀ c ∈ s, xmlLegal c = true ∧ c ≠ '\n' ∧ c ≠ '\r' ∧ c ≠ '[' ∧ c ≠ '*' ∧ c ≠ '/' ∧ c ≠ '~'

theorem NoteOk.esc {s : Str} (h : NoteOk s) : ∀ c ∈ s.flatMap escChar, c ≠ '*' ∧ c ≠ '\n' ∧ c ≠ '/' := by
  intro c hc
  refine ⟨?_, ?_, ?_⟩
  · rintro rfl
    exact not_mem_escs (by decide) (fun hm => (h _ hm).2.2.2.2.1 rfl) hc
  · rintro rfl
    exact not_mem_escs (by decide) (fun hm => (h _ hm).2.1 rfl) hc
  · rintro rfl
    exact not_mem_escs (by decide) (fun hm => (h _ hm).2.2.2.2.2.1 rfl) hc

/-- A footnote or endnote. -/
theorem noteMatch_note {e : Char} (he : e = 'f' ∨ e = 'e') {u : Str} (hu : ∀ c ∈ u, c ≠ '*' ∧ c ≠ '\n') (r : Str) :
    noteMatch (c!"/*@" ++ [e] ++ c!"n " ++ u ++ (c!"*/" ++ r)) = some (u.length + 8, [e, 'n'], u) := by
  have h1 : noteMatch (c!"/*@" ++ [e] ++ c!"n " ++ u ++ (c!"*/" ++ r)) =
      (if e = 'e' ∨ e = 'f' then (lazyTo c!"*/" (u ++ (c!"*/" ++ r))).map fun k => ((c!"/*@" ++ [e] ++ c!"n " ++ u ++ (c!"*/" ++ r)).length - ((u ++ (c!"*/" ++ r)).length - k), e :: 'n' :: [], (u ++ (c!"*/" ++ r)).take (k - 2)) else none) := rfl
  rw [h1, if_pos he.symm, lazyTo_text hu]
  simp only [Option.map_some, Nat.add_sub_cancel]
  rw [List.take_left' rfl]
  have : (c!"/*@" ++ [e] ++ c!"n " ++ u ++ (c!"*/" ++ r)).length - ((u ++ (c!"*/" ++ r)).length - (u.length + 2)) = u.length + 8 := by
    simp only [List.length_append, List.length_cons, List.length_nil]
    omega
  rw [this]

theorem quoteFree_replace {u p q : Str} (h : '"' ∉ u) (hp : '"' ∈ p) : Str.replace u p q = u := by
  refine replace_none q ?_
  intro hi
  exact h (hi.subset hp)

theorem replaceNote_note (k : Nat) {e : Char} (he : e = 'f' ∨ e = 'e') {u : Str} (hu : NoteOk u) :
    replaceNote (k, k) (c!"/*@" ++ [e] ++ c!"n " ++ u.flatMap escChar ++ c!"*/") = ((k + 1, k + 1), noteText k (c!"@" ++ [e] ++ c!"n " ++ u)) := by
  have h1 := noteMatch_note he (u := u.flatMap escChar) (fun c hc => ⟨(hu.esc c hc).1, (hu.esc c hc).2.1⟩) []
  rw [List.append_nil] at h1
  unfold replaceNote
  rw [h1]
  simp only
  rw [quoteFree_replace (escs_no_quote u) (by decide)]
  rcases he with rfl | rfl
  · rfl
  · rfl

end Verif.Book
