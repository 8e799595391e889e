/-
Reading a line of a document that was written from a formatted text.
-/
import Verif.Lemmas.Para2
import Verif.Lemmas.Sax
import Verif.Model.OdtRead

namespace Verif
open Spec Re

variable {ls : List Str} {author : Option Str}

/-! ### Events, one after the other -/

theorem odt_run_append {p p1 p2 : OdtP} {a b : List Ev} {x y : List Call} (h1 : OdtP.run p a = .ok (p1, x)) (h2 : OdtP.run p1 b = .ok (p2, y)) :
    OdtP.run p (a ++ b) = .ok (p2, x ++ y) := by
  induction a generalizing p x with
  | nil =>
    cases h1
    exact h2
  | cons e a ih =>
    simp only [List.cons_append, OdtP.run] at h1 ⊢
    cases hs : p.step e with
    | error ex => rw [hs] at h1; cases h1
    | ok r =>
      rw [hs] at h1
      simp only [bind, Except.bind] at h1 ⊢
      cases hr : OdtP.run r.1 a with
      | error ex => rw [hr] at h1; cases h1
      | ok q =>
        rw [hr] at h1
        simp only [Except.ok.injEq, Prod.mk.injEq] at h1
        rw [ih (x := q.2) (by rw [hr, ← h1.1])]
        simp only [← h1.2, List.append_assoc]

theorem reader_run_append {h : Reader} {r r1 r2 : Rd} {a b : List Call} (h1 : h.run r a = .ok r1) (h2 : h.run r1 b = .ok r2) :
    h.run r (a ++ b) = .ok r2 := by
  induction a generalizing r with
  | nil =>
    cases h1
    exact h2
  | cons c a ih =>
    simp only [List.cons_append, Reader.run] at h1 ⊢
    cases hs : h r c with
    | error ex => rw [hs] at h1; cases h1
    | ok r' =>
      rw [hs] at h1
      exact ih h1

/-- The events take parser and reader from one state to another. -/
def Goes (h : Reader) (p : OdtP) (r : Rd) (evs : List Ev) (p' : OdtP) (r' : Rd) : Prop :=
  ∃ calls, OdtP.run p evs = .ok (p', calls) ∧ h.run r calls = .ok r'

theorem Goes.nil (h : Reader) (p : OdtP) (r : Rd) : Goes h p r [] p r := ⟨[], rfl, rfl⟩

theorem Goes.append {h : Reader} {p p1 p2 : OdtP} {r r1 r2 : Rd} {a b : List Ev} (h1 : Goes h p r a p1 r1) (h2 : Goes h p1 r1 b p2 r2) :
    Goes h p r (a ++ b) p2 r2 := by
  obtain ⟨x, hx1, hx2⟩ := h1
  obtain ⟨y, hy1, hy2⟩ := h2
  exact ⟨x ++ y, odt_run_append hx1 hy1, reader_run_append hx2 hy2⟩

theorem Goes.one {h : Reader} {p p' : OdtP} {r r' : Rd} {e : Ev} {calls : List Call} (h1 : p.step e = .ok (p', calls)) (h2 : h.run r calls = .ok r') :
    Goes h p r [e] p' r' := by
  refine ⟨calls, ?_, h2⟩
  simp only [OdtP.run, h1, bind, Except.bind, List.append_nil]

/-- The text takes parser and reader from one state to another; `acc` is the pending character data (in reverse order). -/
def Fed (h : Reader) (s acc : Str) (p : OdtP) (r : Rd) (acc' : Str) (p' : OdtP) (r' : Rd) : Prop :=
  ∃ evs, saxRun (.text acc) s = (.text acc', evs) ∧ Goes h p r evs p' r'

theorem Fed.nil (h : Reader) (acc : Str) (p : OdtP) (r : Rd) : Fed h [] acc p r acc p r := ⟨[], rfl, Goes.nil h p r⟩

theorem Fed.append {h : Reader} {s1 s2 a a1 a2 : Str} {p p1 p2 : OdtP} {r r1 r2 : Rd} (h1 : Fed h s1 a p r a1 p1 r1) (h2 : Fed h s2 a1 p1 r1 a2 p2 r2) :
    Fed h (s1 ++ s2) a p r a2 p2 r2 := by
  obtain ⟨x, hx1, hx2⟩ := h1
  obtain ⟨y, hy1, hy2⟩ := h2
  exact ⟨x ++ y, saxRun_comp hx1 hy1, hx2.append hy2⟩

/-- Character data is only collected. -/
theorem Fed.esc {h : Reader} {t : Str} (ht : Carriable t) (acc : Str) (p : OdtP) (r : Rd) :
    Fed h (t.flatMap escChar) acc p r (t.reverse ++ acc) p r := ⟨[], saxRun_esc ht acc, Goes.nil h p r⟩

/-- See `Fed.esc`. -/
theorem Fed.plain {h : Reader} {t : Str} (ht : t.all plainChar = true) (acc : Str) (p : OdtP) (r : Rd) :
    Fed h t acc p r (t.reverse ++ acc) p r := ⟨[], saxRun_plain ht acc, Goes.nil h p r⟩

/-- A tag: first the pending data, then the tag. -/
theorem Fed.tag {h : Reader} {t acc : Str} {p p1 p2 : OdtP} {r r1 r2 : Rd} {evs : List Ev} (h1 : saxRun .lt t = (.text [], evs))
    (h2 : Goes h p r (saxPend acc) p1 r1) (h3 : Goes h p1 r1 evs p2 r2) : Fed h ('<' :: t) acc p r [] p2 r2 := by
  refine ⟨saxPend acc ++ evs, ?_, h2.append h3⟩
  rw [saxRun_lt, h1]

/-! ### The states -/

/-- The styles for the languages. -/
def langTags : Nat → List Str → Dict Str
  | _, [] => []
  | i, l :: r => (c!"T" ++ Str.ofNat i, l) :: langTags (i + 1) r

/-- Between two paragraphs; `cm` is the text of the last comment. -/
def idleP (ls : List Str) (cm : Str) : OdtP := { languageTags := langTags 1 ls, comment := cm }

/-- The name of an open element. -/
def spanName (t : Str) : Str := if t = c!"i" then c!"em" else if t = c!"b" then c!"strong" else c!"lang"

/-- In a paragraph. -/
def lineP (ls : List Str) (cm : Str) (q : Bool) (st : List Str) : OdtP :=
  { languageTags := langTags 1 ls, comment := cm, paragraph := true, blockquote := q, span := st.map spanName }

/-- The reader in a scene. -/
def rdAt (r0 : Rd) (L : List Str) (lang : Str) (langs : List Str) : Rd :=
  ⟨{ r0.novel with languages := some langs }, L, r0.scId, r0.chId, lang, r0.skipData, r0.elId, r0.sect, r0.chCount, r0.scCount, r0.heading⟩

/-- The open language. -/
def langOf : List Str → Str
  | [] => []
  | t :: st => if c!"lang=" <+: t then t.drop 5 else langOf st

/-- The reader is in a scene. -/
structure InScene (r : Rd) : Prop where
  scene : r.scId.isSome = true
  skip : r.skipData = false

variable {type : Nat} {r0 : Rd}

/-- Pending data that is not blank is added. -/
theorem pend_line (h0 : InScene r0) {cm : Str} {q : Bool} {st : List Str} {L : List Str} {lang : Str} {langs : List Str} {acc : Str}
    (ha : acc.reverse = [] ∨ ∃ c ∈ acc.reverse, Str.isWs c = false) :
    ∃ L', Goes (manuscriptReader type) (lineP ls cm q st) (rdAt r0 L lang langs) (saxPend acc) (lineP ls cm q st) (rdAt r0 L' lang langs) ∧
      L'.flatten = L.flatten ++ acc.reverse := by
  unfold saxPend
  by_cases he : acc = []
  · subst he
    exact ⟨L, by rw [if_pos rfl]; exact Goes.nil _ _ _, by simp⟩
  · rw [if_neg he]
    refine ⟨L ++ [acc.reverse], Goes.one (calls := [.data acc.reverse]) rfl ?_, by simp⟩
    have hw : isSpaceStr acc.reverse = false := by
      rcases ha with ha | ⟨c, hc, hw⟩
      · exact absurd (by simpa using ha) he
      · unfold isSpaceStr
        rw [Bool.and_eq_false_iff]
        right
        rw [List.all_eq_false]
        exact ⟨c, hc, by simp [hw]⟩
    have : msData (rdAt r0 L lang langs) acc.reverse = .ok (rdAt r0 (L ++ [acc.reverse]) lang langs) := by
      unfold msData
      have e1 : (rdAt r0 L lang langs).skipData = false := h0.skip
      have e2 : (rdAt r0 L lang langs).scId.isSome = true := h0.scene
      rw [e1, e2, hw]
      rfl
    show (do let r' ← msData (rdAt r0 L lang langs) acc.reverse; (manuscriptReader type).run r' []) = _
    rw [this]
    rfl

end Verif
