/-
The ODT parser and the readers under a different division of character data into pieces.
-/
import Verif.Model.OdtRead
import Verif.Spec.Chunks

namespace Verif
open Spec

/-- Calls of a reader that differ in how data is divided, pieces satisfying `Q`. -/
inductive Rechunk (Q : Str → Prop) : List Call → List Call → Prop
  | refl (a : List Call) : Rechunk Q a a
  | cons (c : Call) {a b : List Call} (h : Rechunk Q a b) : Rechunk Q (c :: a) (c :: b)
  | merge {s t : Str} (hs : Q s) (ht : Q t) (a : List Call) : Rechunk Q (.data s :: .data t :: a) (.data (s ++ t) :: a)
  | trans {a b c : List Call} (h1 : Rechunk Q a b) (h2 : Rechunk Q b c) : Rechunk Q a c

theorem Rechunk.prepend {Q : Str → Prop} (x : List Call) {a b : List Call} (h : Rechunk Q a b) : Rechunk Q (x ++ a) (x ++ b) := by
  induction x with
  | nil => exact h
  | cons c x ih => exact .cons c ih

/-- The parser's results agree. -/
def SameRun (Q : Str → Prop) : Except Exc (OdtP × List Call) → Except Exc (OdtP × List Call) → Prop
  | .error e, .error e' => e = e'
  | .ok a, .ok b => a.1 = b.1 ∧ Rechunk Q a.2 b.2
  | _, _ => False

theorem SameRun.refl {Q : Str → Prop} (a : Except Exc (OdtP × List Call)) : SameRun Q a a := by
  cases a with
  | error e => rfl
  | ok a => exact ⟨rfl, .refl _⟩

theorem SameRun.trans {Q : Str → Prop} {a b c : Except Exc (OdtP × List Call)} (h1 : SameRun Q a b) (h2 : SameRun Q b c) :
    SameRun Q a c := by
  cases a <;> cases b <;> cases c <;> simp only [SameRun] at h1 h2 ⊢
  · exact h1.trans h2
  · exact ⟨h1.1.trans h2.1, h1.2.trans h2.2⟩

/-- One more event in front. -/
theorem SameRun.step {Q : Str → Prop} {p : OdtP} {e : Ev} {a b : List Ev}
    (h : ∀ p' cs, OdtP.step p e = .ok (p', cs) → SameRun Q (OdtP.run p' a) (OdtP.run p' b)) :
    SameRun Q (OdtP.run p (e :: a)) (OdtP.run p (e :: b)) := by
  simp only [OdtP.run, Bind.bind, Except.bind]
  cases hs : OdtP.step p e with
  | error x => rfl
  | ok r =>
    have := h r.1 r.2 hs
    simp only
    cases h1 : OdtP.run r.1 a <;> cases h2 : OdtP.run r.1 b <;> rw [h1, h2] at this <;> simp only [SameRun] at this ⊢
    · exact this
    · exact ⟨this.1, this.2.prepend _⟩

/-- Two pieces and their concatenation. -/
theorem run_merge {Q : Str → Prop} {s t : Str} (hs : Q s) (ht : Q t) (p : OdtP) (r : List Ev) :
    SameRun Q (OdtP.run p (.chars s :: .chars t :: r)) (OdtP.run p (.chars (s ++ t) :: r)) := by
  simp only [OdtP.run, OdtP.step, Bind.bind, Except.bind]
  cases hc : p.commentCount with
  | some k =>
    by_cases hk : k = 1
    · simp only [OdtP.characters, hc, hk, if_true, List.append_assoc]
      cases OdtP.run _ r with
      | error e => rfl
      | ok q => exact ⟨rfl, .refl _⟩
    · simp only [OdtP.characters, hc, hk, if_false]
      cases OdtP.run p r with
      | error e => rfl
      | ok q => exact ⟨rfl, .refl _⟩
  | none =>
    by_cases hp : (p.paragraph || p.heading.isSome) = true
    · simp only [OdtP.characters, hc, hp, if_true]
      cases OdtP.run p r with
      | error e => rfl
      | ok q => exact ⟨rfl, .merge hs ht _⟩
    · simp only [OdtP.characters, hc, hp, Bool.false_eq_true, if_false]
      cases OdtP.run p r with
      | error e => rfl
      | ok q => exact ⟨rfl, .refl _⟩

/-- The pieces of the joined report. -/
theorem joined_head {Q : Str → Prop} (happ : ∀ s t, Q s → Q t → Q (s ++ t)) (r : List Ev) (h : SplitPieces Q true r) :
    ∀ t r', joined r = .chars t :: r' → Q t := by
  induction r with
  | nil => intro t r' e; cases e
  | cons e r ih =>
    intro t r' he
    cases e with
    | start a b => simp [joined] at he
    | stop a => simp [joined] at he
    | chars s =>
      simp only [SplitPieces] at h
      simp only [joined] at he
      split at he
      · rename_i t2 r2 hj
        cases he
        exact happ _ _ (h.1 (.inl trivial)) (ih h.2 _ _ hj)
      · cases he
        exact h.1 (.inl trivial)

theorem joined_startsWithChars (r : List Ev) (t : Str) (r' : List Ev) (h : joined r = .chars t :: r') : startsWithChars r = true := by
  cases r with
  | nil => cases h
  | cons e r => cases e <;> simp [joined] at h ⊢ <;> rfl

/-- The parser's calls for a report and for the joined report. -/
theorem run_joined {Q : Str → Prop} (happ : ∀ s t, Q s → Q t → Q (s ++ t)) (b : Bool) (a : List Ev) (h : SplitPieces Q b a) (p : OdtP) :
    SameRun Q (OdtP.run p a) (OdtP.run p (joined a)) := by
  induction a generalizing b p with
  | nil => exact .refl _
  | cons e r ih =>
    cases e with
    | start t as => exact SameRun.step (fun p' _ _ => ih false h p')
    | stop t => exact SameRun.step (fun p' _ _ => ih false h p')
    | chars s =>
      simp only [SplitPieces] at h
      have h1 : SameRun Q (OdtP.run p (.chars s :: r)) (OdtP.run p (.chars s :: joined r)) := SameRun.step (fun p' _ _ => ih true h.2 p')
      simp only [joined]
      split
      · rename_i t r' hj
        rw [hj] at h1
        exact h1.trans (run_merge (h.1 (.inr (joined_startsWithChars _ _ _ hj))) (joined_head happ _ h.2 _ _ hj) p r')
      · exact h1

/-! ### The readers -/

/-- Results of a reader that agree up to `E`. -/
def SameOutcome (E : Rd → Rd → Prop) : Except Exc Rd → Except Exc Rd → Prop
  | .error e, .error e' => e = e'
  | .ok a, .ok b => E a b
  | _, _ => False

/-- A reader for which it does not matter how data satisfying `Q` is divided, as long as the state and the remaining calls satisfy `K`; `E`
relates states that do not differ for the user. -/
structure Divisible (h : Reader) (Q : Str → Prop) (E : Rd → Rd → Prop) (K : Rd → List Call → Prop) : Prop where
  refl : ∀ r, E r r
  symm : ∀ {a b}, E a b → E b a
  trans : ∀ {a b c}, E a b → E b c → E a c
  app : ∀ s t, Q s → Q t → Q (s ++ t)
  kstep : ∀ {r r' c cs}, K r (c :: cs) → h r c = .ok r' → K r' cs
  kmerge : ∀ {r a b}, Rechunk Q a b → (K r a ↔ K r b)
  krel : ∀ {r r' cs}, E r r' → K r cs → K r' cs
  respects : ∀ {r r'} (c : Call) (cs : List Call), K r (c :: cs) → E r r' → SameOutcome E (h r c) (h r' c)
  merge : ∀ (r : Rd) (s t : Str) (cs : List Call), K r (.data s :: .data t :: cs) → Q s → Q t →
    SameOutcome E (h r (.data s) >>= fun r1 => h r1 (.data t)) (h r (.data (s ++ t)))

theorem outcome_ok {h : Reader} {E : Rd → Rd → Prop} {r : Rd} {s t : Str}
    (w : ∃ r1 r2 r3, h r (.data s) = .ok r1 ∧ h r1 (.data t) = .ok r2 ∧ h r (.data (s ++ t)) = .ok r3 ∧ E r2 r3) :
    SameOutcome E (h r (.data s) >>= fun r1 => h r1 (.data t)) (h r (.data (s ++ t))) := by
  obtain ⟨r1, r2, r3, h1, h2, h3, he⟩ := w
  simp only [Bind.bind, Except.bind, h1, h2, h3]
  exact he

section
variable {h : Reader} {Q : Str → Prop} {E : Rd → Rd → Prop} {K : Rd → List Call → Prop}

theorem Divisible.outcome_trans (d : Divisible h Q E K) {a b c : Except Exc Rd} (h1 : SameOutcome E a b) (h2 : SameOutcome E b c) :
    SameOutcome E a c := by
  cases a <;> cases b <;> cases c <;> simp only [SameOutcome] at h1 h2 ⊢
  · exact h1.trans h2
  · exact d.trans h1 h2

theorem Divisible.outcome_symm (d : Divisible h Q E K) {a b : Except Exc Rd} (h1 : SameOutcome E a b) : SameOutcome E b a := by
  cases a <;> cases b <;> simp only [SameOutcome] at h1 ⊢
  · exact h1.symm
  · exact d.symm h1

theorem Divisible.outcome_refl (d : Divisible h Q E K) (a : Except Exc Rd) : SameOutcome E a a := by
  cases a with
  | error e => rfl
  | ok r => exact d.refl r

theorem Divisible.run_respects (d : Divisible h Q E K) (cs : List Call) {r r' : Rd} (hk : K r cs) (he : E r r') :
    SameOutcome E (h.run r cs) (h.run r' cs) := by
  induction cs generalizing r r' with
  | nil => exact he
  | cons c cs ih =>
    have := d.respects c cs hk he
    simp only [Reader.run, Bind.bind, Except.bind]
    cases h1 : h r c <;> cases h2 : h r' c <;> rw [h1, h2] at this <;> simp only [SameOutcome] at this
    · exact this
    · exact ih (d.kstep hk h1) this

theorem Divisible.run (d : Divisible h Q E K) {a b : List Call} (hr : Rechunk Q a b) (r : Rd) (hk : K r a) :
    SameOutcome E (h.run r a) (h.run r b) := by
  induction hr generalizing r with
  | refl a => exact d.outcome_refl _
  | cons c _ ih =>
    simp only [Reader.run, Bind.bind, Except.bind]
    cases hc : h r c with
    | error e => rfl
    | ok r' => exact ih r' (d.kstep hk hc)
  | merge hs ht a =>
    rename_i s t
    have hm := d.merge r s t a hk hs ht
    simp only [Reader.run, Bind.bind, Except.bind] at hm ⊢
    cases e1 : h r (.data s) with
    | error e =>
      simp only [e1] at hm ⊢
      cases e3 : h r (.data (s ++ t)) with
      | error e' => rw [e3] at hm; exact hm
      | ok r3 => rw [e3] at hm; exact hm.elim
    | ok r1 =>
      simp only [e1] at hm ⊢
      cases e2 : h r1 (.data t) with
      | error e =>
        simp only [e2] at hm ⊢
        cases e3 : h r (.data (s ++ t)) with
        | error e' => rw [e3] at hm; exact hm
        | ok r3 => rw [e3] at hm; exact hm.elim
      | ok r2 =>
        simp only [e2] at hm ⊢
        cases e3 : h r (.data (s ++ t)) with
        | error e' => rw [e3] at hm; exact hm.elim
        | ok r3 => rw [e3] at hm; exact d.run_respects a (d.kstep (d.kstep hk e1) e2) hm
  | trans ha _ ih1 ih2 => exact d.outcome_trans (ih1 r hk) (ih2 r ((d.kmerge ha).1 hk))

/-- Reading a whole document: the final state of the reader. -/
def readState (h : Reader) (f : OdtFile) (n : Novel) : Except Exc Rd := do
  let cs ← feedFile f
  h.run { novel := n } cs

theorem readOdt_state (h : Reader) (f : OdtFile) (n : Novel) : readOdt h f n = (readState h f n).map Rd.novel := by
  simp only [readOdt, readState, Bind.bind, Except.bind]
  cases feedFile f with
  | error e => rfl
  | ok cs => simp only; cases h.run { novel := n } cs <;> rfl

theorem Divisible.read (d : Divisible h Q E K) {x y : List Ev} (hxy : SameDocument x y) (hx : SplitPieces Q false x)
    (hy : SplitPieces Q false y) (st : XNode) (info : Option XNode) (n : Novel)
    (hk : ∀ cs, feedFile ⟨st, info, x⟩ = .ok cs → K { novel := n } cs) :
    SameOutcome E (readState h ⟨st, info, x⟩ n) (readState h ⟨st, info, y⟩ n) := by
  have hz : SameRun Q (OdtP.run {} x) (OdtP.run {} (joined x)) := run_joined d.app false x hx {}
  have hw : SameRun Q (OdtP.run {} y) (OdtP.run {} (joined y)) := run_joined d.app false y hy {}
  rw [show joined x = joined y from hxy] at hz
  simp only [readState, feedFile, Bind.bind, Except.bind] at hk ⊢
  cases hst : stylesCalls st with
  | error e => rfl
  | ok a =>
    simp only [hst] at hk ⊢
    cases hin : infoCalls info with
    | error e => rfl
    | ok b =>
      simp only [hin] at hk ⊢
      cases e1 : OdtP.run {} x with
      | error e =>
        rw [e1] at hz
        cases e2 : OdtP.run {} (joined y) with
        | ok v => rw [e2] at hz; exact hz.elim
        | error e' =>
          rw [e2] at hz hw
          cases e3 : OdtP.run {} y with
          | ok v => rw [e3] at hw; exact hw.elim
          | error e'' =>
            rw [e3] at hw
            exact Eq.trans (show e = e' from hz) (Eq.symm (show e'' = e' from hw))
      | ok v =>
        rw [e1] at hz
        have hk' := hk (a ++ b ++ v.2) (by rw [e1])
        cases e2 : OdtP.run {} (joined y) with
        | error e' => rw [e2] at hz; exact hz.elim
        | ok w =>
          rw [e2] at hz hw
          cases e3 : OdtP.run {} y with
          | error e' => rw [e3] at hw; exact hw.elim
          | ok u =>
            rw [e3] at hw
            have h1 := d.run (hz.2.prepend (a ++ b)) { novel := n } hk'
            have hk2 := (d.kmerge (r := { novel := n }) (hz.2.prepend (a ++ b))).1 hk'
            have h2 := d.run (hw.2.prepend (a ++ b)) { novel := n } ((d.kmerge (hw.2.prepend (a ++ b))).2 hk2)
            exact d.outcome_trans h1 (d.outcome_symm h2)

end

end Verif
