import Verif.Lemmas.Save
import Verif.Spec.Save

namespace Verif
open Prog

theorem faultCount_eq (fl : List Fault) : faultCount fl = (fl.filter (fun f => f ≠ .none)).length := by
  induction fl with
  | nil => rfl
  | cons f r ih =>
    cases f with
    | none => simpa [faultCount] using ih
    | fail k => simpa [faultCount] using ih
    | crash k => simpa [faultCount] using ih

/-- No temporary files. -/
def noTemp : Str → Prop := fun _ => False

theorem Guarded.same {T : Str → Prop} {p : Str} {fs0 fs : FS} {k : Nat} {new : Str → Prop} {r : Res Unit} (hp : ¬ T p)
    (hb : ¬ T (bak p)) (h : ∀ q, ¬ T q → fs q = fs0 q) (hr : r ≠ .ok ()) : Guarded T p fs0 k new r fs :=
  ⟨fun q hq _ _ => h q hq, fun c hc => Or.inl (by rw [h p hp, hc]), fun _ c _ _ hc => by rw [h p hp, hc],
    fun _ _ _ _ => h _ hb, fun h => absurd h hr, fun _ => h _ hb⟩

theorem exportWrite_spec (T : Str → Prop) (p : Str) (text : Except Exc Str) (fs0 : FS) (k : Nat) (hp : ¬ T p) (hb : ¬ T (bak p)) :
    Hoare (fun fs n => (∀ q, ¬ T q → fs q = fs0 q) ∧ n ≤ k) (exportWrite p text)
      (fun r fs n => n ≤ k ∧ Guarded T p fs0 k (fun t => text = .ok t) r fs) := by
  cases text with
  | error e => exact fun fs fl h => ⟨h.2, Guarded.same hp hb h.1 (by intro h; cases h)⟩
  | ok t =>
    show Hoare _ (do let b ← backUp p; tryExcept (writeFile p t) fun _ => restoreBackup b p c!"Cannot write file") _
    refine Hoare.mono (guarded T p c!"Cannot write file" fs0 k (fun u => Except.ok t = (Except.ok u : Except Exc Str)) hp hb (writeFile p t)
      _ (fun _ => True) (fun _ _ => trivial) ?_ ?_) (fun fs n h => ⟨h.1, trivial, h.2⟩) (fun _ _ _ h => h)
    · intro fs1 m _
      refine Hoare.mono (writeFile_spec p t fs1 m) (fun _ _ h => h) ?_
      rintro r fs n ⟨h1, h2, _, h3⟩
      refine ⟨h1, h2, ?_⟩
      cases r with
      | ok a => exact ⟨t, rfl, h3⟩
      | err e => exact h3
      | crashed => exact h3
    · intro b e fs1 m hbm
      exact restoreBackup_spec b p _ fs1 m hbm

theorem writeElementTree_spec (p : Str) (root : Elem) (fs0 : FS) (k : Nat) :
    Hoare (fun fs n => fs = fs0 ∧ n ≤ k) (writeElementTree p root)
      (fun r fs n => n ≤ k ∧ Guarded noTemp p fs0 k (fun t => t = etWrite root) r fs) := by
  refine Hoare.mono (guarded noTemp p c!"Cannot write file" fs0 k (fun u => u = etWrite root) id id (writeFile p (etWrite root))
      _ (fun _ => True) (fun _ _ => trivial) ?_ ?_) (fun fs n h => ⟨fun q _ => by rw [h.1], trivial, h.2⟩) (fun _ _ _ h => h)
  · intro fs1 m _
    refine Hoare.mono (writeFile_spec p _ fs1 m) (fun _ _ h => h) ?_
    rintro r fs n ⟨h1, h2, _, h3⟩
    refine ⟨h1, h2, ?_⟩
    cases r with
    | ok a => exact ⟨_, rfl, h3⟩
    | err e => exact h3
    | crashed => exact h3
  · intro b e fs1 m hbm
    exact restoreBackup_spec b p _ fs1 m hbm

theorem postprocessFile_spec (p : Str) (hc : Bool) (fs0 : FS) (k : Nat) :
    Hoare (fun fs n => fs = fs0 ∧ n ≤ k) (postprocessFile p hc)
      (fun r fs _ => (∀ q, q ≠ p → fs q = fs0 q) ∧ (r = .ok () → ∃ t, fs0 p = some t ∧ fs p = some (postprocess hc (universalNewlines t)))) := by
  unfold postprocessFile
  refine Hoare.bind (Q := fun r fs n => fs = fs0 ∧ n ≤ k ∧ ∀ t, r = .ok t → fs0 p = some t) (Hoare.step ?_ ?_ ?_) ?_ ?_ ?_
  · rintro fs n ⟨rfl, hn⟩ a fs' he
    cases hx : fs p with
    | none => rw [hx] at he; cases he
    | some t =>
      rw [hx] at he; injection he with he; injection he with h1 h2
      exact ⟨h2.symm, hn, fun t' ht => by injection ht with ht; rw [← ht, ← h1]⟩
  · rintro fs n ⟨rfl, hn⟩ he; exact ⟨rfl, hn, fun t' ht => by cases ht⟩
  · rintro fs n ⟨rfl, hn⟩; exact ⟨⟨rfl, by omega, fun t' ht => by cases ht⟩, ⟨rfl, by omega, fun t' ht => by cases ht⟩⟩
  · intro t
    refine Hoare.at ?_
    rintro fs1 m ⟨rfl, hn, ht⟩
    have ht := ht t rfl
    refine Hoare.tryExcept (writeFile_spec p _ fs1 m) ?_ ?_ ?_
    · intro e
      refine Hoare.raise ?_
      rintro fs n ⟨_, h, _⟩
      exact ⟨h, by intro h; cases h⟩
    · rintro a fs n ⟨_, h, _, h3⟩
      exact ⟨h, fun _ => ⟨t, ht, h3⟩⟩
    · rintro fs n ⟨_, h, _⟩
      exact ⟨h, by intro h; cases h⟩
  · rintro e fs n ⟨rfl, _, _⟩; exact ⟨fun _ _ => rfl, by intro h; cases h⟩
  · rintro fs n ⟨rfl, _, _⟩; exact ⟨fun _ _ => rfl, by intro h; cases h⟩

/-- What `Yw7File.write` does to the files. -/
theorem yw7Write_spec (p : Str) (tree : Except Exc Elem) (hc : Bool) (fs0 : FS) (k : Nat) :
    Hoare (fun fs n => fs = fs0 ∧ n ≤ k) (yw7Write p tree hc)
      (fun r fs _ => (∀ q, q ≠ p → q ≠ bak p → fs q = fs0 q) ∧ (∀ c, fs0 p = some c → fs p = some c ∨ fs (bak p) = some c) ∧
        (fs0 p = none → fs (bak p) = fs0 (bak p)) ∧
        (r = .ok () → fs0 (p ++ c!".lock") = none ∧ ∃ root, tree = .ok root ∧ fs p = some (fileText hc root) ∧ ∀ c, fs0 p = some c → fs (bak p) = some c) ∧
        (fs0 (p ++ c!".lock") ≠ none → fs = fs0 ∧ r = .err lockedError)) := by
  intro fs fl ⟨h1, h2⟩
  subst h1
  unfold yw7Write
  by_cases hl : fs (p ++ c!".lock") = none
  · cases tree with
    | error e =>
      have : (do
          if ← isLocked p then raise lockedError
          let root ← lift (.error e)
          writeElementTree p root
          postprocessFile p hc : Prog Unit) fs fl = (.err e, fs, fl) := by
        show Prog.bind _ _ _ _ = _
        unfold Prog.bind isLocked isfile
        rw [hl]; rfl
      rw [this]
      exact ⟨fun _ _ _ => rfl, fun c hc => Or.inl hc, fun _ => rfl, (by intro h; cases h), fun h => absurd hl h⟩
    | ok root =>
      have : (do
          if ← isLocked p then raise lockedError
          let root ← lift (.ok root)
          writeElementTree p root
          postprocessFile p hc : Prog Unit) fs fl = (do
          writeElementTree p root
          postprocessFile p hc : Prog Unit) fs fl := by
        show Prog.bind _ _ _ _ = _
        unfold Prog.bind isLocked isfile
        rw [hl]; rfl
      rw [this]
      refine Hoare.bind (P := fun f n => f = fs ∧ n ≤ k) (R := fun r f _ => (∀ q, q ≠ p → q ≠ bak p → f q = fs q) ∧
        (∀ c, fs p = some c → f p = some c ∨ f (bak p) = some c) ∧ (fs p = none → f (bak p) = fs (bak p)) ∧
        (r = .ok () → fs (p ++ c!".lock") = none ∧ ∃ root', Except.ok root = (Except.ok root' : Except Exc Elem) ∧ f p = some (fileText hc root') ∧ ∀ c, fs p = some c → f (bak p) = some c) ∧
        (fs (p ++ c!".lock") ≠ none → f = fs ∧ r = .err lockedError)) (writeElementTree_spec p root fs k) ?_ ?_ ?_ fs fl ⟨rfl, h2⟩
      · intro _
        refine Hoare.at ?_
        rintro fs1 m ⟨hm, hg⟩
        refine Hoare.mono (postprocessFile_spec p hc fs1 m) (fun f n h => ⟨h.1, Nat.le_of_eq h.2⟩) ?_
        rintro r f n ⟨ha, hb⟩
        obtain ⟨t, ht, hpt, hbk⟩ := hg.done rfl
        have hbk' : ∀ c, fs p = some c → f (bak p) = some c := fun c hc => by rw [ha _ (bak_ne p)]; exact hbk c hc
        refine ⟨fun q h3 h4 => ?_, fun c hc => Or.inr (hbk' c hc), ?_, ?_, fun h => absurd hl h⟩
        · rw [ha q h3]; exact hg.frame q id h3 h4
        · intro h; rw [ha _ (bak_ne p)]; exact hg.fresh h
        · intro h
          obtain ⟨t', ht', hpt'⟩ := hb h
          rw [hpt] at ht'
          injection ht' with ht'
          subst ht'; subst ht
          exact ⟨hl, root, rfl, hpt', hbk'⟩
      · rintro e f n ⟨hm, hg⟩
        exact ⟨fun q => hg.frame q id, hg.intact, hg.fresh, (by intro h; cases h), fun h => absurd hl h⟩
      · rintro f n ⟨hm, hg⟩
        exact ⟨fun q => hg.frame q id, hg.intact, hg.fresh, (by intro h; cases h), fun h => absurd hl h⟩
  · have : (do
          if ← isLocked p then raise lockedError
          let root ← lift tree
          writeElementTree p root
          postprocessFile p hc : Prog Unit) fs fl = (.err lockedError, fs, fl) := by
        show Prog.bind _ _ _ _ = _
        unfold Prog.bind isLocked isfile
        cases hx : fs (p ++ c!".lock") with
        | none => exact absurd hx hl
        | some x => rfl
    rw [this]
    exact ⟨fun _ _ _ => rfl, fun c hc => Or.inl hc, fun _ => rfl, (by intro h; cases h), fun _ => ⟨rfl, rfl⟩⟩

end Verif
