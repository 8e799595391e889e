/-
What the save protocols do to the files, whatever fails.
-/
import Verif.Lemmas.Fs
import Verif.Model.Save

namespace Verif
open Prog

theorem bak_ne (p : Str) : bak p ≠ p := by
  intro h
  have := congrArg List.length h
  simp [bak] at this

/-- `Hoare` with a fixed initial state. -/
theorem Hoare.at {α : Type} {P : FS → Nat → Prop} {p : Prog α} {Q : Res α → FS → Nat → Prop}
    (h : ∀ fs0 k, P fs0 k → Hoare (fun fs n => fs = fs0 ∧ n = k) p Q) : Hoare P p Q :=
  fun fs fl hp => h fs _ hp fs fl ⟨rfl, rfl⟩

/-- The files after moving `p` to its backup. -/
def moved (fs : FS) (p : Str) : FS :=
  match fs p with
  | some c => (fs.upd p none).upd (bak p) (some c)
  | none => fs

theorem backUp_spec (p : Str) (fs0 : FS) (k : Nat) : Hoare (fun fs n => fs = fs0 ∧ n = k) (backUp p)
    (fun r fs n => n ≤ k ∧ match r with
      | .ok b => b = (fs0 p).isSome ∧ fs = moved fs0 p ∧ n = k
      | _ => fs = fs0 ∧ n + 1 ≤ k) := by
  unfold backUp
  refine Hoare.bind (Q := fun r fs n => fs = fs0 ∧ n = k ∧ r = .ok (fs0 p).isSome) (Hoare.isfile ?_) ?_ ?_ ?_
  · rintro fs n ⟨rfl, rfl⟩; exact ⟨rfl, rfl, rfl⟩
  · intro b
    refine Hoare.ite (fun hb => ?_) (fun hb => ?_)
    · subst hb
      refine Hoare.bind (Q := fun r fs n => n ≤ k ∧ (fs0 p).isSome = true ∧ match r with
        | .ok _ => fs = moved fs0 p ∧ n = k
        | _ => fs = fs0 ∧ n + 1 ≤ k) ?_ ?_ ?_ ?_
      · refine Hoare.tryExcept (Q := fun r fs n => n ≤ k ∧ (fs0 p).isSome = true ∧ match r with
          | .ok _ => fs = moved fs0 p ∧ n = k
          | _ => fs = fs0 ∧ n + 1 ≤ k) (Hoare.step ?_ ?_ ?_) ?_ ?_ ?_
        · rintro fs n ⟨rfl, rfl, h⟩ a fs' he
          injection h with h
          cases hc : fs p with
          | none => rw [hc] at he; cases he
          | some c =>
            rw [hc] at he
            injection he with he
            injection he with _ he
            refine ⟨Nat.le_refl _, rfl, ?_, rfl⟩
            unfold moved; rw [hc]; exact he.symm
        · rintro fs n ⟨rfl, rfl, h⟩ he
          injection h with h
          cases hc : fs p with
          | none => rw [hc] at h; cases h
          | some c => rw [hc] at he; cases he
        · rintro fs n ⟨rfl, hn, h⟩
          injection h with h
          exact ⟨⟨by omega, h.symm, rfl, by omega⟩, ⟨by omega, h.symm, rfl, by omega⟩⟩
        · intro e; exact Hoare.raise (fun fs n h => h)
        · exact fun a fs n h => h
        · exact fun fs n h => h
      · intro _
        refine Hoare.pure (fun fs n h => ⟨h.1, h.2.1.symm, h.2.2⟩)
      · exact fun e fs n h => ⟨h.1, h.2.2⟩
      · exact fun fs n h => ⟨h.1, h.2.2⟩
    · subst hb
      refine Hoare.pure ?_
      rintro fs n ⟨rfl, rfl, h⟩
      injection h with h
      refine ⟨Nat.le_refl _, h, ?_, rfl⟩
      unfold moved
      cases hc : fs p with
      | none => rfl
      | some c => rw [hc] at h; cases h
  · rintro e fs n ⟨_, _, h⟩; cases h
  · rintro fs n ⟨_, _, h⟩; cases h

/-- The files after moving the backup back. -/
def movedBack (fs : FS) (p : Str) : FS :=
  match fs (bak p) with
  | some c => (fs.upd (bak p) none).upd p (some c)
  | none => fs

theorem restoreBackup_spec (b : Bool) (p what : Str) (fs0 : FS) (k : Nat) (hb : b = true → (fs0 (bak p)).isSome) :
    Hoare (fun fs n => fs = fs0 ∧ n = k) (restoreBackup b p what)
    (fun r fs n => n ≤ k ∧ r ≠ .ok () ∧
      (fs = fs0 ∨ (b = true ∧ fs = movedBack fs0 p)) ∧
      (k = 0 → r = .err (fileError what p) ∧ (b = true → fs = movedBack fs0 p))) := by
  unfold restoreBackup
  cases b with
  | false =>
    rw [if_neg (by decide)]
    refine Hoare.raise ?_
    rintro fs n ⟨rfl, rfl⟩
    exact ⟨Nat.le_refl _, by simp, Or.inl rfl, fun _ => ⟨rfl, by simp⟩⟩
  | true =>
    rw [if_pos rfl]
    refine Hoare.bind (Q := fun r fs n => n ≤ k ∧ match r with
      | .ok _ => fs = movedBack fs0 p
      | _ => fs = fs0 ∧ n + 1 ≤ k) (Hoare.step ?_ ?_ ?_) ?_ ?_ ?_
    · rintro fs n ⟨rfl, rfl⟩ a fs' he
      refine ⟨Nat.le_refl _, ?_⟩
      unfold movedBack
      cases hc : fs (bak p) with
      | none => rw [hc] at he; cases he
      | some c => rw [hc] at he; injection he with he; injection he with _ he; exact he.symm
    · rintro fs n ⟨rfl, rfl⟩ he
      have := hb rfl
      cases hc : fs (bak p) with
      | none => rw [hc] at this; cases this
      | some c => rw [hc] at he; cases he
    · rintro fs n ⟨rfl, hn⟩
      exact ⟨⟨by omega, rfl, by omega⟩, ⟨by omega, rfl, by omega⟩⟩
    · intro _
      refine Hoare.raise ?_
      rintro fs n ⟨h1, h2⟩
      exact ⟨h1, by simp, Or.inr ⟨rfl, h2⟩, fun _ => ⟨rfl, fun _ => h2⟩⟩
    · rintro e fs n ⟨h1, h2, h3⟩
      exact ⟨h1, by simp, Or.inl h2, fun h => by omega⟩
    · rintro fs n ⟨h1, h2, h3⟩
      exact ⟨h1, by simp, Or.inl h2, fun h => by omega⟩

theorem writeFile_spec (p data : Str) (fs0 : FS) (k : Nat) : Hoare (fun fs n => fs = fs0 ∧ n = k) (writeFile p data)
    (fun r fs n => n ≤ k ∧ (∀ q, q ≠ p → fs q = fs0 q) ∧ (fs p = none → fs = fs0) ∧ match r with
      | .ok _ => fs p = some data
      | _ => n + 1 ≤ k) := by
  unfold writeFile
  refine Hoare.bind (Q := fun r fs n => n ≤ k ∧ (∀ q, q ≠ p → fs q = fs0 q) ∧ match r with
      | .ok _ => fs p = some []
      | _ => fs = fs0 ∧ n + 1 ≤ k) (Hoare.step ?_ ?_ ?_) ?_ ?_ ?_
  · rintro fs n ⟨rfl, rfl⟩ a fs' he
    injection he with he; injection he with _ he; subst he
    exact ⟨Nat.le_refl _, fun q hq => FS.upd_ne _ _ hq, FS.upd_self _ _ _⟩
  · rintro fs n ⟨rfl, rfl⟩ he; cases he
  · rintro fs n ⟨rfl, hn⟩
    exact ⟨⟨by omega, fun _ _ => rfl, rfl, by omega⟩, ⟨by omega, fun _ _ => rfl, rfl, by omega⟩⟩
  · intro _
    refine Hoare.append ?_ ?_
    · rintro fs n ⟨h1, h2, h3⟩
      refine ⟨h1, fun q hq => (FS.upd_ne _ _ hq).trans (h2 q hq), ?_, ?_⟩
      · intro h; rw [FS.upd_self] at h; cases h
      · simp only [h3, FS.upd_self]; rfl
    · rintro fs n j ⟨h1, h2, h3⟩
      have hx : (∀ q, q ≠ p → fs.upd p (some ((fs p).getD [] ++ data.take j)) q = fs0 q) :=
        fun q hq => (FS.upd_ne _ _ hq).trans (h2 q hq)
      have hy : fs.upd p (some ((fs p).getD [] ++ data.take j)) p = none → fs.upd p (some ((fs p).getD [] ++ data.take j)) = fs0 := by
        intro h; rw [FS.upd_self] at h; cases h
      exact ⟨⟨by omega, hx, hy, by omega⟩, ⟨by omega, hx, hy, by omega⟩⟩
  · rintro e fs n ⟨h1, h2, h3, h4⟩; exact ⟨h1, h2, fun _ => h3, h4⟩
  · rintro fs n ⟨h1, h2, h3, h4⟩; exact ⟨h1, h2, fun _ => h3, h4⟩

/-- The result of a guarded write: `T` are the paths of temporary files, `fs0` the files before, `ok` what
is in the file if the write succeeds; `k` is the number of faults. -/
structure Guarded (T : Str → Prop) (p : Str) (fs0 : FS) (k : Nat) (new : Str → Prop) (r : Res Unit) (fs : FS) : Prop where
  frame : ∀ q, ¬ T q → q ≠ p → q ≠ bak p → fs q = fs0 q
  intact : ∀ c, fs0 p = some c → fs p = some c ∨ fs (bak p) = some c
  kept : ∀ e c, r = .err e → k ≤ 1 → fs0 p = some c → fs p = some c
  keptBak : ∀ e, r = .err e → k ≤ 1 → fs0 p = none → fs (bak p) = fs0 (bak p)
  done : r = .ok () → ∃ t, new t ∧ fs p = some t ∧ ∀ c, fs0 p = some c → fs (bak p) = some c
  fresh : fs0 p = none → fs (bak p) = fs0 (bak p)

/-- The common scheme of the writers: back up, write, on failure restoreBackup. -/
theorem guarded (T : Str → Prop) (p what : Str) (fs0 : FS) (k : Nat) (new : Str → Prop) (hp : ¬ T p) (hb : ¬ T (bak p))
    (body : Prog Unit) (handler : Bool → Exc → Prog Unit) (P : FS → Prop) (hP : ∀ fs, P fs → P (moved fs p))
    (hbody : ∀ fs1 m, P fs1 → Hoare (fun fs n => fs = fs1 ∧ n = m) body (fun r fs n => n ≤ m ∧
      (∀ q, q ≠ p → fs q = fs1 q) ∧ match r with
        | .ok _ => ∃ t, new t ∧ fs p = some t
        | _ => n + 1 ≤ m))
    (hh : ∀ b e fs1 m, (b = true → (fs1 (bak p)).isSome) → Hoare (fun fs n => fs = fs1 ∧ n = m) (handler b e)
      (fun r fs n => n ≤ m ∧ r ≠ .ok () ∧ (fs = fs1 ∨ (b = true ∧ fs = movedBack fs1 p)) ∧
        (m = 0 → r = .err (fileError what p) ∧ (b = true → fs = movedBack fs1 p)))) :
    Hoare (fun fs n => (∀ q, ¬ T q → fs q = fs0 q) ∧ P fs ∧ n ≤ k)
      (do let backedUp ← backUp p
          tryExcept body (handler backedUp))
      (fun r fs n => n ≤ k ∧ Guarded T p fs0 k new r fs) := by
  refine Hoare.at ?_
  rintro fs1 m ⟨hf, hPf, hmk⟩
  have hmv : ∀ q, q ≠ p → q ≠ bak p → moved fs1 p q = fs1 q := by
    intro q h1 h2
    unfold moved
    cases hc : fs1 p with
    | some c => exact (FS.upd_ne _ _ h2).trans (FS.upd_ne _ _ h1)
    | none => rfl
  have hmb : ∀ c, fs1 p = some c → moved fs1 p (bak p) = some c := by
    intro c hc
    unfold moved; rw [hc]; exact FS.upd_self _ _ _
  have hmn : fs1 p = none → moved fs1 p = fs1 := by
    intro hc; unfold moved; rw [hc]
  refine Hoare.bind (Q := fun r fs n => n ≤ m ∧ match r with
      | .ok b => b = (fs1 p).isSome ∧ fs = moved fs1 p ∧ n = m
      | _ => fs = fs1 ∧ n + 1 ≤ m) (backUp_spec p fs1 m) ?_ ?_ ?_
  · intro b
    refine Hoare.at ?_
    rintro fs2 m2 ⟨_, rfl, rfl, rfl⟩
    refine Hoare.tryExcept (hbody _ m2 (hP _ hPf)) ?_ ?_ ?_
    · intro e
      refine Hoare.at ?_
      rintro fs3 m3 ⟨hm3, hfr, hlt⟩
      have hbk : fs3 (bak p) = moved fs1 p (bak p) := hfr _ (bak_ne p)
      refine Hoare.mono (hh _ e fs3 m3 ?_) (fun _ _ h => h) ?_
      · intro hs
        rw [hbk]
        cases hc : fs1 p with
        | none => rw [hc] at hs; cases hs
        | some c => rw [hmb c hc]; rfl
      · rintro r fs n ⟨hn, hr, hfs, h0⟩
        have hback : ∀ c, fs1 p = some c → ((fs = fs3 ∧ fs (bak p) = some c) ∨ (fs = movedBack fs3 p ∧ fs p = some c)) := by
          intro c hc
          have hbc : fs3 (bak p) = some c := hbk.trans (hmb c hc)
          rcases hfs with h | ⟨_, h⟩
          · exact Or.inl ⟨h, by rw [h]; exact hbc⟩
          · refine Or.inr ⟨h, ?_⟩
            rw [h]; unfold movedBack; rw [hbc]; exact FS.upd_self _ _ _
        refine ⟨by omega, ?_, ?_, ?_, ?_, ?_, ?_⟩
        · intro q ht h1 h2
          have e3 : fs3 q = fs0 q := by rw [hfr q h1, hmv q h1 h2, hf q ht]
          rcases hfs with h | ⟨_, h⟩
          · rw [h, e3]
          · rw [h]; unfold movedBack
            cases hc : fs3 (bak p) with
            | some c => exact ((FS.upd_ne _ _ h1).trans (FS.upd_ne _ _ h2)).trans e3
            | none => exact e3
        · intro c hc
          rw [← hf p hp] at hc
          rcases hback c hc with ⟨_, h⟩ | ⟨_, h⟩
          · exact Or.inr h
          · exact Or.inl h
        · intro e' c _ hk hc
          rw [← hf p hp] at hc
          have hm0 : m3 = 0 := by omega
          have := (h0 hm0).2 (by rw [hc]; rfl)
          rcases hback c hc with ⟨h, _⟩ | ⟨_, h⟩
          · rw [this]
            unfold movedBack
            rw [hbk, hmb c hc]
            exact FS.upd_self _ _ _
          · exact h
        · intro e' _ hk hc
          rw [← hf p hp] at hc
          rcases hfs with h | ⟨h, _⟩
          · rw [h, hbk, hmn hc, hf _ hb]
          · rw [hc] at h; cases h
        · intro h; exact absurd h hr
        · intro hc
          rw [← hf p hp] at hc
          rcases hfs with h | ⟨h, _⟩
          · rw [h, hbk, hmn hc, hf _ hb]
          · rw [hc] at h; cases h
    · rintro a fs n ⟨hn, hfr, t, ht, hpt⟩
      have hbk : fs (bak p) = moved fs1 p (bak p) := hfr _ (bak_ne p)
      have hb2 : ∀ c, fs0 p = some c → fs (bak p) = some c := by
        intro c hc
        rw [← hf p hp] at hc
        rw [hbk, hmb c hc]
      refine ⟨by omega, ?_, fun c hc => Or.inr (hb2 c hc), (by intro e c h; cases h), (by intro e h; cases h), fun _ => ⟨t, ht, hpt, hb2⟩, ?_⟩
      · intro q h0 h1 h2
        rw [hfr q h1, hmv q h1 h2, hf q h0]
      · intro hc
        rw [← hf p hp] at hc
        rw [hbk, hmn hc, hf _ hb]
    · rintro fs n ⟨hn, hfr, hlt⟩
      have hbk : fs (bak p) = moved fs1 p (bak p) := hfr _ (bak_ne p)
      refine ⟨by omega, ?_, fun c hc => Or.inr ?_, (by intro e c h; cases h), (by intro e h; cases h), (by intro h; cases h), ?_⟩
      · intro q h0 h1 h2
        rw [hfr q h1, hmv q h1 h2, hf q h0]
      · rw [← hf p hp] at hc
        rw [hbk, hmb c hc]
      · intro hc
        rw [← hf p hp] at hc
        rw [hbk, hmn hc, hf _ hb]
  · rintro e fs n ⟨h1, rfl, h2⟩
    exact ⟨by omega, fun q ht _ _ => hf q ht, fun c hc => Or.inl (by rw [hf p hp, hc]),
      fun _ c _ _ hc => by rw [hf p hp, hc], fun _ _ _ _ => hf _ hb, (by intro h; cases h), fun _ => hf _ hb⟩
  · rintro fs n ⟨h1, rfl, h2⟩
    exact ⟨by omega, fun q ht _ _ => hf q ht, fun c hc => Or.inl (by rw [hf p hp, hc]),
      fun _ c _ _ hc => by rw [hf p hp, hc], fun _ _ _ _ => hf _ hb, (by intro h; cases h), fun _ => hf _ hb⟩

end Verif
