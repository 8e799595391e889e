/-
The data files: what writing them does to the files.
-/
import Verif.Model.Samples
import Verif.Spec.Samples
import Verif.Lemmas.Disk5
import Verif.Lemmas.Convert3
import Verif.Props.C51_Writable

namespace Verif
open Xml Elem Spec Prog

theorem writeDataFile_spec (p : Str) (e : Elem) (fs0 : FS) (k : Nat) :
    Hoare (fun fs n => fs = fs0 ∧ n ≤ k) (writeDataFile p e)
      (fun r fs n => n ≤ k ∧ (∀ q, q ≠ p → fs q = fs0 q) ∧ (r = .ok () → fs p = some (etWrite e))) := by
  unfold writeDataFile
  refine Hoare.at ?_
  rintro fs1 m ⟨rfl, hm⟩
  refine Hoare.tryExcept (writeFile_spec p _ fs1 m) ?_ ?_ ?_
  · intro e
    refine Hoare.raise ?_
    rintro fs n ⟨h1, h, _⟩
    exact ⟨by omega, h, by intro h; cases h⟩
  · rintro a fs n ⟨h1, h, _, h3⟩
    exact ⟨by omega, h, fun _ => h3⟩
  · rintro fs n ⟨h1, h, _⟩
    exact ⟨by omega, h, by intro h; cases h⟩

theorem Hoare.andThen {α : Type} {P : FS → Nat → Prop} {p : Prog Unit} {r : Prog α} {Q : Res Unit → FS → Nat → Prop} {R : Res α → FS → Nat → Prop}
    (h1 : Hoare P p Q) (h2 : ∀ fs n, Q (.ok ()) fs n → Hoare (fun f m => f = fs ∧ m ≤ n) r R) (h3 : ∀ e fs n, Q (.err e) fs n → R (.err e) fs n)
    (h4 : ∀ fs n, Q .crashed fs n → R .crashed fs n) : Hoare P (p >>= fun _ => r) R :=
  Hoare.bind h1 (fun _ => Hoare.at (fun fs n h => Hoare.mono (h2 fs n h) (fun _ _ h => ⟨h.1, Nat.le_of_eq h.2⟩) (fun _ _ _ h => h))) h3 h4

/-- The files outside `L` are as before. -/
def Outer (L : List Str) (fs0 fs : FS) : Prop := ∀ q, q ∉ L → fs q = fs0 q

theorem Outer.step {L : List Str} {fs0 fs1 fs2 : FS} {p : Str} (h : Outer L fs0 fs1) (hp : p ∈ L) (h2 : ∀ q, q ≠ p → fs2 q = fs1 q) : Outer L fs0 fs2 := by
  intro q hq
  rw [h2 q (fun e => hq (e ▸ hp)), h q hq]

/-- One of the three files is written. -/
theorem write_then {L : List Str} {fs0 fs1 : FS} {k : Nat} {p : Str} {e : Elem} {rest : Prog Unit} {G : FS → Prop} (h : Outer L fs0 fs1) (hp : p ∈ L)
    (hr : ∀ fs2, (∀ q, q ≠ p → fs2 q = fs1 q) → fs2 p = some (etWrite e) → Outer L fs0 fs2 → ∀ k,
      Hoare (fun fs n => fs = fs2 ∧ n ≤ k) rest (fun r fs _ => Outer L fs0 fs ∧ (r = .ok () → G fs))) :
    Hoare (fun fs n => fs = fs1 ∧ n ≤ k) (do writeDataFile p e; rest) (fun r fs _ => Outer L fs0 fs ∧ (r = .ok () → G fs)) := by
  refine Hoare.andThen (writeDataFile_spec p e fs1 k) ?_ ?_ ?_
  · rintro fs n ⟨_, h1, h2⟩
    exact hr fs h1 (h2 rfl) (h.step hp h1) n
  · rintro x fs n ⟨_, h1, _⟩
    exact ⟨h.step hp h1, by intro h; cases h⟩
  · rintro fs n ⟨_, h1, _⟩
    exact ⟨h.step hp h1, by intro h; cases h⟩

/-- One of the three files is postprocessed. -/
theorem process_then {L : List Str} {fs0 fs1 : FS} {k : Nat} {p : Str} {hc : Bool} {e : Elem} {rest : Prog Unit} {G : FS → Prop} (h : Outer L fs0 fs1) (hp : p ∈ L) (he : fs1 p = some (etWrite e))
    (hr : ∀ fs2, (∀ q, q ≠ p → fs2 q = fs1 q) → fs2 p = some (fileText hc e) → Outer L fs0 fs2 → ∀ k,
      Hoare (fun fs n => fs = fs2 ∧ n ≤ k) rest (fun r fs _ => Outer L fs0 fs ∧ (r = .ok () → G fs))) :
    Hoare (fun fs n => fs = fs1 ∧ n ≤ k) (do postprocessFile p hc; rest) (fun r fs _ => Outer L fs0 fs ∧ (r = .ok () → G fs)) := by
  refine Hoare.andThen (postprocessFile_spec p hc fs1 k) ?_ ?_ ?_
  · rintro fs n ⟨h1, h2⟩
    obtain ⟨t, h3, h4⟩ := h2 rfl
    rw [he] at h3
    cases h3
    exact hr fs h1 h4 (h.step hp h1) n
  · rintro x fs n ⟨h1, _⟩
    exact ⟨h.step hp h1, by intro h; cases h⟩
  · rintro fs n ⟨h1, _⟩
    exact ⟨h.step hp h1, by intro h; cases h⟩

theorem bind_unit (p : Prog Unit) : (p >>= fun _ => Pure.pure ()) = p := by
  funext fs fl
  show Prog.bind p _ fs fl = _
  unfold Prog.bind
  generalize p fs fl = x
  obtain ⟨r, f, l⟩ := x
  cases r <;> rfl

/-- The paths of the three files. -/
def threePaths (base : Str) : List Str := [base ++ c!"_Characters.xml", base ++ c!"_Locations.xml", base ++ c!"_Items.xml"]

/-- What `DataFiles.write` does to the files. -/
theorem dataFilesWrite_spec (p base : Str) (trees : Except Exc (Elem × Elem × Elem)) (hc : Bool) (fs0 : FS) (k : Nat) :
    Hoare (fun fs n => fs = fs0 ∧ n ≤ k) (dataFilesWrite p base trees hc)
      (fun r fs _ => Outer (threePaths base) fs0 fs ∧ (r = .ok () → ∃ t, trees = .ok t ∧ fs (base ++ c!"_Characters.xml") = some (fileText hc t.1) ∧
        fs (base ++ c!"_Locations.xml") = some (fileText hc t.2.1) ∧ fs (base ++ c!"_Items.xml") = some (fileText hc t.2.2))) := by
  have hcl : base ++ c!"_Characters.xml" ≠ base ++ c!"_Locations.xml" := fun h => by have := List.append_cancel_left h; revert this; decide
  have hci : base ++ c!"_Characters.xml" ≠ base ++ c!"_Items.xml" := fun h => by have := List.append_cancel_left h; revert this; decide
  have hli : base ++ c!"_Locations.xml" ≠ base ++ c!"_Items.xml" := fun h => by have := List.append_cancel_left h; revert this; decide
  have e0 : Outer (threePaths base) fs0 fs0 := fun _ _ => rfl
  unfold dataFilesWrite
  refine Hoare.bind (Q := fun _ fs n => fs = fs0 ∧ n ≤ k) (Hoare.isfile (fun fs n h => h)) ?_ ?_ ?_
  · intro b
    cases b with
    | true =>
      refine Hoare.bind (Q := fun r fs n => fs = fs0 ∧ r ≠ .ok ()) (Hoare.raise ?_) ?_ ?_ ?_
      · rintro fs n ⟨rfl, _⟩; exact ⟨rfl, by intro h; cases h⟩
      · rintro _ fs fl ⟨_, h⟩; exact absurd rfl h
      · rintro e fs n ⟨rfl, _⟩; exact ⟨e0, by intro h; cases h⟩
      · rintro fs n ⟨rfl, _⟩; exact ⟨e0, by intro h; cases h⟩
    | false =>
      refine Hoare.bind (Q := fun r fs n => fs = fs0 ∧ n ≤ k ∧ ∀ t, r = .ok t → trees = .ok t) (Hoare.lift ?_ ?_) ?_ ?_ ?_
      · rintro t ht fs n ⟨rfl, hn⟩; exact ⟨rfl, hn, fun t' h => by injection h with h; rw [ht, h]⟩
      · rintro t ht fs n ⟨rfl, hn⟩; exact ⟨rfl, hn, fun t' h => by cases h⟩
      · intro t
        refine Hoare.at ?_
        rintro fs m ⟨rfl, _, ht⟩
        have ht := ht t rfl
        refine Hoare.mono ?_ (fun f n h => (⟨h.1, Nat.le_of_eq h.2⟩ : f = fs ∧ n ≤ m)) (fun _ _ _ h => h)
        refine write_then e0 (by simp [threePaths]) ?_
        intro f1 u1 v1 o1 _
        refine write_then o1 (by simp [threePaths]) ?_
        intro f2 u2 v2 o2 _
        refine write_then o2 (by simp [threePaths]) ?_
        intro f3 u3 v3 o3 _
        have a3 : f3 (base ++ c!"_Characters.xml") = some (etWrite t.1) := by rw [u3 _ hci, u2 _ hcl, v1]
        have b3 : f3 (base ++ c!"_Locations.xml") = some (etWrite t.2.1) := by rw [u3 _ hli, v2]
        refine process_then o3 (by simp [threePaths]) a3 ?_
        intro f4 u4 v4 o4 _
        refine process_then o4 (by simp [threePaths]) (by rw [u4 _ hcl.symm, b3]) ?_
        intro f5 u5 v5 o5 _
        rw [← bind_unit (postprocessFile _ _)]
        refine process_then o5 (by simp [threePaths]) (by rw [u5 _ hli.symm, u4 _ hci.symm, v3]) ?_
        intro f6 u6 v6 o6 _
        refine Hoare.pure ?_
        rintro fs n ⟨rfl, _⟩
        refine ⟨o6, fun _ => ⟨t, ht, ?_, ?_, v6⟩⟩
        · rw [u6 _ hci, u5 _ hcl, v4]
        · rw [u6 _ hli, v5]
      · rintro e fs n ⟨rfl, _⟩; exact ⟨e0, by intro h; cases h⟩
      · rintro fs n ⟨rfl, _⟩; exact ⟨e0, by intro h; cases h⟩
  · rintro e fs n ⟨rfl, _⟩; exact ⟨e0, by intro h; cases h⟩
  · rintro fs n ⟨rfl, _⟩; exact ⟨e0, by intro h; cases h⟩

end Verif
