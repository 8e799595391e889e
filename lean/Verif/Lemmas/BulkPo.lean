/-
Programs that keep something: a small logic for the scripts of C77.
-/
import Verif.Spec.BulkPo
import Verif.Props.C58_Translations

namespace Verif
open Spec Prog

/-- Wherever the program starts with `I`, it ends with `J`: whatever fails and whenever the process ends. -/
def Post {α : Type} (I : FS → Prop) (p : Prog α) (J : FS → Prop) : Prop := ∀ fs fl, I fs → J (p fs fl).2.1

namespace Post
variable {α β : Type} {I J K : FS → Prop}

theorem bind {p : Prog α} {f : α → Prog β} (h1 : Post I p K) (h2 : ∀ a, Post K (f a) J) (h3 : ∀ fs, K fs → J fs) : Post I (p >>= f) J := by
  intro fs fl h
  show J ((Prog.bind p f) fs fl).2.1
  unfold Prog.bind
  have hp := h1 fs fl h
  rcases he : p fs fl with ⟨r, fs', fl'⟩
  rw [he] at hp
  cases r with
  | ok a => exact h2 a fs' fl' hp
  | err e => exact h3 _ hp
  | crashed => exact h3 _ hp

theorem tryExcept {p : Prog α} {f : Exc → Prog α} (h1 : Post I p K) (h2 : ∀ e, Post K (f e) J) (h3 : ∀ fs, K fs → J fs) : Post I (Prog.tryExcept p f) J := by
  intro fs fl h
  unfold Prog.tryExcept
  have hp := h1 fs fl h
  rcases he : p fs fl with ⟨r, fs', fl'⟩
  rw [he] at hp
  cases r with
  | ok a => exact h3 _ hp
  | err e => exact h2 e fs' fl' hp
  | crashed => exact h3 _ hp

theorem pure (a : α) : Post I (Pure.pure a : Prog α) I := fun _ _ h => h
theorem raise (e : Exc) : Post I (Prog.raise e : Prog α) I := fun _ _ h => h
theorem isfile (p : Str) : Post I (Prog.isfile p) I := fun _ _ h => h

theorem readFile (p : Str) : Post I (Prog.readFile p) I := by
  intro fs fl h
  unfold Prog.readFile Prog.step
  rcases fl with _ | ⟨f, fl⟩
  · cases hp : fs p <;> simpa [hp] using h
  · cases f <;> cases hp : fs p <;> simpa [hp] using h

theorem other : Post I Prog.other I := by
  intro fs fl h
  unfold Prog.other Prog.step
  rcases fl with _ | ⟨f, fl⟩
  · exact h
  · cases f <;> exact h

theorem mono {I' J' : FS → Prop} {p : Prog α} (h : Post I p J) (h1 : ∀ fs, I' fs → I fs) (h2 : ∀ fs, J fs → J' fs) : Post I' p J' :=
  fun fs fl hi => h2 _ (h fs fl (h1 fs hi))

/-- Writing a file leaves the others alone. -/
theorem writeFile {p q : Str} {c : Option Str} (h : q ≠ p) (t : Str) : Post (fun fs => fs q = c) (Prog.writeFile p t) (fun fs => fs q = c) := by
  unfold Prog.writeFile
  refine bind (K := fun fs => fs q = c) ?_ (fun _ => ?_) (fun _ h => h)
  · intro fs fl hq
    unfold openW Prog.step
    rcases fl with _ | ⟨f, fl⟩
    · exact (FS.upd_ne _ _ h).trans hq
    · cases f <;> first | exact hq | exact (FS.upd_ne _ _ h).trans hq
  · intro fs fl hq
    unfold append
    rcases fl with _ | ⟨f, fl⟩
    · exact (FS.upd_ne _ _ h).trans hq
    · cases f <;> exact (FS.upd_ne _ _ h).trans hq

theorem writeChecked {p q : Str} {c : Option Str} (h : q ≠ p) (hb : q ≠ bak p) (t : Str) :
    Post (fun fs => fs q = c) (Verif.writeChecked p t) (fun fs => fs q = c) := by
  intro fs fl hq
  rw [(writeChecked_files p t fs fl).1]
  exact ((exportWrite_spec noTemp p (.ok t) fs _ id id fs fl ⟨fun _ _ => rfl, Nat.le_refl _⟩).2.frame q id h hb).trans hq

end Post

theorem writeChecked_ok (p t : Str) (fs : FS) : ∃ fs', writeChecked p t fs [] = (.ok true, fs', []) ∧ fs' p = some t := by
  have key : ∃ fs', writeChecked p t fs [] = (.ok true, fs', []) := by
    unfold writeChecked
    cases hp : fs p with
    | none =>
      simp only [Bind.bind, Prog.bind, Prog.isfile, hp, Option.isSome_none, Bool.false_eq_true, if_false, Pure.pure, Prog.pure, Prog.tryExcept,
        writeFile, openW, Prog.step, append, List.tail_nil]
      exact ⟨_, rfl⟩
    | some c =>
      simp only [Bind.bind, Prog.bind, Prog.isfile, hp, Option.isSome_some, if_true, Pure.pure, Prog.pure, Prog.tryExcept, Prog.replace,
        writeFile, openW, Prog.step, append, List.tail_nil]
      exact ⟨_, rfl⟩
  obtain ⟨fs', h⟩ := key
  refine ⟨fs', h, ?_⟩
  obtain ⟨e1, e2, -⟩ := writeChecked_files p t fs []
  rw [h] at e1 e2
  have := (exportWrite_spec noTemp p (.ok t) fs _ id id fs [] ⟨fun _ _ => rfl, Nat.le_refl _⟩).2
  obtain ⟨u, hu, hf, _⟩ := this.done (e2.1 rfl)
  rw [← e1] at hf
  exact hf.trans (congrArg some (Except.ok.inj hu).symm)

/-! ### Dictionaries -/

theorem foldl_set_get (j : Dict Str) (hj : j.keys.Nodup) (d : Dict Str) (m : Str) :
    (j.foldl (fun d p => d.set p.1 p.2) d).get? m = (j.get? m).orElse fun _ => d.get? m := by
  induction j generalizing d with
  | nil => rfl
  | cons p j ih =>
    obtain ⟨hp, hj⟩ := List.nodup_cons.1 hj
    rw [List.foldl_cons, ih hj]
    show _ = (if p.1 = m then some p.2 else Dict.get? j m).orElse _
    by_cases h : p.1 = m
    · rw [if_pos h, (Dict.get?_eq_none_iff j m).2 (h ▸ hp)]
      show (d.set p.1 p.2).get? m = _
      rw [Dict.get?_set, if_pos h]; rfl
    · rw [if_neg h]
      cases Dict.get? j m with
      | some t => rfl
      | none => show (d.set p.1 p.2).get? m = _; rw [Dict.get?_set, if_neg h]; rfl

theorem bulk_get {json : Option (Dict Str)} (hj : ∀ j, json = some j → j.keys.Nodup) {old : PoFile} (ho : old.Regular) (m : Str) :
    ((mergeJson (readPo [] (some old.text)) json).get? m).getD [] = changedTranslation json old m := by
  have h0 : readPo [] (some old.text) = old.entries.foldl enter [] := readPo_file ho []
  have h1 : (old.entries.foldl enter ([] : Dict Str)).get? m = lastTranslation m old.entries := by
    rw [enter_get]
    cases lastTranslation m old.entries <;> rfl
  unfold changedTranslation
  rw [h0]
  cases json with
  | none => show ((old.entries.foldl enter ([] : Dict Str)).get? m).getD [] = _; rw [h1]; rfl
  | some j =>
    show ((j.foldl (fun (d : Dict Str) p => d.set p.1 p.2) _).get? m).getD [] = _
    rw [foldl_set_get j (hj j rfl), h1]
    rfl

/-- The new file of one project. -/
theorem bulk_text (now : Str) (template old : PoFile) (ht : template.Regular) (ho : old.Regular) (json : Option (Dict Str))
    (hj : ∀ j, json = some j → j.keys.Nodup) :
    ∃ ms, ms.Perm template.messages ∧ ms.Pairwise InOrder ∧
      bulkText now template.text old.text json = newFile (bulkEnv now) (creationLine (bulkEnv now) template) ms (changedTranslation json old) := by
  obtain ⟨h1, h2, h3⟩ := readPot_file ht (bulkEnv now)
  refine ⟨_, h2, h3.imp (strLe_inOrder _ _), ?_⟩
  unfold bulkText
  simp only
  rw [h1, List.flatten_cons, poHeader_eq]
  unfold newFile
  rw [List.flatMap_append]
  refine congrArg (fun x => List.flatMap (· ++ c!"\n") (newHeader (bulkEnv now) (creationLine (bulkEnv now) template)) ++ x) ?_
  generalize (readPotLoop true (noCreation (bulkEnv now)) [] (strippedLines template.text)).2 = ms
  induction ms with
  | nil => rfl
  | cons m ms ih =>
    rw [List.map_cons, List.flatten_cons, ih, List.flatMap_cons, List.flatMap_append]
    refine congrArg (fun x => x ++ List.flatMap (· ++ c!"\n") (ms.flatMap _)) ?_
    unfold poEntry
    rw [bulk_get hj ho]
    simp

end Verif
