/-
C77: the scripts that work on translation files: a global update loses no file, and a catalogue is only compiled from a complete translation.
-/
import Verif.Lemmas.BulkPo
import Verif.Props.C61_Pgettext

namespace Verif
open Spec Prog

/-! ### The paths -/

theorem poPath_inj {root a b : Str} (h : poPath root a = poPath root b) : a = b := by
  unfold poPath at h
  exact List.append_cancel_left (List.append_cancel_right h)

theorem end_ne {a b x y : Str} {c d : Char} (h : c ≠ d) : a ++ (x ++ [c]) ≠ b ++ (y ++ [d]) := by
  intro e
  have := congrArg List.getLast? e
  rw [← List.append_assoc, ← List.append_assoc, List.getLast?_concat, List.getLast?_concat] at this
  exact h (Option.some.inj this)

theorem po_ne_bak (root a b : Str) : poPath root a ≠ bak (poPath root b) := by
  unfold poPath bak
  exact end_ne (x := c!"/i18n/de.p") (y := c!".ba") (by decide)

theorem pot_ne_po (root a b : Str) : potPath root a ≠ poPath root b := by
  unfold poPath potPath
  exact end_ne (x := c!"/i18n/messages.po") (y := c!"/i18n/de.p") (by decide)

theorem pot_ne_bak (root a b : Str) : potPath root a ≠ bak (poPath root b) := by
  unfold potPath bak
  exact end_ne (x := c!"/i18n/messages.po") (y := c!".ba") (by decide)

theorem json_ne_po (root b : Str) : jsonPath root ≠ poPath root b := by
  unfold poPath jsonPath
  exact end_ne (x := c!"/PyWriter/i18n/de.jso") (y := c!"/i18n/de.p") (by decide)

theorem json_ne_bak (root b : Str) : jsonPath root ≠ bak (poPath root b) := by
  unfold jsonPath bak
  exact end_ne (x := c!"/PyWriter/i18n/de.jso") (y := c!".ba") (by decide)

theorem bak_inj {a b : Str} (h : bak a = bak b) : a = b := List.append_cancel_right h

/-! ### The update of all projects, whatever fails -/

theorem readJsonFile_keeps {I : FS → Prop} (parse : Str → Option (Dict Str)) (path : Str) : Post I (readJsonFile parse path) I := by
  unfold readJsonFile
  refine Post.tryExcept (K := I) (Post.bind (K := I) (Post.readFile path) (fun t => ?_) (fun _ h => h)) (fun _ => Post.pure _) (fun _ h => h)
  cases parse t with
  | some d => exact Post.pure _
  | none => exact Post.raise _

/-- Reading changes nothing; then the file is written. -/
theorem bulkProject_post {I J : FS → Prop} (now : Str) (parse : Str → Option (Dict Str)) (root name : Str)
    (hw : ∀ t, Post I (writeChecked (poPath root name) t) J) (hs : ∀ fs, I fs → J fs) : Post I (bulkProject now parse root name) J := by
  unfold bulkProject
  refine Post.bind (K := I) (Post.isfile _) (fun b => ?_) hs
  cases b with
  | false => exact (Post.pure _).mono (fun _ h => h) hs
  | true =>
    refine Post.bind (K := I) Post.other (fun _ => ?_) hs
    refine Post.bind (K := I) (Post.readFile _) (fun _ => ?_) hs
    refine Post.bind (K := I) (Post.readFile _) (fun _ => ?_) hs
    refine Post.bind (K := I) (readJsonFile_keeps _ _) (fun _ => ?_) hs
    exact Post.bind (K := J) (hw _) (fun _ => Post.pure _) (fun _ h => h)

theorem bulkProject_frame (now : Str) (parse : Str → Option (Dict Str)) (root name q : Str) (c : Option Str)
    (h1 : q ≠ poPath root name) (h2 : q ≠ bak (poPath root name)) :
    Post (fun fs => fs q = c) (bulkProject now parse root name) (fun fs => fs q = c) :=
  bulkProject_post now parse root name (fun t => Post.writeChecked h1 h2 t) (fun _ h => h)

theorem bulkUpdate_frame (now : Str → Str) (parse : Str → Option (Dict Str)) (root q : Str) (c : Option Str) :
    ∀ names : List Str, (∀ n ∈ names, q ≠ poPath root n ∧ q ≠ bak (poPath root n)) →
      Post (fun fs => fs q = c) (bulkUpdate now parse root names) (fun fs => fs q = c)
  | [], _ => Post.other
  | n :: r, h =>
    Post.bind (bulkProject_frame _ parse root n q c (h n List.mem_cons_self).1 (h n List.mem_cons_self).2)
      (fun _ => bulkUpdate_frame now parse root q c r (fun m hm => h m (List.mem_cons_of_mem _ hm))) (fun _ h => h)

/-- **C77**: a global update changes no other files than the translation files of the projects and their backups, whatever fails and whenever
it is interrupted. -/
theorem C77_only (now : Str → Str) (parse : Str → Option (Dict Str)) (root : Str) (names : List Str) (fs : FS) (faults : List Fault) (q : Str)
    (h : ∀ n ∈ names, q ≠ poPath root n ∧ q ≠ poPath root n ++ c!".bak") : (bulkUpdate now parse root names fs faults).2.1 q = fs q :=
  bulkUpdate_frame now parse root q (fs q) names h fs faults rfl

theorem bulkUpdate_keeps (now : Str → Str) (parse : Str → Option (Dict Str)) (root name old : Str) : ∀ names : List Str, names.Nodup →
    Post (fun fs => fs (poPath root name) = some old) (bulkUpdate now parse root names) (Intact (poPath root name) old)
  | [], _ => Post.other.mono (fun _ h => h) (fun _ h => Or.inl h)
  | n :: r, hn => by
    obtain ⟨h1, h2⟩ := List.nodup_cons.1 hn
    by_cases e : name = n
    · subst e
      refine Post.bind (K := Intact (poPath root name) old)
        (bulkProject_post _ parse root name (fun t fs fl h => C58_old_kept _ old t fs fl h) (fun _ h => Or.inl h)) (fun _ => ?_) (fun _ h => h)
      intro fs fl h
      have ne : ∀ m ∈ r, name ≠ m := fun m hm x => h1 (x ▸ hm)
      rcases h with h | h
      · exact Or.inl (bulkUpdate_frame now parse root _ _ r (fun m hm => ⟨fun x => ne m hm (poPath_inj x), po_ne_bak root name m⟩) fs fl h)
      · exact Or.inr (bulkUpdate_frame now parse root _ _ r
          (fun m hm => ⟨fun x => po_ne_bak root m name x.symm, fun x => ne m hm (poPath_inj (bak_inj x))⟩) fs fl h)
    · exact Post.bind (bulkProject_frame _ parse root n _ _ (fun x => e (poPath_inj x)) (po_ne_bak root name n))
        (fun _ => bulkUpdate_keeps now parse root name old r h2) (fun _ h => Or.inl h)

/-- **C77**: a global update loses no translation file: whatever fails and whenever it is interrupted, the old file of each project is there,
under its name or as backup. -/
theorem C77_kept (now : Str → Str) (parse : Str → Option (Dict Str)) (root : Str) (names : List Str) (hn : names.Nodup) (fs : FS)
    (faults : List Fault) (name old : Str) (h : fs (poPath root name) = some old) :
    Intact (poPath root name) old (bulkUpdate now parse root names fs faults).2.1 :=
  bulkUpdate_keeps now parse root name old names hn fs faults h

/-! ### A project without template -/

theorem bulkProject_missing (now : Str) (parse : Str → Option (Dict Str)) (root name : Str) (fs : FS) (faults : List Fault)
    (h : (fs (poPath root name)).isSome) (ht : fs (potPath root name) = none) :
    (bulkProject now parse root name fs faults).1 ≠ .ok () := by
  unfold bulkProject
  simp only [Bind.bind, Prog.bind, Prog.isfile, h, if_true, Prog.other, Prog.readFile, Prog.step]
  rcases faults with _ | ⟨f, fl⟩
  · simp [ht]
  · cases f with
    | none =>
      rcases fl with _ | ⟨g, fl⟩
      · simp [ht]
      · cases g <;> simp [ht]
    | fail k => simp
    | crash k => simp

/-- **C77, finding**: a project that has a translation file but no template stops the run: it ends with an exception, and the projects after it
are not updated. -/
theorem C77_stops (now : Str → Str) (parse : Str → Option (Dict Str)) (root name : Str) (before after : List Str) (fs : FS) (faults : List Fault)
    (hn : (before ++ name :: after).Nodup) (h : (fs (poPath root name)).isSome) (ht : fs (potPath root name) = none) :
    (bulkUpdate now parse root (before ++ name :: after) fs faults).1 ≠ .ok () ∧
      ∀ n ∈ after, (bulkUpdate now parse root (before ++ name :: after) fs faults).2.1 (poPath root n) = fs (poPath root n) := by
  induction before generalizing fs faults with
  | nil =>
    rw [List.nil_append]
    have hm := bulkProject_missing (now name) parse root name fs faults h ht
    have hf : ∀ n ∈ after, (bulkProject (now name) parse root name fs faults).2.1 (poPath root n) = fs (poPath root n) := fun n hmem =>
      bulkProject_frame (now name) parse root name _ _
        (fun x => (List.nodup_cons.1 hn).1 (poPath_inj x ▸ hmem)) (po_ne_bak root n name) fs faults rfl
    rw [bulkUpdate]
    show ((Prog.bind _ _) fs faults).1 ≠ _ ∧ ∀ n ∈ after, ((Prog.bind _ _) fs faults).2.1 _ = _
    unfold Prog.bind
    rcases he : bulkProject (now name) parse root name fs faults with ⟨r, fs', fl'⟩
    rw [he] at hm hf
    cases r with
    | ok a => exact absurd rfl hm
    | err e => exact ⟨by simp, hf⟩
    | crashed => exact ⟨by simp, hf⟩
  | cons x before ih =>
    rw [List.cons_append] at hn ⊢
    obtain ⟨h1, h2⟩ := List.nodup_cons.1 hn
    have fr : ∀ q, q ≠ poPath root x → q ≠ bak (poPath root x) → (bulkProject (now x) parse root x fs faults).2.1 q = fs q := fun q a b =>
      bulkProject_frame (now x) parse root x q _ a b fs faults rfl
    have hname : name ≠ x := fun e => h1 (e ▸ List.mem_append_right _ List.mem_cons_self)
    have hp := fr (poPath root name) (fun e => hname (poPath_inj e)) (po_ne_bak _ _ _)
    have hq := fr (potPath root name) (pot_ne_po _ _ _) (pot_ne_bak _ _ _)
    have hf : ∀ n ∈ after, (bulkProject (now x) parse root x fs faults).2.1 (poPath root n) = fs (poPath root n) := fun n hmem =>
      fr _ (fun e => h1 (poPath_inj e ▸ List.mem_append_right _ (List.mem_cons_of_mem _ hmem))) (po_ne_bak _ _ _)
    rw [bulkUpdate]
    show ((Prog.bind _ _) fs faults).1 ≠ _ ∧ ∀ n ∈ after, ((Prog.bind _ _) fs faults).2.1 _ = _
    unfold Prog.bind
    rcases he : bulkProject (now x) parse root x fs faults with ⟨r, fs', fl'⟩
    rw [he] at hp hq hf
    cases r with
    | ok a =>
      obtain ⟨i1, i2⟩ := ih fs' fl' h2 (by rw [show fs' (poPath root name) = _ from hp]; exact h) ((show fs' _ = _ from hq).trans ht)
      exact ⟨i1, fun n hmem => (i2 n hmem).trans (hf n hmem)⟩
    | err e => exact ⟨by simp, hf⟩
    | crashed => exact ⟨by simp, hf⟩

/-! ### What is written -/

theorem readJsonFile_run (parse : Str → Option (Dict Str)) (path : Str) (fs : FS) :
    readJsonFile parse path fs [] = (.ok ((fs path).bind parse), fs, []) := by
  unfold readJsonFile
  cases h : fs path with
  | none => simp [Prog.tryExcept, Bind.bind, Prog.bind, Prog.readFile, Prog.step, h, Pure.pure, Prog.pure]
  | some t =>
    cases hp : parse t <;> simp [Prog.tryExcept, Bind.bind, Prog.bind, Prog.readFile, Prog.step, h, hp, Pure.pure, Prog.pure, Prog.raise]

theorem bulkProject_none (now : Str) (parse : Str → Option (Dict Str)) (root name : Str) (fs : FS) (h : fs (poPath root name) = none) :
    bulkProject now parse root name fs [] = (.ok (), fs, []) := by
  unfold bulkProject
  simp [Bind.bind, Prog.bind, Prog.isfile, h, Pure.pure, Prog.pure]

theorem bulkProject_run (now : Str) (parse : Str → Option (Dict Str)) (root name pot po : Str) (fs : FS) (h : fs (poPath root name) = some po)
    (ht : fs (potPath root name) = some pot) :
    ∃ fs', bulkProject now parse root name fs [] = (.ok (), fs', []) ∧
      fs' (poPath root name) = some (bulkText now pot po ((fs (jsonPath root)).bind parse)) := by
  obtain ⟨fs', hw, hf⟩ := writeChecked_ok (poPath root name) (bulkText now pot po ((fs (jsonPath root)).bind parse)) fs
  refine ⟨fs', ?_, hf⟩
  unfold bulkProject
  simp [Bind.bind, Prog.bind, Prog.isfile, h, ht, Prog.other, Prog.readFile, Prog.step, readJsonFile_run, hw, Pure.pure, Prog.pure]

/-- The projects are as they should be: those that have a translation file have a template, and both are regular. -/
def AllReady (root : Str) (names : List Str) (fs : FS) : Prop :=
  ∀ n ∈ names, fs (poPath root n) = none ∨ ∃ template old : PoFile, template.Regular ∧ old.Regular ∧
    fs (potPath root n) = some template.text ∧ fs (poPath root n) = some old.text

/-- **C77**: if nothing fails, a global update writes a new translation file for each project that had one: a header and the messages of the
project's template, sorted, each with its entry in the JSON dictionary, otherwise with its translation in the old file. Partial: for regular
files (one line for each message and translation), and if no template is missing (`C77_stops`). -/
theorem C77_updated_partial (now : Str → Str) (parse : Str → Option (Dict Str)) (hparse : ∀ t j, parse t = some j → j.keys.Nodup) (root : Str)
    (names : List Str) (hn : names.Nodup) (fs : FS) (h : AllReady root names fs) :
    ∃ fs', bulkUpdate now parse root names fs [] = (.ok (), fs', []) ∧
      (∀ n ∈ names, fs (poPath root n) = none → fs' (poPath root n) = none) ∧
      ∀ n ∈ names, ∀ template old : PoFile, template.Regular → old.Regular → fs (potPath root n) = some template.text →
        fs (poPath root n) = some old.text → ∃ ms, ms.Perm template.messages ∧ ms.Pairwise InOrder ∧ fs' (poPath root n) =
          some (newFile (bulkEnv (now n)) (creationLine (bulkEnv (now n)) template) ms (changedTranslation ((fs (jsonPath root)).bind parse) old)) := by
  induction names generalizing fs with
  | nil => exact ⟨fs, rfl, by simp, by simp⟩
  | cons x names ih =>
    obtain ⟨h1, h2⟩ := List.nodup_cons.1 hn
    have hone : ∃ fs1, bulkProject (now x) parse root x fs [] = (.ok (), fs1, []) ∧ (fs (poPath root x) = none → fs1 (poPath root x) = none) ∧
        ∀ template old : PoFile, template.Regular → old.Regular → fs (potPath root x) = some template.text →
          fs (poPath root x) = some old.text → ∃ ms, ms.Perm template.messages ∧ ms.Pairwise InOrder ∧ fs1 (poPath root x) =
            some (newFile (bulkEnv (now x)) (creationLine (bulkEnv (now x)) template) ms (changedTranslation ((fs (jsonPath root)).bind parse) old)) := by
      rcases h x List.mem_cons_self with h0 | ⟨template, old, ht, ho, e1, e2⟩
      · exact ⟨fs, bulkProject_none _ _ _ _ _ h0, fun _ => h0, fun t o _ _ _ e => by rw [h0] at e; cases e⟩
      · obtain ⟨fs1, r1, r2⟩ := bulkProject_run (now x) parse root x _ _ fs e2 e1
        refine ⟨fs1, r1, (fun e => by rw [e2] at e; cases e), ?_⟩
        intro t o rt ro f1 f2
        obtain ⟨ms, m1, m2, m3⟩ := bulk_text (now x) t o rt ro ((fs (jsonPath root)).bind parse) (by
          intro j hj
          cases hf : fs (jsonPath root) with
          | none => rw [hf] at hj; cases hj
          | some s => rw [hf] at hj; exact hparse s j hj)
        refine ⟨ms, m1, m2, ?_⟩
        rw [← m3, r2]
        rw [e1] at f1
        rw [e2] at f2
        rw [Option.some.inj f1, Option.some.inj f2]
    obtain ⟨fs1, r1, n1, t1⟩ := hone
    have fr : ∀ q, q ≠ poPath root x → q ≠ bak (poPath root x) → fs1 q = fs q := by
      intro q a b
      have := bulkProject_frame (now x) parse root x q _ a b fs [] rfl
      rw [r1] at this
      exact this
    have hpo : ∀ n ∈ names, fs1 (poPath root n) = fs (poPath root n) := fun n hmem =>
      fr _ (fun e => h1 (poPath_inj e ▸ hmem)) (po_ne_bak _ _ _)
    have hpot : ∀ n, fs1 (potPath root n) = fs (potPath root n) := fun n => fr _ (pot_ne_po _ _ _) (pot_ne_bak _ _ _)
    have hjson : fs1 (jsonPath root) = fs (jsonPath root) := fr _ (json_ne_po _ _) (json_ne_bak _ _)
    obtain ⟨fs', r2, n2, t2⟩ := ih h2 fs1 (by
      intro n hmem
      rw [hpo n hmem, hpot n]
      exact h n (List.mem_cons_of_mem _ hmem))
    have last : fs' (poPath root x) = fs1 (poPath root x) := by
      have := C77_only now parse root names fs1 [] (poPath root x) (fun n hmem =>
        ⟨fun e => h1 (poPath_inj e ▸ hmem), po_ne_bak _ _ _⟩)
      rw [r2] at this
      exact this
    refine ⟨fs', ?_, ?_, ?_⟩
    · rw [bulkUpdate]
      simp [Bind.bind, Prog.bind, r1, r2]
    · intro n hmem e
      rcases List.mem_cons.1 hmem with rfl | hmem
      · rw [last]; exact n1 e
      · exact n2 n hmem ((hpo n hmem).trans e)
    · intro n hmem t o rt ro e1 e2
      rcases List.mem_cons.1 hmem with rfl | hmem
      · rw [last]; exact t1 t o rt ro e1 e2
      · have := t2 n hmem t o rt ro ((hpot n).trans e1) ((hpo n hmem).trans e2)
        rwa [hjson] at this

/-! ### The catalogue of one project -/

theorem readIfThere_keeps {I : FS → Prop} (path : Str) : Post I (readIfThere path) I := by
  unfold readIfThere
  refine Post.bind (K := I) (Post.isfile _) (fun b => ?_) (fun _ h => h)
  cases b with
  | false => exact Post.pure _
  | true => exact Post.bind (K := I) (Post.readFile _) (fun _ => Post.pure _) (fun _ h => h)

theorem makeFile_frame (compile : Str → Option Str) (po mo q : Str) (c : Option Str) (h : q ≠ mo) :
    Post (fun fs => fs q = c) (makeFile compile po mo) (fun fs => fs q = c) := by
  unfold makeFile
  refine Post.bind (Post.readFile _) (fun t => ?_) (fun _ h => h)
  cases compile t with
  | none => exact Post.raise _
  | some x => exact Post.tryExcept (Post.writeFile h x) (fun _ => Post.pure _) (fun _ h => h)

theorem copyFile_frame (a b q : Str) (c : Option Str) (h : q ≠ b) : Post (fun fs => fs q = c) (copyFile a b) (fun fs => fs q = c) := by
  unfold copyFile
  exact Post.bind (Post.readFile _) (fun t => Post.writeFile h t) (fun _ h => h)

theorem compile_frame (compile : Str → Option Str) (po mo copy q : Str) (c : Option Str) (h1 : q ≠ mo) (h2 : q ≠ copy) :
    Post (fun fs => fs q = c) (do makeFile compile po mo; copyFile mo copy) (fun fs => fs q = c) :=
  Post.bind (makeFile_frame compile po mo q c h1) (fun _ => copyFile_frame mo copy q c h2) (fun _ h => h)

/-- **C77**: the script that compiles the catalogue loses no translation file: whatever fails and whenever it is interrupted, the old file is
there, under its name or as backup. -/
theorem C77_de_kept (e : TrEnv) (compile : Str → Option Str) (pot po mo copy : Str) (h1 : mo ≠ po ∧ copy ≠ po)
    (h2 : mo ≠ po ++ c!".bak" ∧ copy ≠ po ++ c!".bak") (fs : FS) (faults : List Fault) (old : Str) (h : fs po = some old) :
    Intact po old (translateDe e compile pot po mo copy fs faults).2.1 := by
  have keep : Post (Intact po old) (do makeFile compile po mo; copyFile mo copy) (Intact po old) := by
    intro fs fl h
    rcases h with h | h
    · exact Or.inl (compile_frame compile po mo copy po _ (Ne.symm h1.1) (Ne.symm h1.2) fs fl h)
    · exact Or.inr (compile_frame compile po mo copy _ _ (Ne.symm h2.1) (Ne.symm h2.2) fs fl h)
  have main : Post (fun fs => fs po = some old) (translateDe e compile pot po mo copy) (Intact po old) := by
    unfold translateDe
    refine Post.bind (K := fun fs => fs po = some old) (Post.readFile _) (fun t => ?_) (fun _ h => Or.inl h)
    refine Post.bind (K := fun fs => fs po = some old) (readIfThere_keeps _) (fun o => ?_) (fun _ h => Or.inl h)
    refine Post.bind (K := Intact po old) (fun fs fl h => C58_old_kept _ old _ fs fl h) (fun b => ?_) (fun _ h => h)
    cases b && (updateTranslations e [] t o).complete with
    | false => exact Post.pure _
    | true => exact keep
  exact main fs faults h

theorem readIfThere_bind {β : Type} (path : Str) (k : Option Str → Prog β) (fs : FS) (fl : List Fault) :
    (∃ fl', (readIfThere path >>= k) fs fl = k (fs path) fs fl') ∨ (readIfThere path >>= k) fs fl = (.err .osError, fs, fl.tail) ∨
      (readIfThere path >>= k) fs fl = (.crashed, fs, fl.tail) := by
  unfold readIfThere
  cases h : fs path with
  | none => exact Or.inl ⟨fl, by simp [Bind.bind, Prog.bind, Prog.isfile, h, Pure.pure, Prog.pure]⟩
  | some t =>
    rcases fl with _ | ⟨f, fl⟩
    · exact Or.inl ⟨[], by simp [Bind.bind, Prog.bind, Prog.isfile, Prog.readFile, Prog.step, h, Pure.pure, Prog.pure]⟩
    · cases f with
      | none => exact Or.inl ⟨fl, by simp [Bind.bind, Prog.bind, Prog.isfile, Prog.readFile, Prog.step, h, Pure.pure, Prog.pure]⟩
      | fail k => exact Or.inr (Or.inl (by simp [Bind.bind, Prog.bind, Prog.isfile, Prog.readFile, Prog.step, h]))
      | crash k => exact Or.inr (Or.inr (by simp [Bind.bind, Prog.bind, Prog.isfile, Prog.readFile, Prog.step, h]))

/-- **C77**: as long as a message of the template has no translation, the script leaves the catalogue and its copy alone, whatever fails and
whenever it is interrupted. Partial: for regular files. -/
theorem C77_incomplete_partial (e : TrEnv) (compile : Str → Option Str) (pot po mo copy : Str) (hp : CatalogPaths pot po mo copy) (fs : FS)
    (faults : List Fault) (template : PoFile) (old : Option PoFile) (ht : template.Regular) (ho : ∀ f, old = some f → f.Regular)
    (hpot : fs pot = some template.text) (hpo : fs po = old.map PoFile.text)
    (h : ∃ m ∈ template.messages, translationOf [] old m = []) :
    (translateDe e compile pot po mo copy fs faults).2.1 mo = fs mo ∧ (translateDe e compile pot po mo copy fs faults).2.1 copy = fs copy := by
  have hc : (updateTranslations e [] template.text (fs po)).complete = false := by
    rw [hpo]
    obtain ⟨⟨ms, -, -, -, hiff⟩, -⟩ := C58_update_partial e [] List.nodup_nil template old ht ho
    cases hr : (updateTranslations e [] template.text (old.map PoFile.text)).complete with
    | false => rfl
    | true =>
      obtain ⟨m, hm, hz⟩ := h
      exact absurd hz (hiff.1 hr m hm)
  have frame : ∀ q, q ≠ po → q ≠ bak po → (translateDe e compile pot po mo copy fs faults).2.1 q = fs q := by
    intro q a b
    unfold translateDe
    have rest : ∀ fl, ((readIfThere po >>= fun old => do
        if (← writeChecked po (updateTranslations e [] template.text old).text) && (updateTranslations e [] template.text old).complete then
          makeFile compile po mo
          copyFile mo copy) fs fl).2.1 q = fs q := by
      intro fl
      rcases readIfThere_bind po (fun old => do
        if (← writeChecked po (updateTranslations e [] template.text old).text) && (updateTranslations e [] template.text old).complete then
          makeFile compile po mo
          copyFile mo copy) fs fl with ⟨fl', hr⟩ | hr | hr
      · rw [hr, hc]
        refine Post.bind (I := fun g => g q = fs q) (J := fun g => g q = fs q) (Post.writeChecked a b _) (fun w => ?_) (fun _ h => h) fs fl' rfl
        rw [Bool.and_false]
        exact Post.pure _
      · rw [hr]
      · rw [hr]
    rcases faults with _ | ⟨f, fl⟩
    · have := rest []
      simpa [Bind.bind, Prog.bind, Prog.readFile, Prog.step, hpot] using this
    · cases f with
      | none =>
        have := rest fl
        simpa [Bind.bind, Prog.bind, Prog.readFile, Prog.step, hpot] using this
      | fail k => simp [Bind.bind, Prog.bind, Prog.readFile, Prog.step]
      | crash k => simp [Bind.bind, Prog.bind, Prog.readFile, Prog.step]
  exact ⟨frame mo hp.catalogue.1 hp.catalogue.2, frame copy hp.copied.1 hp.copied.2.1⟩

theorem translateDe_run (e : TrEnv) (compile : Str → Option Str) (pot po mo copy : Str) (hp : CatalogPaths pot po mo copy) (fs : FS)
    (template : Str) (hpot : fs pot = some template) (hc : (updateTranslations e [] template (fs po)).complete = true) (c : Str)
    (hcomp : compile (updateTranslations e [] template (fs po)).text = some c) :
    ∃ fs', translateDe e compile pot po mo copy fs [] = (.ok (), fs', []) ∧
      fs' po = some (updateTranslations e [] template (fs po)).text ∧ fs' mo = some c ∧ fs' copy = some c := by
  have hr : readIfThere po fs [] = (.ok (fs po), fs, []) := by
    unfold readIfThere
    cases h : fs po <;> simp [Bind.bind, Prog.bind, Prog.isfile, Prog.readFile, Prog.step, h, Pure.pure, Prog.pure]
  obtain ⟨fs1, hw, hf⟩ := writeChecked_ok po (updateTranslations e [] template (fs po)).text fs
  have hm : makeFile compile po mo fs1 [] = (.ok (), (fs1.upd mo (some [])).upd mo (some c), []) := by
    unfold makeFile
    simp [Bind.bind, Prog.bind, Prog.readFile, Prog.step, hf, hcomp, Prog.tryExcept, writeFile, openW, append, FS.upd]
  refine ⟨(((fs1.upd mo (some [])).upd mo (some c)).upd copy (some [])).upd copy (some c), ?_, ?_, ?_, ?_⟩
  · unfold translateDe
    simp [Bind.bind, Prog.bind, Prog.readFile, Prog.step, hpot, hr, hw, hc, hm, copyFile, writeFile, openW, append, FS.upd]
  · simp [FS.upd, Ne.symm hp.catalogue.1, Ne.symm hp.copied.1, hf]
  · simp [FS.upd, Ne.symm hp.copied.2.2]
  · simp [FS.upd]

/-- **C77**: if all messages of the template are translated and nothing fails, the script writes the new translation file, and the catalogue
compiled from it, twice. Partial: for regular files. -/
theorem C77_compiled_partial (e : TrEnv) (compile : Str → Option Str) (pot po mo copy : Str) (hp : CatalogPaths pot po mo copy) (fs : FS)
    (template : PoFile) (old : Option PoFile) (ht : template.Regular) (ho : ∀ f, old = some f → f.Regular)
    (hpot : fs pot = some template.text) (hpo : fs po = old.map PoFile.text)
    (h : ∀ m ∈ template.messages, translationOf [] old m ≠ []) :
    ∃ ms, ms.Perm template.messages ∧ ms.Pairwise InOrder ∧
      ∀ c, compile (newFile e (creationLine e template) ms (translationOf [] old)) = some c →
        ∃ fs', translateDe e compile pot po mo copy fs [] = (.ok (), fs', []) ∧
          fs' po = some (newFile e (creationLine e template) ms (translationOf [] old)) ∧ fs' mo = some c ∧ fs' copy = some c := by
  obtain ⟨⟨ms, h1, h2, h3, hiff⟩, -⟩ := C58_update_partial e [] List.nodup_nil template old ht ho
  refine ⟨ms, h1, h2, fun c hc => ?_⟩
  have := translateDe_run e compile pot po mo copy hp fs template.text hpot (by rw [hpo]; exact hiff.2 h) c (by rw [hpo, h3]; exact hc)
  rw [hpo, h3] at this
  exact this

/-- The bytes of a catalogue as the contents of a file. -/
def bytesText (b : Bytes) : Str := b.map fun x => Char.ofNat x.toNat

/-- `msgfmt.make` on the text of a translation file. -/
def compileMo (charset : Str → Option Enc) (text : Str) : Option Str := (makeMo charset [] (utf8 text)).map bytesText

/-- **C77, C61**: from the program's source files to the catalogue that is installed: if the template is that of the source files, all messages
are translated and nothing fails, then the installed file is a catalogue in which each marked message of the program has its translation.
Partial: under the conditions of C61. -/
theorem C77_installed_partial (charset : Str → Option Enc) (e e2 : TrEnv) (he : TrEnvOk e) (happ : '\n' ∉ e2.app)
    (hv : Simple e2.version) (hn : Simple e2.now) (hn1 : Simple e.now)
    (entries : List SrcEntry) (h : RegularPrograms entries) (old : Option PoFile) (ho : ∀ f, old = some f → f.Regular)
    (say : Str → Str) (hplain : ∀ p, MarkedIn entries p → ∀ c ∈ p.message, c.toNat < 128)
    (hsay : ∀ p, MarkedIn entries p → Written p.quote p.message (say (quoted p.message)))
    (hinj : ∀ p p', MarkedIn entries p → MarkedIn entries p' → say (quoted p.message) = say (quoted p'.message) → p.message = p'.message)
    (htr : ∀ p, MarkedIn entries p → Denotes (translationOf [] old (quoted p.message)) (say (translationOf [] old (quoted p.message))))
    (hcs : charset (view .latin1 (catalogHeader e2 e.now)) ≠ some .other)
    (pot po mo copy : Str) (hp : CatalogPaths pot po mo copy) (fs : FS) (hpo : fs po = old.map PoFile.text)
    (hall : ∀ p, MarkedIn entries p → translationOf [] old (quoted p.message) ≠ []) :
    ∃ template : PoFile, templateText e entries = .ok template.text ∧
      (fs pot = some template.text → 28 + (46 + (utf8 (catalogHeader e2 e.now)).length +
        (template.messages.map fun m => (utf8 (say m)).length + (utf8 (say (translationOf [] old m))).length + 18).sum) < 2147483648 →
      ∃ fs' file, translateDe e2 (compileMo charset) pot po mo copy fs [] = (.ok (), fs', []) ∧
        fs' mo = some (bytesText file) ∧ fs' copy = some (bytesText file) ∧
        ∀ p, MarkedIn entries p → moFind file (utf8 (say (quoted p.message))) = some (utf8 (say (translationOf [] old (quoted p.message))))) := by
  obtain ⟨template, h1, h2, h3⟩ := C61_catalog_partial charset e e2 he happ hv hn hn1 entries h [] old ho say hplain hsay hinj htr hcs
  obtain ⟨template', k1, k2, -, k3, -⟩ := C61_template_partial e he entries h
  have et : template'.text = template.text := by
    have := k1.symm.trans h1
    injection this
  refine ⟨template, h1, fun hpot hsize => ?_⟩
  obtain ⟨file, hf, hfind⟩ := h3 hsize
  have hc : (updateTranslations e2 [] template.text (fs po)).complete = true := by
    obtain ⟨⟨ms, -, -, -, hiff⟩, -⟩ := C58_update_partial e2 [] List.nodup_nil template' old k2 ho
    rw [hpo, ← et]
    refine hiff.2 fun m hm => ?_
    obtain ⟨p, hp1, rfl⟩ := (k3 m).1 hm
    exact hall p hp1
  obtain ⟨fs', r1, -, r3, r4⟩ := translateDe_run e2 (compileMo charset) pot po mo copy hp fs template.text hpot hc (bytesText file) (by
    unfold compileMo
    rw [hpo, hf]; rfl)
  refine ⟨fs', file, r1, r3, r4, fun p hp1 => ?_⟩
  rw [hfind p hp1, if_neg (hall p hp1)]

/-! ### Concrete cases, and what is lost -/

/-- Three projects, one of them without translation file. -/
def bulkFiles : FS := fun q =>
  if q = poPath c!"/p" c!"A" then some trOld.text
  else if q = potPath c!"/p" c!"A" then some trTemplate.text
  else if q = poPath c!"/p" c!"C" then some trOld.text
  else if q = potPath c!"/p" c!"C" then some trTemplate.text
  else if q = jsonPath c!"/p" then some c!"{}"
  else none

theorem bulk_ready : AllReady c!"/p" [c!"A", c!"B", c!"C"] bulkFiles := by
  intro n hn
  rcases List.mem_cons.1 hn with rfl | hn
  · exact Or.inr ⟨trTemplate, trOld, trTemplate_regular, trOld_regular, by decide +kernel, by decide +kernel⟩
  rcases List.mem_cons.1 hn with rfl | hn
  · exact Or.inl (by decide +kernel)
  rcases List.mem_cons.1 hn with rfl | hn
  · exact Or.inr ⟨trTemplate, trOld, trTemplate_regular, trOld_regular, by decide +kernel, by decide +kernel⟩
  cases hn

/-- The updated file of one of them: a new translation from the JSON dictionary, and one that replaces an existing one. -/
theorem C77_demo :
    (bulkUpdate (fun _ => c!"now") (fun _ => some [(c!"New", c!"Neu"), (c!"Zip", c!"Paket")]) c!"/p" [c!"A", c!"B", c!"C"] bulkFiles []).2.1
      (poPath c!"/p" c!"C") = some (newFile ⟨[], c!"unknown", c!"now"⟩ c!"\"POT-Creation-Date: 2023-01-01\\n\""
        [c!"Cannot write \\\"{}\\\"", c!"New", c!"Zip"] (fun m => if m = c!"New" then c!"Neu" else if m = c!"Zip" then c!"Paket" else [])) := by
  decide +kernel

/-- **C77, findings**: after a global update, the header has no program name and the version 'unknown', although the file had both; and an empty
entry of the JSON dictionary removes an existing translation. -/
theorem C77_lost :
    let e : TrEnv := ⟨c!"Yw", c!"4.2", c!"then"⟩
    let old := newFile e c!"\"POT-Creation-Date: 2023-01-01\\n\"" [c!"Zip"] (fun _ => c!"Archiv")
    let fs : FS := fun q => if q = poPath c!"/p" c!"A" then some old else if q = potPath c!"/p" c!"A" then some (newFile e c!"\"POT-Creation-Date: 2023-01-01\\n\"" [c!"Zip"] (fun _ => []))
      else if q = jsonPath c!"/p" then some c!"{}" else none
    (bulkUpdate (fun _ => c!"now") (fun _ => some [(c!"Zip", [])]) c!"/p" [c!"A"] fs []).2.1 (poPath c!"/p" c!"A") =
      some (newFile ⟨[], c!"unknown", c!"now"⟩ c!"\"POT-Creation-Date: 2023-01-01\\n\"" [c!"Zip"] (fun _ => [])) := by
  decide +kernel

/-- A template with one message, and its translation. -/
def moTemplate : PoFile := ⟨[c!"msgid \"\"", c!"msgstr \"\""], [⟨[[]], c!"Zip", []⟩], [[]]⟩

theorem moTemplate_regular : moTemplate.Regular where
  header := by decide
  above := by decide
  below := by decide
  message := by decide
  translation := by decide

/-- The files of the example. -/
def moFiles : FS := fun q =>
  if q = c!"pot" then some moTemplate.text else if q = c!"po" then some trOld.text else if q = c!"mo" then some c!"old" else if q = c!"copy" then some c!"old" else none

/-- The conditions are met by an example, and `C77_incomplete_partial` by another template. -/
theorem C77_de_demo : CatalogPaths c!"pot" c!"po" c!"mo" c!"copy" ∧ (∀ m ∈ moTemplate.messages, translationOf [] (some trOld) m ≠ []) ∧
    (∃ m ∈ trTemplate.messages, translationOf [] (some trOld) m = []) ∧
    let r := translateDe ⟨c!"A", c!"1", c!"now"⟩ (fun t => some (t.take 3)) c!"pot" c!"po" c!"mo" c!"copy" moFiles []
    r.1 = .ok () ∧ r.2.1 c!"mo" = some c!"# A" ∧ r.2.1 c!"copy" = some c!"# A" := by
  refine ⟨⟨by decide, by decide, by decide⟩, by decide, ⟨c!"New", by decide, by decide⟩, ?_⟩
  decide +kernel

/-- **C77, finding**: the catalogue is not written safely. If writing it fails, the error is reported and ignored: the script ends normally, the
catalogue is damaged, the damaged catalogue has been copied over the good one, and there is no backup of either. -/
theorem C77_damaged :
    let r := translateDe ⟨c!"A", c!"1", c!"now"⟩ (fun _ => some c!"new") c!"pot" c!"po" c!"mo" c!"copy" moFiles
      [.none, .none, .none, .none, .none, .none, .none, .fail 1]
    r.1 = .ok () ∧ r.2.1 c!"mo" = some c!"n" ∧ r.2.1 c!"copy" = some c!"n" ∧ r.2.1 c!"mo.bak" = none ∧ r.2.1 c!"copy.bak" = none := by
  decide +kernel

end Verif
