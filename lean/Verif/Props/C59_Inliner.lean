/-
C59: the script that is built contains every module that it needs, once, and in a usable order.
-/
import Verif.Lemmas.Inliner

namespace Verif
open Spec

/-- The text that the build script writes joins all files that the main script needs: each one once, with its lines in order, each module before
the lines that follow its import (unless two modules need each other), each other import once, nothing else. All of them exist. -/
theorem C59_joined_partial (s : Sources) (root text : Str) (n : Nat) (hs : s.Sound root)
    (h : inlineRun s.files s.package s.packagePath n root = .ok text) :
    s.Joined root text ∧ ∀ f, s.Reaches root f → s.files f ≠ none := by
  have ht := inlineModule_text hs n root (.refl root) [] [] [] (fun _ _ => Iff.rfl)
  unfold inlineRun at h
  cases hw : walk s n root [] with
  | error e =>
    rw [hw] at ht
    have ht : _ = Except.error e := ht
    rw [ht] at h
    cases h
  | ok v =>
    obtain ⟨t, d⟩ := v
    rw [hw] at ht
    rw [ht.1] at h
    cases h
    obtain ⟨w, hfile⟩ := walk_walked hs n root (.refl root) [] t d (.inl rfl) hw
    have started : ∀ f, s.Reaches root f → Started s root d f := by
      intro f hf
      induction hf with
      | refl => exact .inl rfl
      | @step g m hg hm ih =>
        refine .inr ⟨m, ⟨g, hg, hm⟩, ?_, rfl⟩
        by_cases hgr : g = root
        · subst hgr; exact w.needs m hm
        · refine (w.new g ih ?_).2.2 m hm
          rintro (h | ⟨_, _, h, _⟩)
          · exact hgr h
          · cases h
    have notYet : ∀ f, f ≠ root → ¬ Started s root [] f := by
      rintro f hf (h | ⟨_, _, h, _⟩)
      · exact hf h
      · cases h
    refine ⟨⟨t, ?_, fun p hp => (w.only p hp).1, w.order, rfl⟩, ?_⟩
    · intro f hf
      by_cases hfr : f = root
      · subst hfr; exact w.own
      · exact (w.new f (started f hf) (notYet f hfr)).1
    · intro f hf
      by_cases hfr : f = root
      · subst hfr; exact hfile
      · exact (w.new f (started f hf) (notYet f hfr)).2.1

theorem itemLoop_mono {r1 r2 : Str → Str → List Str → Except InlineErr (Str × List Str)}
    (hr : ∀ f t d v, r1 f t d = .ok v → r2 f t d = .ok v) :
    ∀ (its : List Item) (text : Str) (done : List Str) (v : Str × List Str), itemLoop r1 text done its = .ok v → itemLoop r2 text done its = .ok v := by
  intro its
  induction its with
  | nil => intro text done v h; exact h
  | cons i its ih =>
    intro text done v h
    cases i with
    | code l => exact ih _ _ _ h
    | std l n =>
      rw [itemLoop] at h ⊢
      split
      · rename_i hn; rw [if_pos hn] at h; exact ih _ _ _ h
      · rename_i hn; rw [if_neg hn] at h; exact ih _ _ _ h
    | needs m =>
      rw [itemLoop] at h ⊢
      split
      · rename_i hn; rw [if_pos hn] at h; exact ih _ _ _ h
      · rename_i hn
        rw [if_neg hn] at h
        obtain ⟨⟨t, d⟩, h1, h2⟩ := bindOk h
        rw [hr _ _ _ _ h1]
        exact ih _ _ _ h2

theorem inlineModule_mono (s : Sources) : ∀ (n : Nat) (f text : Str) (done : List Str) (v : Str × List Str),
    inlineModule s.files s.package s.packagePath n f text done = .ok v → inlineModule s.files s.package s.packagePath (n + 1) f text done = .ok v := by
  intro n
  induction n with
  | zero => intro f text done v h; cases h
  | succ n ih =>
    intro f text done v h
    cases hfile : s.files f with
    | none => rw [inlineModule, hfile] at h; cases h
    | some source =>
      rw [inlineModule_items s _ f text done hfile] at h ⊢
      exact itemLoop_mono ih _ _ _ _ h

/-- The build ends, also with modules that need each other: if every file that is needed exists, there is a text. -/
theorem C59_ends_partial (s : Sources) (root : Str) (hs : s.Sound root) (fs : List Str)
    (hfs : ∀ f, s.Reaches root f → f ∈ fs ∧ s.files f ≠ none) :
    ∃ text, ∀ n, fs.length < n → inlineRun s.files s.package s.packagePath n root = .ok text := by
  have hp : Pending [] fs < fs.length + 1 := Nat.lt_succ_of_le (List.length_filter_le _ _)
  obtain ⟨t, d, hw, _⟩ := walk_ends hs hfs (fs.length + 1) root (.refl root) [] hp
  have ht := inlineModule_text hs (fs.length + 1) root (.refl root) [] [] [] (fun _ _ => Iff.rfl)
  rw [hw] at ht
  refine ⟨[] ++ itemsText [] (t.map (·.2)), fun n hn => ?_⟩
  have : ∀ k, inlineModule s.files s.package s.packagePath (fs.length + 1 + k) root [] [] = .ok ([] ++ itemsText [] (t.map (·.2)), d) := by
    intro k
    induction k with
    | zero => exact ht.1
    | succ k ih => exact inlineModule_mono s _ _ _ _ _ ih
  have e := this (n - (fs.length + 1))
  rw [Nat.add_sub_cancel' hn] at e
  unfold inlineRun
  rw [e]

/-- If a file is missing there is no text. -/
theorem C59_missing_partial (s : Sources) (root f : Str) (hs : s.Sound root) (hf : s.Reaches root f) (hm : s.files f = none) (n : Nat) (text : Str) :
    inlineRun s.files s.package s.packagePath n root ≠ .ok text :=
  fun h => (C59_joined_partial s root text n hs h).2 f hf hm

/-- An import line of the package: the name is what stands between `from` and the first ` import` that is followed by something. -/
def Spec.ImportsFrom (line name : Str) : Prop := name ≠ [] ∧ '\n' ∉ name ∧ ∃ c r, c ≠ '\n' ∧ line = c!"from " ++ name ++ c!" import" ++ c :: r

theorem fromGroup_iff : ∀ (r pre name : Str), fromGroup pre r = some name ↔
    (∃ x, name = pre ++ x ∧ '\n' ∉ x ∧ name ≠ [] ∧ (∃ c q, c ≠ '\n' ∧ r = x ++ c!" import" ++ c :: q) ∧
      ∀ y, y.length < x.length → pre ++ y ≠ [] → ¬ ∃ c q, c ≠ '\n' ∧ r = y ++ c!" import" ++ c :: q) := by
  intro r
  induction r with
  | nil =>
    intro pre name
    refine ⟨fun h => (by cases h), ?_⟩
    rintro ⟨x, _, _, _, ⟨c, q, _, h⟩, _⟩
    simp at h
  | cons a r ih =>
    intro pre name
    rw [fromGroup]
    have here : (pre ≠ [] ∧ Str.startsWith (a :: r) c!" import" ∧ ((a :: r).drop 7).head?.any (· ≠ '\n')) ↔
        (pre ≠ [] ∧ ∃ c q, c ≠ '\n' ∧ a :: r = c!" import" ++ c :: q) := by
      refine and_congr_right fun _ => ?_
      constructor
      · rintro ⟨h1, h2⟩
        obtain ⟨u, hu⟩ := List.isPrefixOf_iff_prefix.1 h1
        rw [← hu] at h2 ⊢
        cases u with
        | nil => cases h2
        | cons c q =>
          refine ⟨c, q, ?_, rfl⟩
          simpa using h2
      · rintro ⟨c, q, hc, e⟩
        rw [e]
        refine ⟨List.isPrefixOf_iff_prefix.2 ⟨c :: q, rfl⟩, ?_⟩
        simpa using hc
    by_cases h1 : pre ≠ [] ∧ ∃ c q, c ≠ '\n' ∧ a :: r = c!" import" ++ c :: q
    · rw [if_pos (here.2 h1)]
      constructor
      · intro h
        cases h
        exact ⟨[], by simp, by simp, h1.1, by simpa using h1.2, fun y hy => by simp at hy⟩
      · rintro ⟨x, e, _, _, _, hmin⟩
        cases x with
        | nil => rw [e, List.append_nil]
        | cons b x =>
          refine absurd ?_ (hmin [] (by simp) (by simpa using h1.1))
          simpa using h1.2
    · rw [if_neg (fun h => h1 (here.1 h))]
      by_cases h2 : a = '\n'
      · rw [if_pos h2]
        refine ⟨fun h => (by cases h), ?_⟩
        rintro ⟨x, e, hx, hne, hc, _⟩
        exfalso
        cases x with
        | nil => exact h1 ⟨by simpa [e] using hne, by simpa using hc⟩
        | cons b x =>
          obtain ⟨c, q, _, hc⟩ := hc
          have : a = b := (List.cons.inj hc).1
          exact hx (by rw [← h2, this]; exact List.mem_cons_self)
      · rw [if_neg h2, ih]
        constructor
        · rintro ⟨x, e, hx, hne, ⟨c, q, hc, hr⟩, hmin⟩
          refine ⟨a :: x, by rw [e]; simp, by simpa using ⟨fun e => h2 e.symm, hx⟩, hne, ⟨c, q, hc, by rw [hr]; rfl⟩, ?_⟩
          rintro y hy hpy ⟨c', q', hc', hr'⟩
          cases y with
          | nil => exact h1 ⟨by simpa using hpy, c', q', hc', by simpa using hr'⟩
          | cons b y =>
            obtain ⟨e1, e2⟩ := List.cons.inj hr'
            subst e1
            exact hmin y (by simpa using hy) (by simp) ⟨c', q', hc', e2⟩
        · rintro ⟨x, e, hx, hne, ⟨c, q, hc, hr⟩, hmin⟩
          cases x with
          | nil => exact absurd ⟨by simpa [e] using hne, c, q, hc, by simpa using hr⟩ h1
          | cons b x =>
            obtain ⟨e1, e2⟩ := List.cons.inj hr
            subst e1
            refine ⟨x, by rw [e]; simp, fun h => hx (List.mem_cons_of_mem _ h), hne, ⟨c, q, hc, e2⟩, ?_⟩
            rintro y hy hpy ⟨c', q', hc', hr'⟩
            exact hmin (a :: y) (by simpa using hy) (by simp) ⟨c', q', hc', by rw [hr']; rfl⟩

/-- The name in an import line. -/
theorem C59_import_line (line name : Str) :
    fromImport line = some name ↔ ImportsFrom line name ∧ ∀ other, other.length < name.length → ¬ ImportsFrom line other := by
  have key : ∀ x : Str, (∃ c q, c ≠ '\n' ∧ line = c!"from " ++ x ++ c!" import" ++ c :: q) ↔
      (c!"from " <+: line ∧ ∃ c q, c ≠ '\n' ∧ line.drop 5 = x ++ c!" import" ++ c :: q) := by
    intro x
    constructor
    · rintro ⟨c, q, hc, e⟩
      exact ⟨⟨_, by rw [e]; simp; rfl⟩, c, q, hc, by rw [e]; rfl⟩
    · rintro ⟨⟨u, hu⟩, c, q, hc, e⟩
      refine ⟨c, q, hc, ?_⟩
      rw [← hu] at e ⊢
      have e : u = x ++ c!" import" ++ c :: q := e
      rw [e]; simp
  unfold fromImport
  by_cases h : Str.startsWith line c!"from " = true
  · have hp : c!"from " <+: line := List.isPrefixOf_iff_prefix.1 h
    rw [if_pos h, fromGroup_iff]
    unfold ImportsFrom
    simp only [key, hp, true_and, List.nil_append]
    constructor
    · rintro ⟨x, e, hx, hne, hc, hmin⟩
      subst e
      exact ⟨⟨hne, hx, hc⟩, fun y hy hq => hmin y hy hq.1 hq.2.2⟩
    · rintro ⟨⟨hne, hx, hc⟩, hmin⟩
      refine ⟨name, rfl, hx, hne, hc, fun y hy hyne hyc => hmin y hy ⟨hyne, ?_, hyc⟩⟩
      obtain ⟨c, q, _, e1⟩ := hc
      obtain ⟨c', q', _, e2⟩ := hyc
      intro hn
      have : y <+: name := by
        rw [e1, List.append_assoc, List.append_assoc] at e2
        have p1 : y <+: name ++ (c!" import" ++ c :: q) := ⟨_, e2.symm⟩
        have p2 : name <+: name ++ (c!" import" ++ c :: q) := ⟨_, rfl⟩
        exact List.prefix_of_prefix_length_le p1 p2 (Nat.le_of_lt hy)
      exact hx (this.subset hn)
  · rw [if_neg h]
    refine ⟨fun h => (by cases h), ?_⟩
    rintro ⟨⟨_, _, hc⟩, _⟩
    exact absurd (List.isPrefixOf_iff_prefix.2 ((key name).1 hc).1) h

/-- An application with three modules; two of them need each other. -/
def demoSources : Sources where
  package := c!"pywriter"
  packagePath := c!"../lib/"
  files f :=
    if f = c!"../src/app.py" then some c!"#!/usr/bin/python3\n\"\"\"The app.\n\"\"\"\nimport os\nfrom pywriter.b.y import Y\nfrom pywriter.a import A\nA(Y, os)\n"
    else if f = c!"../lib/pywriter\\/b\\/y.py" then some c!"\"\"\"A module.\n\nimport nothing\n\"\"\"\r\nimport os\nfrom pywriter.a import A\nclass Y:\n    # comment\n    y = A\n"
    else if f = c!"../lib/pywriter\\/a.py" then some c!"from pywriter.c import C\nfrom pywriter.b.y import Y\nA = C\nif __name__ == '__main__':\n    A()\n"
    else if f = c!"../lib/pywriter\\/c.py" then some c!"from os import path\nC = 1\n"
    else none

def demoFiles : List Str := [c!"../src/app.py", c!"../lib/pywriter\\/b\\/y.py", c!"../lib/pywriter\\/a.py", c!"../lib/pywriter\\/c.py"]

set_option maxRecDepth 100000 in
theorem demo_closed : ∀ g ∈ demoFiles, ∀ i ∈ demoSources.items g, (match i with | .needs m => decide (moduleFile m ∈ demoFiles) | _ => true) = true := by
  decide +kernel

theorem demo_reaches {f : Str} (h : demoSources.Reaches c!"../src/app.py" f) : f ∈ demoFiles := by
  induction h with
  | refl => decide
  | step _ hm ih => simpa using demo_closed _ ih _ hm

set_option maxRecDepth 100000 in
theorem demo_main : ∀ g ∈ demoFiles, ∀ i ∈ demoSources.items g, (match i with | .needs m => decide (moduleFile m ≠ c!"../src/app.py") | _ => true) = true := by
  decide +kernel

set_option maxRecDepth 100000 in
theorem demo_names : ∀ g ∈ demoFiles, ∀ i ∈ demoSources.items g, (match i with | .std _ n => decide (n = c!"os") | .needs m => decide (m ≠ c!"os") | _ => true) = true := by
  decide +kernel

theorem demo_sound : demoSources.Sound c!"../src/app.py" where
  main f m hf hm := by simpa using demo_main f (demo_reaches hf) _ hm
  names f g m line hf hg hm hl := by
    have h1 := demo_names f (demo_reaches hf) _ hm
    have h2 := demo_names g (demo_reaches hg) _ hl
    simp only [decide_eq_true_eq] at h1 h2
    exact h1 h2

set_option maxRecDepth 100000 in
/-- The hypotheses are met by this application, and this is its script. -/
theorem C59_demo : demoSources.Sound c!"../src/app.py" ∧ (∀ f, demoSources.Reaches c!"../src/app.py" f → f ∈ demoFiles ∧ demoSources.files f ≠ none) ∧
    (inlineRun demoSources.files demoSources.package demoSources.packagePath 5 c!"../src/app.py").toOption =
      some c!"#!/usr/bin/python3\n\"\"\"The app.\n\"\"\"\nimport os\nfrom os import path\nC = 1\nA = C\nclass Y:\n    y = A\nA(Y, os)\n" := by
  refine ⟨demo_sound, fun f hf => ⟨demo_reaches hf, ?_⟩, by decide +kernel⟩
  have : ∀ g ∈ demoFiles, demoSources.files g ≠ none := by decide +kernel
  exact this f (demo_reaches hf)

/-- Two functions, in two modules, that import the same module for themselves. -/
def localImports : Sources where
  package := c!"pywriter"
  packagePath := c!""
  files f :=
    if f = c!"app.py" then some c!"from pywriter.a import f\ndef g():\n    import re\n    return re\n"
    else if f = c!"pywriter\\/a.py" then some c!"def f():\n    import re\n    return re\n"
    else none

set_option maxRecDepth 100000 in
/-- False in general: that each function keeps its own imports. The second function loses the import and fails when it is called. -/
theorem C59_local_import_lost : (inlineRun localImports.files localImports.package localImports.packagePath 5 c!"app.py").toOption =
      some c!"def f():\n    import re\n    return re\ndef g():\n    return re\n" := by decide +kernel

/-- A module whose last line has no line end. -/
def noLineEnd : Sources where
  package := c!"pywriter"
  packagePath := c!""
  files f :=
    if f = c!"app.py" then some c!"from pywriter.a import A\nB = A\n"
    else if f = c!"pywriter\\/a.py" then some c!"A = 1"
    else none

set_option maxRecDepth 100000 in
/-- False in general: that the lines of the files are lines of the script. The last line of a module without a line end runs into the next line. -/
theorem C59_lines_run_together : (inlineRun noLineEnd.files noLineEnd.package noLineEnd.packagePath 5 c!"app.py").toOption = some c!"A = 1B = A\n" := by
  decide +kernel

/-- A main script that belongs to the package and is needed by a module. -/
def mainNeeded : Sources where
  package := c!"pywriter"
  packagePath := c!""
  files f :=
    if f = c!"pywriter\\/app.py" then some c!"from pywriter.a import A\nB = 1\n"
    else if f = c!"pywriter\\/a.py" then some c!"from pywriter.app import B\nA = 1\n"
    else none

set_option maxRecDepth 100000 in
/-- Why the main script must not be needed by a module: it would be there twice. -/
theorem C59_main_twice : (inlineRun mainNeeded.files mainNeeded.package mainNeeded.packagePath 5 c!"pywriter\\/app.py").toOption =
      some c!"B = 1\nA = 1\nB = 1\n" := by
  decide +kernel

set_option maxRecDepth 100000 in
/-- A text in three double quotation marks is lost, also if it is not a docstring. -/
theorem C59_text_lost : usedLines true [c!"a = \"\"\"text\"\"\"\n", c!"b = 1\n"] = [c!"b = 1\n"] := by decide +kernel

set_option maxRecDepth 100000 in
/-- The name of a module's file has a backslash before each slash, which only Windows takes for one separator. -/
theorem C59_backslash : moduleNamed c!"pywriter" c!"../src/" c!"from pywriter.model.novel import Novel\n" = some c!"../src/pywriter\\/model\\/novel" := by
  decide +kernel

end Verif
