/-
C27, C40 and C42: paths decide about conversions.
-/
import Verif.Props.C26_C28_Converter

namespace Verif
open Prog Spec Path

variable {ν : Type}

/-! ### C40 -/

/-- **C40**: assigning a path takes effect exactly if the path ends with the suffix and the extension of the file type, ignoring
case; backslashes count as slashes. Otherwise the old path is kept. -/
theorem C40_setPath (d : Doc) (path : Str) :
    (EndsIgnoringCase (slashes path) (d.cls.suffix.getD [] ++ d.cls.ext) → d.setPath path = ⟨d.cls, some (slashes path)⟩) ∧
    (¬ EndsIgnoringCase (slashes path) (d.cls.suffix.getD [] ++ d.cls.ext) → d.setPath path = d) := by
  constructor
  · intro h
    unfold Doc.setPath DocClass.ending
    dsimp only
    rw [if_pos ((endsIgnoringCase_iff _ _).2 h)]
  · intro h
    unfold Doc.setPath DocClass.ending
    dsimp only
    rw [if_neg (fun h' => h ((endsIgnoringCase_iff _ _).1 h'))]

/-- Any sequence of assignments: the path is always one that the type accepts, or the initial one. -/
theorem C40_history (c : DocClass) (paths : List Str) (p : Str) (h : (paths.foldl Doc.setPath ⟨c, none⟩).filePath = some p) :
    EndsIgnoringCase p (c.suffix.getD [] ++ c.ext) := by
  have key : ∀ (paths : List Str) (d : Doc), d.cls = c → (∀ p, d.filePath = some p → EndsIgnoringCase p (c.suffix.getD [] ++ c.ext)) →
      ∀ p, (paths.foldl Doc.setPath d).filePath = some p → EndsIgnoringCase p (c.suffix.getD [] ++ c.ext) := by
    intro paths
    induction paths with
    | nil => intro d _ h; exact h
    | cons x r ih =>
      intro d hd h
      refine ih (d.setPath x) ?_ ?_
      · unfold Doc.setPath; dsimp only; split <;> exact hd
      · intro p hp
        by_cases he : EndsIgnoringCase (slashes x) (d.cls.suffix.getD [] ++ d.cls.ext)
        · rw [(C40_setPath d x).1 he] at hp
          injection hp with hp
          rw [← hp, ← hd]; exact he
        · rw [(C40_setPath d x).2 he] at hp
          exact h p hp
  exact key paths ⟨c, none⟩ rfl (fun p h => by cases h) p h

example : Doc.setPath ⟨odt c!"_notes", some c!"a_notes.odt"⟩ c!"C:\\B_Notes.ODT" = ⟨odt c!"_notes", some c!"C:/B_Notes.ODT"⟩ ∧
    Doc.setPath ⟨odt c!"_notes", some c!"a_notes.odt"⟩ c!"b_notes.ods" = ⟨odt c!"_notes", some c!"a_notes.odt"⟩ := by decide

/-! ### C27 -/

theorem hasName_append {f e : Str} (h : HasName f) (he : '/' ∉ e) : HasName (f ++ e) := by
  obtain ⟨d, n, hp, hn, c, hc, hcd⟩ := h
  refine ⟨d, n ++ e, ?_, ?_, c, by simp [hc], hcd⟩
  · rcases hp with rfl | rfl
    · exact Or.inl rfl
    · exact Or.inr (by simp)
  · rw [List.mem_append]; exact fun h => h.elim hn he

/-- The classes that can be written back. -/
theorem sources_shape : ∀ c ∈ importSources, ∃ r e, c.suffix = some ('_' :: r) ∧ c.ext = '.' :: e ∧ '_' ∉ r ∧ '/' ∉ r ∧ '\\' ∉ r ∧
    (∀ x ∈ e, x ≠ '.' ∧ x ≠ '/') ∧ '.' :: e ≠ c!".yw7" ∧ c ∈ exportTargets ∧
    ∀ c' ∈ exportTargets, c'.suffix = c.suffix → c' = c := by
  have : (importSources.all fun c => match c.suffix, c.ext with
      | some ('_' :: r), '.' :: e => decide ('_' ∉ r ∧ '/' ∉ r ∧ '\\' ∉ r ∧ (∀ x ∈ e, x ≠ '.' ∧ x ≠ '/') ∧ '.' :: e ≠ c!".yw7" ∧ c ∈ exportTargets) &&
          exportTargets.all (fun c' => !decide (c'.suffix = c.suffix) || decide (c' = c))
      | _, _ => false) = true := by decide +kernel
  rw [List.all_eq_true] at this
  intro c hc
  have := this c hc
  split at this
  · next r e h1 h2 =>
    rw [Bool.and_eq_true, decide_eq_true_eq, List.all_eq_true] at this
    obtain ⟨⟨a1, a2, a3, a4, a5, a6⟩, a7⟩ := this
    refine ⟨r, e, h1, h2, a1, a2, a3, a4, a5, a6, fun c' hc' hs => ?_⟩
    have := a7 c' hc'
    rw [Bool.or_eq_true, Bool.not_eq_true', decide_eq_false_iff_not, decide_eq_true_eq] at this
    exact this.resolve_left (fun h => h hs)
  · cases this

theorem find_unique {α : Type} {p : α → Bool} {l : List α} {a : α} (ha : a ∈ l) (hp : p a = true) (hu : ∀ b ∈ l, p b = true → b = a) :
    l.find? p = some a := by
  cases hf : l.find? p with
  | none => exact absurd hp (List.find?_eq_none.1 hf a ha)
  | some b => rw [hu b (List.mem_of_find?_eq_some hf) (List.find?_some hf)]

/-- The document a project is exported to. -/
theorem export_path (c : DocClass) (hc : c ∈ importSources) (base : Str) (hn : HasName base) (hb : '\\' ∉ base) :
    exportTarget exportTargets (base ++ c!".yw7") c.suffix = some ⟨c, some (base ++ c.ending)⟩ := by
  obtain ⟨r, e, h1, h2, h3, h4, h5, h6, h7, h8, h9⟩ := sources_shape c hc
  unfold exportTarget
  rw [find_unique h8 (by simp) (fun c' hc' hs => h9 c' hc' (by simpa using hs))]
  have hsp : splitext (base ++ c!".yw7") = (base, c!".yw7") := splitext_append hn (by decide)
  simp only [Option.map, hsp]
  have hpl : '\\' ∉ base ++ c.suffix.getD [] ++ c.ext := by
    have := (sources_plain c hc).1
    rw [List.append_assoc, List.mem_append]
    exact fun h => h.elim hb this
  have he : slashes (base ++ c.suffix.getD [] ++ c.ext) = base ++ c.suffix.getD [] ++ c.ext := slashes_id hpl
  have hends : c.ending <:+ slashes (base ++ c.suffix.getD [] ++ c.ext) := by
    rw [he]; exact ⟨base, by unfold DocClass.ending; rw [List.append_assoc]⟩
  rw [mkDoc_eq hends, he]
  unfold DocClass.ending
  rw [List.append_assoc]

/-- How the exported document is treated. -/
theorem import_plan (c : DocClass) (hc : c ∈ importSources) (base : Str) (hn : HasName base) (hb : '\\' ∉ base) (cx : Str → Option Str)
    (norm : Str → Str) (fs : FS) (suffix : Option Str) :
    plan yw7Converter cx norm fs (base ++ c.ending) suffix =
      match importTarget fs (base ++ c.ending) c.suffix with
      | some t => .ok (.update ⟨c, some (base ++ c.ending)⟩ t)
      | none => .ok (.refuse c!"No yWriter project to write.") := by
  obtain ⟨r, e, h1, h2, h3, h4, h5, h6, h7, h8, h9⟩ := sources_shape c hc
  have hsp : splitext (base ++ c.ending) = (base ++ c.suffix.getD [], c.ext) := by
    have hsfx : '/' ∉ c.suffix.getD [] := by rw [h1]; simp [h4]
    have := splitext_append (e := e) (hasName_append hn hsfx) h6
    unfold DocClass.ending
    rw [h2, ← List.append_assoc]; exact this
  have hes : exportSource (base ++ c.ending) = none := by
    unfold exportSource
    rw [hsp, if_neg]
    rw [h2]; exact h7
  have hpl : '\\' ∉ base ++ c.ending := by
    rw [List.mem_append]; exact fun h => h.elim hb (sources_plain c hc).1
  have his : importSource importSources (base ++ c.ending) = some ⟨c, some (base ++ c.ending)⟩ := by
    rw [importSource_eq hc ⟨base, rfl⟩, mkDoc_eq (by rw [slashes_id hpl]; exact ⟨base, rfl⟩), slashes_id hpl]
  unfold plan
  rw [hes]
  have hsrc : yw7Converter.sources = importSources := rfl
  simp only [hsrc, his]
  cases importTarget fs (base ++ c.ending) c.suffix <;> rfl

/-- **C27, partial**: a document exported from a project is written back to this project, if the name of the project
file does not contain the suffix of the document. (The general claim is refuted by `C27_false`.) -/
theorem C27_partial (c : DocClass) (hc : c ∈ importSources) (base : Str) (hn : HasName base) (hb : '\\' ∉ base)
    (hfree : ∀ s, c.suffix = some s → ¬ s <:+: base) (cx : Str → Option Str) (norm : Str → Str) (fs : FS) (suffix : Option Str)
    (hex : fs (base ++ c!".yw7") ≠ none) :
    ∃ doc, exportTarget exportTargets (base ++ c!".yw7") c.suffix = some ⟨c, some doc⟩ ∧
      plan yw7Converter cx norm fs doc suffix = .ok (.update ⟨c, some doc⟩ ⟨yw7Class, some (base ++ c!".yw7")⟩) := by
  refine ⟨base ++ c.ending, export_path c hc base hn hb, ?_⟩
  rw [import_plan c hc base hn hb]
  obtain ⟨r, e, h1, h2, h3, h4, h5, h6, h7, h8, h9⟩ := sources_shape c hc
  have hsfx : '/' ∉ c.suffix.getD [] := by rw [h1]; simp [h4]
  have hsp : splitext (base ++ c.ending) = (base ++ c.suffix.getD [], c.ext) := by
    have := splitext_append (e := e) (hasName_append hn hsfx) h6
    unfold DocClass.ending
    rw [h2, ← List.append_assoc]; exact this
  have hbas : ywBasis (base ++ '_' :: r) (some ('_' :: r)) = base :=
    ywBasis_free (by simp) (borderFree_cons h3) (hfree _ h1)
  have hit : importTarget fs (base ++ c.ending) c.suffix = some ⟨yw7Class, some (base ++ c!".yw7")⟩ := by
    unfold importTarget
    rw [hsp, h1]
    show (if (fs (ywBasis (base ++ '_' :: r) (some ('_' :: r)) ++ c!".yw7")).isSome then
      some (mkDoc yw7Class (ywBasis (base ++ '_' :: r) (some ('_' :: r)) ++ c!".yw7")) else none) = _
    rw [hbas, if_pos (by rw [Option.isSome_iff_ne_none]; exact hex)]
    have hpl : '\\' ∉ base ++ c!".yw7" := by rw [List.mem_append]; exact fun h => h.elim hb (by decide)
    rw [mkDoc_eq (by rw [slashes_id hpl]; exact ⟨base, rfl⟩), slashes_id hpl]
  rw [hit]

/-- **C27, the exact condition**: if the name of the project contains the suffix, the document is never written back to the
project it comes from. -/
theorem C27_exact (c : DocClass) (hc : c ∈ importSources) (base : Str) (hn : HasName base) (hb : '\\' ∉ base) (s : Str) (hs : c.suffix = some s)
    (hin : s <:+: base) (cx : Str → Option Str) (norm : Str → Str) (fs : FS) (suffix : Option Str) (src t : Doc)
    (h : plan yw7Converter cx norm fs (base ++ c.ending) suffix = .ok (.update src t)) : t.filePath ≠ some (base ++ c!".yw7") := by
  intro ht
  rw [import_plan c hc base hn hb] at h
  obtain ⟨r, e, h1, h2, h3, h4, h5, h6, h7, h8, h9⟩ := sources_shape c hc
  have hsfx : '/' ∉ c.suffix.getD [] := by rw [h1]; simp [h4]
  have hsp : splitext (base ++ c.ending) = (base ++ c.suffix.getD [], c.ext) := by
    have := splitext_append (e := e) (hasName_append hn hsfx) h6
    unfold DocClass.ending
    rw [h2, ← List.append_assoc]; exact this
  rw [h1] at hs
  injection hs with hs
  subst hs
  cases hit : importTarget fs (base ++ c.ending) c.suffix with
  | none => rw [hit] at h; injection h with h; cases h
  | some t' =>
    rw [hit] at h
    injection h with h; injection h with _ h; subst h
    unfold importTarget at hit
    rw [hsp, h1] at hit
    dsimp only at hit
    split at hit
    · injection hit with hit
      rw [← hit] at ht
      have := mkDoc_path ht
      rw [slashes_append] at this
      have hl := congrArg List.length this
      unfold slashes at hl
      simp only [List.length_append, List.length_map] at hl
      refine ywBasis_length (base := base) (s := '_' :: r) (by simp) ?_ hin
      have e4 : yw7Class.ext.length = 4 := rfl
      have e5 : (c!".yw7" : Str).length = 4 := rfl
      rw [e4] at hl
      have : base.length = (ywBasis (base ++ (some ('_' :: r)).getD []) (some ('_' :: r))).length := by
        simpa using hl
      exact this.symm
    · cases hit

/-- **C27 is false in general**: notes exported from the project `test_notes.yw7` are imported into the project `test.yw7`. -/
theorem C27_false :
    let fs : FS := fun q => if q = c!"test_notes.yw7" then some c!"A" else if q = c!"test.yw7" then some c!"B" else none
    exportTarget exportTargets c!"test_notes.yw7" (some c!"_notes") = some ⟨odt c!"_notes", some c!"test_notes_notes.odt"⟩ ∧
    plan yw7Converter (fun _ => none) id fs c!"test_notes_notes.odt" none =
      .ok (.update ⟨odt c!"_notes", some c!"test_notes_notes.odt"⟩ ⟨yw7Class, some c!"test.yw7"⟩) := ⟨by decide +kernel, rfl⟩

/-- A related finding: the manuscript exported without suffix from the project `my_notes.yw7` is taken for the notes of the
project `my.yw7`. -/
theorem C27_false_plain :
    let fs : FS := fun q => if q = c!"my_notes.yw7" then some c!"A" else if q = c!"my.yw7" then some c!"B" else none
    exportTarget exportTargets c!"my_notes.yw7" (some c!"") = some ⟨odt c!"", some c!"my_notes.odt"⟩ ∧
    plan yw7Converter (fun _ => none) id fs c!"my_notes.odt" none =
      .ok (.update ⟨odt c!"_notes", some c!"my_notes.odt"⟩ ⟨yw7Class, some c!"my.yw7"⟩) := ⟨by decide +kernel, rfl⟩

/-- The condition of `C27_partial` is met by ordinary names. -/
example : HasName c!"/home/me/my.novel" ∧ '\\' ∉ c!"/home/me/my.novel" ∧ odt c!"_manuscript" ∈ importSources ∧
    ∀ s, (odt c!"_manuscript").suffix = some s → ¬ s <:+: c!"/home/me/my.novel" := by
  refine ⟨⟨c!"/home/me", c!"my.novel", Or.inr rfl, by decide, 'm', by decide, by decide⟩, by decide, by decide, ?_⟩
  intro s h
  injection h with h
  subst h
  intro h
  have : '_' ∈ c!"/home/me/my.novel" := h.subset (by decide)
  exact absurd this (by decide)

/-! ### C42 -/

/-- **C42**: a project is exported or refused, never imported. -/
theorem C42_yw7 (cfg : Config) (cx : Str → Option Str) (norm : Str → Str) (fs : FS) (f : Str) (hn : HasName f) (suffix : Option Str) :
    (∃ c ∈ cfg.targets, c.suffix = suffix ∧ plan cfg cx norm fs (f ++ c!".yw7") suffix =
      .ok (.export ⟨yw7Class, some (slashes (f ++ c!".yw7"))⟩ (mkDoc c (f ++ c.suffix.getD [] ++ c.ext)))) ∨
    ((∀ c ∈ cfg.targets, c.suffix ≠ suffix) ∧ ∃ m, plan cfg cx norm fs (f ++ c!".yw7") suffix = .ok (.refuse m)) := by
  have hsp : splitext (f ++ c!".yw7") = (f, c!".yw7") := splitext_append hn (by decide)
  have hes : exportSource (f ++ c!".yw7") = some ⟨yw7Class, some (slashes (f ++ c!".yw7"))⟩ := by
    unfold exportSource
    rw [hsp, ← mkDoc_eq (c := yw7Class) (by rw [slashes_append]; exact ⟨_, rfl⟩)]
    rfl
  unfold plan exportTarget
  rw [hes]
  cases hf : cfg.targets.find? (fun c => c.suffix = suffix) with
  | none =>
    refine Or.inr ⟨fun c hc hs => ?_, _, rfl⟩
    have := List.find?_eq_none.1 hf c hc
    simp [hs] at this
  | some c =>
    have h1 : c.suffix = suffix := by simpa using List.find?_some hf
    refine Or.inl ⟨c, List.mem_of_find?_eq_some hf, h1, ?_⟩
    simp only [Option.map, hsp, h1]

/-- **C42**: a document of a known type is used to update a project or refused; the type is the only one the name ends with. -/
theorem C42_known (cx : Str → Option Str) (norm : Str → Str) (fs : FS) (c : DocClass) (hc : c ∈ importSources) (path : Str)
    (h : c.suffix.getD [] ++ c.ext <:+ path) (suffix : Option Str) (hy : (splitext path).2 ≠ c!".yw7") :
    ((∃ p, plan yw7Converter cx norm fs path suffix = .ok (.update ⟨c, some (slashes path)⟩ ⟨yw7Class, some p⟩)) ∨
      plan yw7Converter cx norm fs path suffix = .ok (.refuse c!"No yWriter project to write.")) ∧
    ∀ c' ∈ importSources, c'.suffix.getD [] ++ c'.ext <:+ path → c' = c := by
  constructor
  · have hes : exportSource path = none := by unfold exportSource; exact if_neg hy
    have his : importSource importSources path = some ⟨c, some (slashes path)⟩ := by
      rw [importSource_eq hc h, mkDoc_eq (suffix_slashes (sources_plain c hc).1 h)]
    unfold plan
    rw [hes]
    have hsrc : yw7Converter.sources = importSources := rfl
    simp only [hsrc, his]
    cases hit : importTarget fs path c.suffix with
    | none => exact Or.inr rfl
    | some t =>
      obtain ⟨b, rfl⟩ := importTarget_some hit
      exact Or.inl ⟨_, rfl⟩
  · intro c' hc' h'
    rcases suffix_total h' h with h1 | h1
    · exact ending_unique c' hc' c hc h1
    · exact (ending_unique c hc c' hc' h1).symm

/-- The endings of documents that are not meant to be written back. -/
def NotWrittenBack (path : Str) : Prop := c!"_xref" <:+ (splitext path).1 ∨ c!"_brf_synopsis" <:+ (splitext path).1

/-- **C42**: any other file is refused unless it is an intact text document; cross references and synopses are always refused. -/
theorem C42_other (cx : Str → Option Str) (norm : Str → Str) (fs : FS) (path : Str) (suffix : Option Str) (hy : (splitext path).2 ≠ c!".yw7")
    (hno : ∀ c ∈ importSources, ¬ c.suffix.getD [] ++ c.ext <:+ path) :
    (¬ NotWrittenBack path ∧ c!".odt" <:+ path ∧ (∃ t xml, fs path = some t ∧ cx t = some xml) ∧
      plan yw7Converter cx norm fs path suffix = .ok (.create ⟨odt [], some (slashes path)⟩ ⟨yw7Class, some (slashes ((splitext path).1 ++ c!".yw7"))⟩)) ∨
    ((NotWrittenBack path ∨ ¬ c!".odt" <:+ path ∨ fs path = none ∨ ∃ t, fs path = some t ∧ cx t = none) ∧
      ∃ m, plan yw7Converter cx norm fs path suffix = .ok (.refuse m)) := by
  have hes : exportSource path = none := by unfold exportSource; exact if_neg hy
  have his : importSource importSources path = none := importSource_none hno
  have hpl : plan yw7Converter cx norm fs path suffix = .ok (newProject cx norm fs path) := by
    unfold plan
    rw [hes]
    have hsrc : yw7Converter.sources = importSources := rfl
    simp only [hsrc, his]
    rfl
  rw [hpl]
  by_cases h1 : NotWrittenBack path
  · refine Or.inr ⟨Or.inl h1, c!"This document is not meant to be written back.", ?_⟩
    unfold newProject
    dsimp only
    rw [if_pos]
    rw [Bool.or_eq_true, endsWith_iff, endsWith_iff]; exact h1
  · by_cases h2 : c!".odt" <:+ path
    · cases hb : (fs path).bind cx with
      | none =>
        refine Or.inr ⟨?_, c!"Cannot read file: \"" ++ norm path ++ c!"\".", ?_⟩
        · refine Or.inr (Or.inr ?_)
          cases hx : fs path with
          | none => exact Or.inl rfl
          | some t => rw [hx] at hb; exact Or.inr ⟨t, rfl, hb⟩
        · unfold newProject
          dsimp only
          rw [if_neg (by rw [Bool.or_eq_true, endsWith_iff, endsWith_iff]; exact h1), if_pos ((endsWith_iff _ _).2 h2), hb]
      | some xml =>
        refine Or.inl ⟨h1, h2, ?_, ?_⟩
        · cases hx : fs path with
          | none => rw [hx] at hb; cases hb
          | some t => rw [hx] at hb; exact ⟨t, xml, rfl, hb⟩
        · have hnp : newProject cx norm fs path = .create (mkDoc (odt []) path) (mkDoc yw7Class ((splitext path).1 ++ c!".yw7")) := by
            unfold newProject
            dsimp only
            rw [if_neg (by rw [Bool.or_eq_true, endsWith_iff, endsWith_iff]; exact h1), if_pos ((endsWith_iff _ _).2 h2), hb]
          obtain ⟨_, e1, e2⟩ := newProject_create hnp
          rw [hnp, e1, e2]
    · refine Or.inr ⟨Or.inr (Or.inl h2), c!"File type is not supported: \"" ++ norm path ++ c!"\".", ?_⟩
      unfold newProject
      dsimp only
      rw [if_neg (by rw [Bool.or_eq_true, endsWith_iff, endsWith_iff]; exact h1), if_neg (fun h => h2 ((endsWith_iff _ _).1 h))]

/-- **C42**: a file that is refused or missing is reported as an error, and the file system is not touched. -/
theorem C42_refused (env : Env ν) (cfg : Config) (path : Str) (suffix : Option Str) (fs : FS) (faults : List Fault)
    (h : fs path = none ∨ ∃ m, plan cfg env.contentXml env.norm fs path suffix = .ok (.refuse m)) :
    (run env cfg path suffix fs faults).2 = (fs, faults) ∧ ∃ m, (run env cfg path suffix fs faults).1 = .ok { newFile := none, how := c!"FAIL: " ++ m } := by
  unfold run
  cases hx : fs path with
  | none => exact ⟨rfl, _, rfl⟩
  | some c =>
    rw [hx] at h
    obtain ⟨m, h⟩ := h.resolve_left (by simp)
    simp only [h]
    exact ⟨rfl, _, rfl⟩

/-- A finding: the exporter alone, given a file that is not a project, raises an exception instead of reporting an error. -/
theorem C42_exporter_raises (env : Env ν) (path c : Str) (suffix : Option Str) (fs : FS) (faults : List Fault) (hy : (splitext path).2 ≠ c!".yw7")
    (hex : fs path = some c) : run env yw7Exporter path suffix fs faults = (.err .attributeError, fs, faults) := by
  have hes : exportSource path = none := by unfold exportSource; exact if_neg hy
  unfold run plan
  rw [hex, hes]
  rfl

/-- Examples of the four cases. -/
example :
    let fs : FS := fun q => if q = c!"a.yw7" then some c!"x" else if q = c!"b.odt" then some c!"y" else none
    let cx : Str → Option Str := some
    plan yw7Converter cx id fs c!"a.yw7" (some c!"_xref") = .ok (.export ⟨yw7Class, some c!"a.yw7"⟩ ⟨odt c!"_xref", some c!"a_xref.odt"⟩) ∧
    plan yw7Converter cx id fs c!"a_itemlist.ods" none = .ok (.update ⟨ods c!"_itemlist", some c!"a_itemlist.ods"⟩ ⟨yw7Class, some c!"a.yw7"⟩) ∧
    plan yw7Converter cx id fs c!"b.odt" none = .ok (.create ⟨odt [], some c!"b.odt"⟩ ⟨yw7Class, some c!"b.yw7"⟩) ∧
    plan yw7Converter cx id fs c!"a_xref.odt" none = .ok (.refuse c!"This document is not meant to be written back.") := ⟨rfl, rfl, rfl, rfl⟩

end Verif
