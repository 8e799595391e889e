/-
C34: does the imported text depend on how the XML parser splits character data into pieces? For outlines it does not. For the other
documents it does, in general: the counterexamples are at the end. What each reader needs for independence is the condition of its
theorem.
-/
import Verif.Lemmas.Chunks6

namespace Verif
open Spec

theorem splitPieces_true (b : Bool) (x : List Ev) : SplitPieces (fun _ => True) b x := by
  induction x generalizing b with
  | nil => trivial
  | cons e x ih =>
    cases e with
    | start t as => exact ih false
    | stop t => exact ih false
    | chars s => exact ⟨fun _ => trivial, ih true⟩

theorem outcome_novel {E : Rd → Rd → Prop} (hE : ∀ a b, E a b → a.novel = b.novel) {x y : Except Exc Rd} (h : SameOutcome E x y) :
    x.map Rd.novel = y.map Rd.novel := by
  cases x <;> cases y <;> simp only [SameOutcome] at h
  · exact congrArg Except.error h
  · exact congrArg Except.ok (hE _ _ h)

theorem outcome_novel2 {x y : Except Exc Rd} (h : SameOutcome SameText2 x y) : UpToTitles (x.map Rd.novel) (y.map Rd.novel) := by
  cases x <;> cases y <;> simp only [SameOutcome] at h
  · exact h
  · obtain ⟨l, d, rfl, _, hd⟩ := h
    exact ⟨hd.symm, rfl⟩

theorem sameText_novel (a b : Rd) (h : SameText a b) : a.novel = b.novel := by obtain ⟨l, rfl, _⟩ := h; rfl
theorem sameText1_novel (a b : Rd) (h : SameText1 a b) : a.novel = b.novel := by obtain ⟨l, rfl, _⟩ := h; rfl

/-- **C34**, outlines: the result does not depend on the division at all. -/
theorem C34_outline (st : XNode) (info : Option XNode) (x y : List Ev) (h : SameDocument x y) (n : Novel) :
    readOdt outlineReader ⟨st, info, x⟩ n = readOdt outlineReader ⟨st, info, y⟩ n := by
  rw [readOdt_state, readOdt_state]
  exact outcome_novel sameText_novel
    (outline_divisible.read h (splitPieces_true _ _) (splitPieces_true _ _) st info n (fun _ _ => trivial))

/-- **C34**, scene descriptions: at most the titles of chapters depend on the division. -/
theorem C34_sceneDesc_partial (st : XNode) (info : Option XNode) (x y : List Ev) (h : SameDocument x y) (n : Novel) :
    UpToTitles (readOdt sceneDescReader ⟨st, info, x⟩ n) (readOdt sceneDescReader ⟨st, info, y⟩ n) := by
  rw [readOdt_state, readOdt_state]
  exact outcome_novel2 (sceneDesc_divisible.read h (splitPieces_true _ _) (splitPieces_true _ _) st info n (fun _ _ => trivial))

/-- **C34**, chapter and part descriptions: the result does not depend on the division if no text is divided at a blank. -/
theorem C34_chapterDesc_partial (st : XNode) (info : Option XNode) (x y : List Ev) (h : SameDocument x y) (hx : SplitPieces Trimmed false x)
    (hy : SplitPieces Trimmed false y) (n : Novel) :
    readOdt chapterDescReader ⟨st, info, x⟩ n = readOdt chapterDescReader ⟨st, info, y⟩ n := by
  rw [readOdt_state, readOdt_state]
  exact outcome_novel sameText_novel (chapterDesc_divisible.read h hx hy st info n (fun _ _ => trivial))

/-- **C34**, character descriptions. -/
theorem C34_characters_partial (st : XNode) (info : Option XNode) (x y : List Ev) (h : SameDocument x y) (hx : SplitPieces Trimmed false x)
    (hy : SplitPieces Trimmed false y) (n : Novel) :
    readOdt charactersReader ⟨st, info, x⟩ n = readOdt charactersReader ⟨st, info, y⟩ n := by
  rw [readOdt_state, readOdt_state]
  exact outcome_novel sameText_novel (characters_divisible.read h hx hy st info n (fun _ _ => trivial))

/-- **C34**, location and item descriptions. -/
theorem C34_world_partial (w : WorldKind) (st : XNode) (info : Option XNode) (x y : List Ev) (h : SameDocument x y)
    (hx : SplitPieces Trimmed false x) (hy : SplitPieces Trimmed false y) (n : Novel) :
    readOdt (worldReader w) ⟨st, info, x⟩ n = readOdt (worldReader w) ⟨st, info, y⟩ n := by
  rw [readOdt_state, readOdt_state]
  exact outcome_novel sameText_novel ((world_divisible w).read h hx hy st info n (fun _ _ => trivial))

/-- **C34**, proof reading: the result does not depend on the division if divided texts contain no bracket (the marks of the scenes are in
one piece). -/
theorem C34_proof_partial (st : XNode) (info : Option XNode) (x y : List Ev) (h : SameDocument x y)
    (hx : SplitPieces (fun s => '[' ∉ s) false x) (hy : SplitPieces (fun s => '[' ∉ s) false y) (n : Novel) :
    readFormatted proofReader ⟨st, info, x⟩ n = readFormatted proofReader ⟨st, info, y⟩ n := by
  unfold readFormatted
  rw [readOdt_state, readOdt_state]
  rw [outcome_novel sameText_novel
    (proof_divisible.read h hx hy st info { n with languages := some [] } (fun cs hcs => ⟨rfl, feedFile_noBreaks hcs⟩))]

/-- **C34**, works in progress: the result does not depend on the division if divided texts contain no asterisk. -/
theorem C34_import_partial (st : XNode) (info : Option XNode) (x y : List Ev) (h : SameDocument x y)
    (hx : SplitPieces (fun s => '*' ∉ s) false x) (hy : SplitPieces (fun s => '*' ∉ s) false y) (n : Novel) :
    readFormatted importReader ⟨st, info, x⟩ n = readFormatted importReader ⟨st, info, y⟩ n := by
  unfold readFormatted
  rw [readOdt_state, readOdt_state]
  rw [outcome_novel sameText1_novel (import_divisible.read h hx hy st info { n with languages := some [] } (fun _ _ => trivial))]

/-- **C34**, manuscripts: if no divided text has a blank piece and there are no headings of level 3 in scenes, at most the titles of
chapters depend on the division. -/
theorem C34_manuscript_partial (type : Nat) (st : XNode) (info : Option XNode) (x y : List Ev) (h : SameDocument x y)
    (hx : SplitPieces NotBlank false x) (hy : SplitPieces NotBlank false y) (n : Novel)
    (h3 : ∀ cs, feedFile ⟨st, info, x⟩ = .ok cs → NoSceneHeading3 false cs) :
    UpToTitles (readOdt (manuscriptReader type) ⟨st, info, x⟩ n) (readOdt (manuscriptReader type) ⟨st, info, y⟩ n) := by
  rw [readOdt_state, readOdt_state]
  exact outcome_novel2 ((manuscript_divisible type).read h hx hy st info n (fun cs hcs => ⟨rfl, h3 cs hcs⟩))

/-! ### Examples, and why the conditions are needed -/

/-- A document with styles for one language. -/
def exStyles : XNode :=
  .elem c!"office:document-styles" [] [.elem c!"office:styles" [] [.elem c!"style:default-style" [(c!"style:family", c!"paragraph")]
    [.elem c!"style:text-properties" [(c!"fo:language", c!"de"), (c!"fo:country", c!"AT")] []]]]

/-- A section with one paragraph, whose text comes in the given pieces. -/
def exSection (name : Str) (pieces : List Str) : List Ev :=
  [.start c!"text:section" [(c!"text:name", name)], .start c!"text:p" [(c!"text:style-name", c!"Text_20_body")]] ++ pieces.map Ev.chars ++
    [.stop c!"text:p", .stop c!"text:section"]

/-- A novel with one chapter and one scene. -/
def exChunkNovel : Novel :=
  { chapters := [(c!"1", { title := some c!"One", srtScenes := [c!"1"] })], srtChapters := [c!"1"], scenes := [(c!"1", { title := some c!"S" })] }

/-- The content of the scene. -/
def exContent (r : Except Exc Novel) : Option Str :=
  match r with
  | .ok n => ((n.scenes.get? c!"1").bind (fun s => s.sceneContent))
  | .error _ => none

-- The conditions hold for pieces in the middle of words.
example : SplitPieces NotBlank false (exSection c!"ScID:1" [c!"some te", c!"xt"]) ∧ SplitPieces Trimmed false (exSection c!"ScID:1" [c!"some te", c!"xt"]) ∧
    SameDocument (exSection c!"ScID:1" [c!"some te", c!"xt"]) (exSection c!"ScID:1" [c!"some", c!" text"]) := by
  refine ⟨?_, ?_, rfl⟩
  · simp only [exSection, SplitPieces, List.map, List.cons_append, List.nil_append]
    exact ⟨fun _ => ⟨'s', by decide, by decide⟩, fun _ => ⟨'x', by decide, by decide⟩, trivial⟩
  · simp only [exSection, SplitPieces, List.map, List.cons_append, List.nil_append]
    refine ⟨fun _ => ⟨by decide, ?_, ?_⟩, fun _ => ⟨by decide, ?_, ?_⟩, trivial⟩ <;> intro c hc <;> cases hc <;> decide

example : exContent (readOdt (manuscriptReader 0) ⟨exStyles, none, exSection c!"ScID:1" [c!"some te", c!"xt"]⟩ exChunkNovel) = some c!"some text" := by decide

/-- **C34 does not hold** for manuscripts: a blank between two words is lost if it comes as a piece of its own. -/
theorem C34_false_manuscript :
    SameDocument (exSection c!"ScID:1" [c!"a b"]) (exSection c!"ScID:1" [c!"a", c!" ", c!"b"]) ∧
    exContent (readOdt (manuscriptReader 0) ⟨exStyles, none, exSection c!"ScID:1" [c!"a b"]⟩ exChunkNovel) = some c!"a b" ∧
    exContent (readOdt (manuscriptReader 0) ⟨exStyles, none, exSection c!"ScID:1" [c!"a", c!" ", c!"b"]⟩ exChunkNovel) = some c!"ab" :=
  ⟨rfl, by decide, by decide⟩

/-- The description of the chapter. -/
def exDesc (r : Except Exc Novel) : Option Str :=
  match r with
  | .ok n => ((n.chapters.get? c!"1").bind (fun s => s.desc))
  | .error _ => none

/-- **C34 does not hold** for chapter descriptions: a blank at the border of two pieces is lost. -/
theorem C34_false_chapterDesc :
    SameDocument (exSection c!"ChID:1" [c!"a b"]) (exSection c!"ChID:1" [c!"a ", c!"b"]) ∧
    exDesc (readOdt chapterDescReader ⟨exStyles, none, exSection c!"ChID:1" [c!"a b"]⟩ exChunkNovel) = some c!"a b" ∧
    exDesc (readOdt chapterDescReader ⟨exStyles, none, exSection c!"ChID:1" [c!"a ", c!"b"]⟩ exChunkNovel) = some c!"ab" :=
  ⟨rfl, by decide, by decide⟩

/-- A title that comes from a document. -/
def exTitle (r : Except Exc Novel) : Option Str :=
  match r with
  | .ok n => ((n.chapters.get? c!"2").bind (fun s => s.title))
  | .error _ => none

/-- **C34 does not hold** for scene descriptions: the title of a new chapter is the first piece. -/
theorem C34_false_sceneDesc :
    SameDocument (exSection c!"ChID:2" [c!"a b"]) (exSection c!"ChID:2" [c!"a ", c!"b"]) ∧
    exTitle (readOdt sceneDescReader ⟨exStyles, none, exSection c!"ChID:2" [c!"a b"]⟩ exChunkNovel) = some c!"a b" ∧
    exTitle (readOdt sceneDescReader ⟨exStyles, none, exSection c!"ChID:2" [c!"a ", c!"b"]⟩ exChunkNovel) = some c!"a" :=
  ⟨rfl, by decide, by decide⟩

/-- A document for proof reading. -/
def exProofDoc (pieces : List Str) : List Ev :=
  [.start c!"text:p" []] ++ pieces.map Ev.chars ++ [.stop c!"text:p", .start c!"text:p" [], .chars c!"new", .stop c!"text:p",
    .start c!"text:p" [], .chars c!"[/ScID]", .stop c!"text:p"]

/-- **C34 does not hold** for proof reading: a divided mark of a scene is not recognised and the scene keeps its old text. -/
theorem C34_false_proof :
    SameDocument (exProofDoc [c!"[ScID:1]"]) (exProofDoc [c!"[Sc", c!"ID:1]"]) ∧
    exContent (readOdt proofReader ⟨exStyles, none, exProofDoc [c!"[ScID:1]"]⟩ exChunkNovel) = some c!"new" ∧
    exContent (readOdt proofReader ⟨exStyles, none, exProofDoc [c!"[Sc", c!"ID:1]"]⟩ exChunkNovel) = none :=
  ⟨rfl, by decide, by decide⟩

/-- A work in progress with a divider between two scenes. -/
def exImportDoc (pieces : List Str) : List Ev :=
  [.start c!"text:h" [(c!"text:outline-level", c!"2")], .chars c!"One", .stop c!"text:h", .start c!"text:p" [], .chars c!"a", .stop c!"text:p",
    .start c!"text:p" []] ++ pieces.map Ev.chars ++ [.stop c!"text:p", .start c!"text:p" [], .chars c!"b", .stop c!"text:p"]

/-- The number of scenes. -/
def exCount (r : Except Exc Novel) : Nat :=
  match r with
  | .ok n => n.scenes.length
  | .error _ => 0

/-- **C34 does not hold** for works in progress: a divided divider is not recognised and two scenes become one. -/
theorem C34_false_import :
    SameDocument (exImportDoc [c!"* * *"]) (exImportDoc [c!"* *", c!" *"]) ∧
    exCount (readOdt importReader ⟨exStyles, none, exImportDoc [c!"* * *"]⟩ {}) = 2 ∧
    exCount (readOdt importReader ⟨exStyles, none, exImportDoc [c!"* *", c!" *"]⟩ {}) = 1 :=
  ⟨rfl, by decide, by decide⟩

-- The conditions for proof reading and works in progress hold if only other texts are divided.
example : SplitPieces (fun s => '*' ∉ s) false (exSection c!"x" [c!"new te", c!"xt"]) ∧ SplitPieces (fun s => '[' ∉ s) false (exProofDoc [c!"[ScID:1]"]) := by
  constructor
  · simp only [exSection, SplitPieces, List.map, List.cons_append, List.nil_append]
    decide
  · simp only [exProofDoc, SplitPieces, List.map, List.cons_append, List.nil_append]
    simp [startsWithChars]

end Verif
