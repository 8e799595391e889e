/-
C31 for the documents for proof reading.
-/
import Verif.Lemmas.NestProof
import Verif.Props.C31_Balanced

namespace Verif
open Spec Verif.Proof

/-- **C31** for the document for proof reading (partial, like `C31_balanced_partial`; in addition, titles have no formatting): it is well-formed. -/
theorem C31_proof_partial (name path : Str) (n : Novel) (hn : Exportable n) (hi : Inherits n) (hw : ProofWritable n) :
    ∃ text root, proofText (odtProof (proofEnv name path)) n = .ok text ∧ parseDoc text = some root := by
  obtain ⟨text, h1, h2⟩ := proof_parses name path hn hi hw
  obtain ⟨root, hr⟩ := Option.isSome_iff_exists.1 h2
  exact ⟨text, root, h1, hr⟩

/-- The project with the unbalanced text can be written. -/
theorem exWild_proofs : ProofWritable exWild where
  languages := exWild_writable.languages
  distinct := exWild_writable.distinct
  author := exWild_writable.author
  title t ht := by cases ht; exact ⟨by decide, by decide, by decide, by decide⟩
  chapters id hid ch hch _ t ht := by
    simp only [exWild, List.mem_cons, List.not_mem_nil, or_false] at hid
    rcases hid with rfl | rfl <;> cases hch <;> cases ht <;> exact ⟨by decide, by decide, by decide, by decide⟩
  numbers p hp := (exWild_writable.scenes p hp).number
  titles p hp t ht := by
    have e : exported exWild exWild.srtChapters = exWild.scenes := by decide
    rw [e] at hp
    simp only [exWild, List.mem_cons, List.not_mem_nil, or_false] at hp
    rcases hp with rfl | rfl <;> cases ht <;> exact ⟨by decide, by decide, by decide, by decide⟩
  texts p hp := (exWild_writable.scenes p hp).text

/-- Its document is well-formed. -/
example : ∃ text root, proofText (odtProof (proofEnv c!"prj" c!"/p")) exWild = .ok text ∧ parseDoc text = some root :=
  C31_proof_partial c!"prj" c!"/p" exWild exWild_exportable exWild_inherits exWild_proofs

/-- The document of a project with one scene with this text, parsed. -/
def proofDocument (text title : Str) : Option XNode :=
  match proofText (odtProof (proofEnv c!"prj" c!"/p")) { oneScene text with title := some title } with
  | .error _ => none
  | .ok doc => parseDoc doc

set_option maxRecDepth 100000 in
/-- False of the code without conditions: the same texts as for the manuscript break the document, and so does a mark in a title, which is
balanced like a text. -/
theorem C31_proof_false : (proofDocument c!"x[/i]" c!"T").isSome = true ∧ proofDocument c!"[/i]x[i]" c!"T" = none ∧ (proofDocument c!"x" c!"a[i]b").isSome = true ∧
    proofDocument c!"x" c!"[/i]a[i]" = none := by
  refine ⟨?_, ?_, ?_, ?_⟩ <;> decide +kernel

end Verif
