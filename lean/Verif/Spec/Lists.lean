/-
Specifications about lists and strings, independent of the model.
-/

namespace Verif.Spec

/-- `out` lists the distinct members of `src`, each once, in the order of
their first occurrences in `src`. -/
structure FirstOccurrences {α : Type} [BEq α] (src out : List α) : Prop where
  nodup : out.Nodup
  mem : ∀ x, x ∈ out ↔ x ∈ src
  order : out.Pairwise (fun x y => src.idxOf x < src.idxOf y)

/-- `parts` are the segments of `text` between successive (leftmost, non-overlapping)
occurrences of `sep`: gluing them together with `sep` gives the text, and no occurrence of `sep`
begins inside a segment (`sep` occurs neither in the segment nor straddling into the following
separator). -/
inductive Segments {α : Type} (sep : List α) : List α → List (List α) → Prop where
  | last (x : List α) : ¬ sep <:+: x → Segments sep x [x]
  | more (x rest : List α) (parts : List (List α)) :
      ¬ sep <:+: (x ++ sep.dropLast) → Segments sep rest parts →
      Segments sep (x ++ sep ++ rest) (x :: parts)

/-- No proper non-empty prefix of `d` is also a suffix (true for `";"` and `", "`). -/
def BorderFree {α : Type} (d : List α) : Prop :=
  ∀ k, 0 < k → k < d.length → d.take k ≠ d.drop (d.length - k)

end Verif.Spec
