/-
Specification vocabulary for C41 (purging).
-/
import Verif.Model.Novel

namespace Verif.Spec
open Verif

/-- A keyword variable has a value. -/
def HasValue (kw : Dict (Option Str)) (f : Str) : Prop := ∃ v, kw.get? f = some (some v) ∧ v ≠ []

/-- `kw'` is `kw` with the variables `fields` emptied. -/
def Emptied (fields : List Str) (kw kw' : Dict (Option Str)) : Prop :=
  (∀ f ∈ fields, ¬ HasValue kw' f) ∧ (∀ f, (f ∉ fields ∨ ¬ HasValue kw f) → kw'.get? f = kw.get? f) ∧ kw'.keys = kw.keys

/-- `d'` is `d` with the variables `fields` of all elements emptied, and nothing else changed. -/
def AllEmptied {α : Type} (kw : α → Dict (Option Str)) (put : α → Dict (Option Str) → α) (fields : List Str) (d d' : Dict α) : Prop :=
  d'.keys = d.keys ∧ ∀ k e, d.get? k = some e → ∃ kw', Emptied fields (kw e) kw' ∧ d'.get? k = some (put e kw')

/-- `s` begins with a language tag: an opening bracket, any number of slashes, `lang=`, a code
without closing bracket or newline, a closing bracket; followed by `rest`. -/
def LangTagAt (s rest : Str) : Prop :=
  ∃ slashes code : Str, (∀ c ∈ slashes, c = '/') ∧ ']' ∉ code ∧ '\n' ∉ code ∧ s = '[' :: slashes ++ c!"lang=" ++ code ++ ']' :: rest

/-- `r` is `s` with the language tags cut out, from left to right, and nothing else changed. -/
inductive TagsRemoved : Str → Str → Prop where
  | nil : TagsRemoved [] []
  | tag {s rest r : Str} : LangTagAt s rest → TagsRemoved rest r → TagsRemoved s r
  | char {c : Char} {s r : Str} : (∀ rest, ¬ LangTagAt (c :: s) rest) → TagsRemoved s r → TagsRemoved (c :: s) (c :: r)

/-- There is a language tag in the text. -/
def HasLangTag (s : Str) : Prop := ∃ pre t rest, s = pre ++ t ∧ LangTagAt t rest

/-- Brackets are not nested: between an opening bracket and the next one there is a closing bracket
or the end of the line. -/
def FlatBrackets (s : Str) : Prop := ∀ pre a post, s = pre ++ '[' :: a ++ '[' :: post → ']' ∈ a ∨ '\n' ∈ a

end Verif.Spec
