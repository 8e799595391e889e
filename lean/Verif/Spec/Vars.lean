/-
Specification: project variables.
-/
import Verif.Spec.Project

namespace Verif.Spec
open Xml

/-- A project variable as yWriter writes it. -/
structure VarElement (e : Elem) : Prop where
  tag : e.tag = c!"PROJECTVAR"
  leaves : ∀ t ∈ [c!"ID", c!"Title", c!"Desc"], ∀ x ∈ sel t e.kids, x.kids = []
  id : ∃ i, Verif.textOf c!"ID" e.kids = some i ∧ GoodId i
  title : ∃ t, Verif.textOf c!"Title" e.kids = some t ∧ t ≠ []
  desc : (sel c!"Desc" e.kids) ≠ []

/-- The language a variable with this title stands for: `lang=<code>`; a code has no further `=`. -/
def langCode (title : Str) : Option Str :=
  if c!"lang=" <+: title ∧ '=' ∉ title.drop 5 then some (title.drop 5) else none

/-- The languages registered in a list of project variables. -/
def langsIn (vars : List Elem) : List Str :=
  vars.filterMap (fun e => (Verif.textOf c!"Title" e.kids).bind langCode)

/-- The IDs of a list of project variables. -/
def varIds (vars : List Elem) : List Str := vars.filterMap (fun e => Verif.textOf c!"ID" e.kids)

/-- The variables other than those of the document's locale. -/
def otherVars (vars : List Elem) : List Elem :=
  vars.filter (fun e => Verif.textOf c!"Title" e.kids ≠ some c!"Language" ∧
    Verif.textOf c!"Title" e.kids ≠ some c!"Country")

end Verif.Spec
