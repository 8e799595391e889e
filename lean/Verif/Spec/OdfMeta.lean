/-
Specification: what a word processor finds in `meta.xml` and `styles.xml`.
-/
import Verif.Spec.Sax
import Verif.Model.Novel

namespace Verif.Spec
open XNode

/-- Character data that stand for a character. -/
def markupFree (c : Char) : Str := if c = '<' then c!"&lt;" else if c = '>' then c!"&gt;" else if c = '&' then c!"&amp;" else [c]

/-- Replace the CDATA sections of a document by escaped character data (XML 1.0, 2.7): `inside` says whether we are in a section,
and `skip` characters belong to a delimiter. -/
def expandCdata : Bool → Nat → Str → Str
  | _, _, [] => []
  | i, n + 1, _ :: cs => expandCdata i n cs
  | false, 0, c :: cs => if c!"<![CDATA[".isPrefixOf (c :: cs) then expandCdata true 8 cs else c :: expandCdata false 0 cs
  | true, 0, c :: cs => if c!"]]>".isPrefixOf (c :: cs) then expandCdata false 2 cs else markupFree c ++ expandCdata true 0 cs

/-- The tree of a document with CDATA sections. -/
def parseWithCdata (s : Str) : Option XNode := parseDoc (expandCdata false 0 (normEol s))

/-- The text of an element without elements in it. -/
def plainText : XNode → Str
  | .text s => s
  | .elem _ _ ks => ks.flatMap fun k => match k with | .text s => s | .elem .. => []

/-- The children of an element that have the given name. -/
def childrenOf (t : Str) (e : XNode) : List XNode := sel t e.kids

/-- The texts of the metadata with the given name. -/
def metadata (t : Str) (root : XNode) : List Str := ((childrenOf c!"office:meta" root).flatMap (childrenOf t)).map plainText

/-- The languages and countries of the default styles. -/
def defaultLocales (root : XNode) : List (Option Str × Option Str) :=
  ((((childrenOf c!"office:styles" root).flatMap (childrenOf c!"style:default-style")).flatMap (childrenOf c!"style:text-properties"))).map
    fun e => (e.attr c!"fo:language", e.attr c!"fo:country")

/-- The names of the styles of a family (`paragraph` or `text`) that are defined. -/
def definedStyles (family : Str) (root : XNode) : List Str :=
  (((childrenOf c!"office:styles" root).flatMap (childrenOf c!"style:style")).filter fun e => decide (e.attr c!"style:family" = some family)).filterMap (attr c!"style:name")

/-- The language and the country of the documents of a project: the ones of the system, if the project has no language; the project's, if both are
codes of two letters; and otherwise "no language". -/
def documentLocale (n : Novel) (system : Str × Str) : Str × Str :=
  match n.languageCode, n.countryCode with
  | none, _ => system
  | some [], _ => system
  | some l, some c => if l.length = 2 ∧ c.length = 2 then (l, c) else (c!"zxx", c!"none")
  | some _, none => (c!"zxx", c!"none")

/-- A text that can be inserted between tags as it is: no `<`, `>` and `&`, no control characters, no carriage returns. -/
def Insertable (s : Str) : Prop := ∀ c ∈ s, xmlLegal c = true ∧ c ≠ '<' ∧ c ≠ '>' ∧ c ≠ '&' ∧ c ≠ '\r'

/-- A text that can be inserted as a CDATA section: no `]]>`, no control characters, no carriage returns. -/
def SectionText (s : Str) : Prop := (∀ c ∈ s, xmlLegal c = true ∧ c ≠ '\r') ∧ ¬ c!"]]>" <:+: s

/-- A language or country code that can be inserted in quotation marks as it is. -/
def CodeText (s : Str) : Prop := ∀ c ∈ s, xmlLegal c = true ∧ xmlBlank c = false ∧ c ≠ '<' ∧ c ≠ '&' ∧ c ≠ '"' ∧ c ≠ '\r'

end Verif.Spec
