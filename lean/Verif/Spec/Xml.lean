/-
A small specification of XML character data, independent of the model
(XML 1.0 sections 2.2, 2.4, 2.11, 4.1 and 4.6).
-/
import Verif.Py.Str

namespace Verif.Spec

/-- XML 1.0 production [2] `Char` (Lean's `Char` already excludes the surrogates). -/
def xmlLegal (c : Char) : Bool :=
  c = '\t' || c = '\n' || c = '\r' || (0x20 ≤ c.toNat && c.toNat != 0xfffe && c.toNat != 0xffff)

/-- The five predefined entities. -/
def entities : List (Str × Char) :=
  [(c!"&amp;", '&'), (c!"&lt;", '<'), (c!"&gt;", '>'), (c!"&apos;", '\''), (c!"&quot;", '"')]

/-- `CharData raw text`: an XML parser reading the raw character data `raw` (between two tags)
reports the text `text`. Raw `<` and `&` are markup; a raw `>` is not accepted here, so that the
sequence `]]>` cannot occur; carriage returns are normalised to newlines. -/
inductive CharData : Str → Str → Prop where
  | nil : CharData [] []
  | char (c : Char) {r t : Str} : xmlLegal c = true → c ≠ '<' → c ≠ '>' → c ≠ '&' → c ≠ '\r' →
      CharData r t → CharData (c :: r) (c :: t)
  | entity (name : Str) (c : Char) {r t : Str} : (name, c) ∈ entities →
      CharData r t → CharData (name ++ r) (c :: t)
  | crlf {r t : Str} : CharData r t → CharData ('\r' :: '\n' :: r) ('\n' :: t)
  | cr {r t : Str} : r.head? ≠ some '\n' → CharData r t → CharData ('\r' :: r) ('\n' :: t)

/-- Text that XML can carry unchanged: legal characters, no carriage return. -/
def Carriable (t : Str) : Prop := ∀ c ∈ t, xmlLegal c = true ∧ c ≠ '\r'

end Verif.Spec
