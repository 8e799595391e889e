/-
The project file as text: `ElementTree.write`, `_postprocess_xml_file` and the sanitising of `read`.
-/
import Verif.Model.Yw7Tree
import Verif.Model.Escape

namespace Verif
open Elem

/-- `xml.etree.ElementTree._escape_cdata`. -/
def etEscape (s : Str) : Str :=
  replaceAll [(c!"&", c!"&amp;"), (c!"<", c!"&lt;"), (c!">", c!"&gt;")] s

mutual
/-- `ElementTree.write(..., xml_declaration=False, encoding='utf-8')` (`_serialize_xml` of the Python
library, called in yw7_file.py 1698): elements without text and children are written as `<tag />`. -/
def etWrite : Elem → Str
  | node t x y ks =>
    (if x.getD [] = [] ∧ ks.isEmpty then '<' :: t ++ c!" />"
     else '<' :: t ++ '>' :: etEscape (x.getD []) ++ etWriteL ks ++ '<' :: '/' :: t ++ c!">") ++
    etEscape (y.getD [])
/-- The children. -/
def etWriteL : List Elem → Str
  | [] => []
  | e :: r => etWrite e ++ etWriteL r
end

/-- The two `re.sub` calls for a tag on a line (yw7_file.py 1140-1141). The patterns are literal. -/
def cdataTag (t line : Str) : Str :=
  Str.replace (Str.replace line ('<' :: t ++ c!">") ('<' :: t ++ c!"><![CDATA["))
    ('<' :: '/' :: t ++ c!">") (c!"]]></" ++ t ++ c!">")

/-- The inner loop over `_CDATA_TAGS` (yw7_file.py 1139-1141). -/
def cdataLine (line : Str) : Str := cdataTags.foldl (fun l t => cdataTag t l) line

/-- `html.unescape(text)`, restricted to the entities that `ElementTree` writes. In a text in which each
`&` begins one of them (all texts it is applied to, see `etWrite`), this is what `html.unescape` does. -/
def unescapeGo : Nat → Str → Str
  | _, [] => []
  | n + 1, _ :: cs => unescapeGo n cs
  | 0, c :: cs =>
    if (c!"&amp;").isPrefixOf (c :: cs) then '&' :: unescapeGo 4 cs
    else if (c!"&lt;").isPrefixOf (c :: cs) then '<' :: unescapeGo 3 cs
    else if (c!"&gt;").isPrefixOf (c :: cs) then '>' :: unescapeGo 3 cs
    else c :: unescapeGo 0 cs

/-- `html.unescape(text)`, see `unescapeGo`. -/
def unescape (s : Str) : Str := unescapeGo 0 s

/-- `_postprocess_xml_file` without the file access (yw7_file.py 1134-1149). -/
def postprocess (hasChapters : Bool) (text : Str) : Str :=
  let lines := (Str.split text c!"\n").map cdataLine
  let text := Str.join c!"\n" (c!"<?xml version=\"1.0\" encoding=\"utf-8\"?>" :: lines)
  let text := Str.replace text c!"[CDATA[ \n" c!"[CDATA["
  let text := Str.replace text c!"\n]]" c!"]]"
  let text := if hasChapters then text else Str.replace text c!"<CHAPTERS />" c!"<CHAPTERS></CHAPTERS>"
  unescape text

/-- Reading a file in text mode translates `\r\n` and `\r` to `\n` (universal newlines). -/
def universalNewlines : Str → Str
  | [] => []
  | '\r' :: '\n' :: r => '\n' :: universalNewlines r
  | '\r' :: r => '\n' :: universalNewlines r
  | c :: r => c :: universalNewlines r

/-- The project file `write` leaves (yw7_file.py 179-205): the tree is written, the file is read, and the
postprocessed text is written. Simplifications: the encoding UTF-8 is not modelled; newlines are not
translated on writing (they are on Windows). -/
def fileText (hasChapters : Bool) (e : Elem) : Str := postprocess hasChapters (universalNewlines (etWrite e))

/-- The character class of yw7_file.py 155: `[\x00-\x08|\x0b-\x0c|\x0e-\x1f]`. The bar is a member. -/
def dropped (c : Char) : Bool :=
  c.toNat ≤ 8 || c = '|' || c.toNat = 11 || c.toNat = 12 || (14 ≤ c.toNat && c.toNat ≤ 31)

/-- `re.sub('[\x00-\x08|\x0b-\x0c|\x0e-\x1f]', '', xmlText)` (yw7_file.py 155). -/
def sanitize (s : Str) : Str := s.filter (fun c => !dropped c)

/-- What `read` gives to the XML parser (yw7_file.py 143-155), for a file with the decoded text `s`.
The decoding is modelled in `Model/Opening`. -/
def parserInput (s : Str) : Str := sanitize (universalNewlines s)

end Verif
