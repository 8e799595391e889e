/-
The header of the documents with formatted text: odt_w/odt_w_formatted.py.
-/
import Verif.Model.OdtWriters

namespace Verif

/-- `OdtWFormatted._CONTENT_XML_HEADER` (odt_w/odt_w_formatted.py 21-34) up to the automatic styles. -/
def odtHeadStart : Str :=
  [c!"<?xml version=\"1.0\" encoding=\"UTF-8\"?>\n\n<office:document-content xmlns:office=\"urn:oasis:names:tc:opendocument:xmlns:office:1.0\" xmlns:style=\"urn:oasis:names:tc:opendocum",
   c!"ent:xmlns:style:1.0\" xmlns:text=\"urn:oasis:names:tc:opendocument:xmlns:text:1.0\" xmlns:table=\"urn:oasis:names:tc:opendocument:xmlns:table:1.0\" xmlns:draw=\"urn:oasis:names",
   c!":tc:opendocument:xmlns:drawing:1.0\" xmlns:fo=\"urn:oasis:names:tc:opendocument:xmlns:xsl-fo-compatible:1.0\" xmlns:xlink=\"http://www.w3.org/1999/xlink\" xmlns:dc=\"http://pur",
   c!"l.org/dc/elements/1.1/\" xmlns:meta=\"urn:oasis:names:tc:opendocument:xmlns:meta:1.0\" xmlns:number=\"urn:oasis:names:tc:opendocument:xmlns:datastyle:1.0\" xmlns:svg=\"urn:oasi",
   c!"s:names:tc:opendocument:xmlns:svg-compatible:1.0\" xmlns:chart=\"urn:oasis:names:tc:opendocument:xmlns:chart:1.0\" xmlns:dr3d=\"urn:oasis:names:tc:opendocument:xmlns:dr3d:1.0",
   c!"\" xmlns:math=\"http://www.w3.org/1998/Math/MathML\" xmlns:form=\"urn:oasis:names:tc:opendocument:xmlns:form:1.0\" xmlns:script=\"urn:oasis:names:tc:opendocument:xmlns:script:1",
   c!".0\" xmlns:ooo=\"http://openoffice.org/2004/office\" xmlns:ooow=\"http://openoffice.org/2004/writer\" xmlns:oooc=\"http://openoffice.org/2004/calc\" xmlns:dom=\"http://www.w3.org",
   c!"/2001/xml-events\" xmlns:xforms=\"http://www.w3.org/2002/xforms\" xmlns:xsd=\"http://www.w3.org/2001/XMLSchema\" xmlns:xsi=\"http://www.w3.org/2001/XMLSchema-instance\" xmlns:rp",
   c!"t=\"http://openoffice.org/2005/report\" xmlns:of=\"urn:oasis:names:tc:opendocument:xmlns:of:1.2\" xmlns:xhtml=\"http://www.w3.org/1999/xhtml\" xmlns:grddl=\"http://www.w3.org/20",
   c!"03/g/data-view#\" xmlns:tableooo=\"http://openoffice.org/2009/table\" xmlns:field=\"urn:openoffice:names:experimental:ooo-ms-interop:xmlns:field:1.0\" office:version=\"1.2\">\n <",
   c!"office:scripts/>\n <office:font-face-decls>\n  <style:font-face style:name=\"StarSymbol\" svg:font-family=\"StarSymbol\" style:font-charset=\"x-symbol\"/>\n  <style:font-face styl",
   c!"e:name=\"Consolas\" svg:font-family=\"Consolas\" style:font-adornments=\"Standard\" style:font-family-generic=\"modern\" style:font-pitch=\"fixed\"/>\n  <style:font-face style:name=",
   c!"\"Courier New\" svg:font-family=\"&apos;Courier New&apos;\" style:font-adornments=\"Standard\" style:font-family-generic=\"modern\" style:font-pitch=\"fixed\"/>\n </office:font-face",
   c!"-decls>\n "].flatten

/-- The rest of it. -/
def odtHeadEnd : Str := c!"\n <office:body>\n  <office:text text:use-soft-page-breaks=\"true\">\n\n"

/-- `OdtWFormatted._CONTENT_XML_HEADER` (odt_w/odt_w_formatted.py 21-34). -/
def odtHeadTemplate : Str := odtHeadStart ++ (c!"$automaticStyles" ++ odtHeadEnd)

/-- `lngCode, ctrCode = language.split('-')`, with the replacement on failure (odt_w_formatted.py 121-125). -/
def languageParts (l : Str) : Str × Str :=
  match Str.split l c!"-" with
  | [a, b] => (a, b)
  | _ => (c!"zxx", c!"none")

/-- The style for the language number `i` (odt_w_formatted.py 126-130). -/
def languageStyle (i : Nat) (l : Str) : Str :=
  let p := languageParts l
  [c!"  <style:style style:name=\"T", Str.ofNat i, c!"\" style:family=\"text\">\n   <style:text-properties fo:language=\"", p.1,
   c!"\" fo:country=\"", p.2, c!"\" style:language-asian=\"", p.1, c!"\" style:country-asian=\"", p.2,
   c!"\" style:language-complex=\"", p.1, c!"\" style:country-complex=\"", p.2, c!"\"/>\n  </style:style>"].flatten

/-- `for i, language in enumerate(self.novel.languages, 1)` (odt_w_formatted.py 120). -/
def languageStyles : Nat → List Str → List Str
  | _, [] => []
  | i, l :: r => languageStyle i l :: languageStyles (i + 1) r

/-- The automatic styles (odt_w_formatted.py 117-134). -/
def automaticStyles (languages : List Str) : Str :=
  if languages = [] then c!"<office:automatic-styles/>"
  else Str.join c!"\n" (c!"<office:automatic-styles>" :: languageStyles 1 languages ++ [c!" </office:automatic-styles>"])

/-- The value of `ContentHeader` (odt_w_formatted.py 135-138). -/
def formattedHeader (languages : List Str) : Str := Template.subst odtHeadTemplate [(c!"automaticStyles", automaticStyles languages)]

/-- The environment of a writer for documents with formatted text. -/
def formattedEnv (name path : Str) : DocEnv := ⟨name, path, formattedHeader⟩

end Verif
