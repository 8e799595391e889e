import re
src=open('/repo/src/pywriter/odt_w/odt_w_formatted.py',encoding='utf-8').read().replace('\r','')
hdr=re.search(r"_CONTENT_XML_HEADER = '''(.*?)'''",src,re.S).group(1)
a,b=hdr.split('$automaticStyles')
def lit(s):
    return 'c!"'+s.replace('\\','\\\\').replace('"','\\"').replace('\n','\\n')+'"'
def pieces(s,n=170):
    out=[]
    while s:
        out.append(s[:n]); s=s[n:]
    return out
o='''/-
The header of the documents with formatted text: odt_w/odt_w_formatted.py.
-/
import Verif.Model.OdtWriters

namespace Verif

/-- `OdtWFormatted._CONTENT_XML_HEADER` (odt_w/odt_w_formatted.py 21-34) up to the automatic styles. -/
def odtHeadStart : Str :=
  [%s].flatten

/-- The rest of it. -/
def odtHeadEnd : Str := %s

/-- `OdtWFormatted._CONTENT_XML_HEADER` (odt_w/odt_w_formatted.py 21-34). -/
def odtHeadTemplate : Str := odtHeadStart ++ (c!"$automaticStyles" ++ odtHeadEnd)

/-- `lngCode, ctrCode = language.split('-')`, with the replacement on failure (odt_w_formatted.py 121-125). -/
def languageParts (l : Str) : Str × Str :=
  match Str.split l c!"-" with
  | [a, b] => (a, b)
  | _ => (c!"zxx", c!"none")

/-- The style for the language number `i` (odt_w_formatted.py 126-130). -/
def languageStyle (i : Nat) (l : Str) : Str :=
  let p := languageParts l
  [c!"  <style:style style:name=\\"T", Str.ofNat i, c!"\\" style:family=\\"text\\">\\n   <style:text-properties fo:language=\\"", p.1,
   c!"\\" fo:country=\\"", p.2, c!"\\" style:language-asian=\\"", p.1, c!"\\" style:country-asian=\\"", p.2,
   c!"\\" style:language-complex=\\"", p.1, c!"\\" style:country-complex=\\"", p.2, c!"\\"/>\\n  </style:style>"].flatten

/-- `for i, language in enumerate(self.novel.languages, 1)` (odt_w_formatted.py 120). -/
def languageStyles : Nat → List Str → List Str
  | _, [] => []
  | i, l :: r => languageStyle i l :: languageStyles (i + 1) r

/-- The automatic styles (odt_w_formatted.py 117-134). -/
def automaticStyles (languages : List Str) : Str :=
  if languages = [] then c!"<office:automatic-styles/>"
  else Str.join c!"\\n" (c!"<office:automatic-styles>" :: languageStyles 1 languages ++ [c!" </office:automatic-styles>"])

/-- The value of `ContentHeader` (odt_w_formatted.py 135-138). -/
def formattedHeader (languages : List Str) : Str := Template.subst odtHeadTemplate [(c!"automaticStyles", automaticStyles languages)]

/-- The environment of a writer for documents with formatted text. -/
def formattedEnv (name path : Str) : DocEnv := ⟨name, path, formattedHeader⟩

end Verif
''' % (',\n   '.join(lit(p) for p in pieces(a)), lit(b))
open('/verif/lean/Verif/Model/OdtHeader.lean','w').write(o)
