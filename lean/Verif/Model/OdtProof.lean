/-
The tagged manuscript for proof reading: odt_w/odt_w_proof.py.
-/
import Verif.Model.OdtHeader

namespace Verif

/-- The replacements of `OdtWProof._convert_from_yw` (odt_w/odt_w_proof.py 52-78): direct formatting `T{i+1}` and `T{i+2}` behind the
styles of the `i` document languages. -/
def proofReplacements (author : Option Str) (languages : List Str) : List (Str × Str) :=
  odtLineBreaks ++ [(c!"[/i]", c!"</text:span>"), (c!"[/b]", c!"</text:span>")] ++ commentReplacements author ++ langReplacements 1 languages ++
  [(c!"[i]", c!"<text:span text:style-name=\"T" ++ Str.ofNat (languages.length + 1) ++ c!"\">"),
   (c!"[b]", c!"<text:span text:style-name=\"T" ++ Str.ofNat (languages.length + 2) ++ c!"\">")]

/-- `OdtWProof._convert_from_yw(text, quick)` (odt_w_proof.py 39-116); `quick` is not used. -/
def proofConvert (n : Novel) (text : Option Str) (_quick : Bool) : Str :=
  match text with
  | none => []
  | some [] => []
  | some t => Re.sub layoutTag [] (replaceAll (xmlReplacements ++ proofReplacements n.authorName (n.languages.getD []))
      (balanceText (markupTags (n.languages.getD [])) t))

/-- The style `T{i+1}` (odt_w_proof.py 137-139). -/
def italicStyle (i : Nat) : Str :=
  [c!"  <style:style style:name=\"T", Str.ofNat i, c!"\" style:family=\"text\">\n   <style:text-properties fo:font-style=\"italic\" ",
   c!"style:font-style-asian=\"italic\" style:font-style-complex=\"italic\"/>\n  </style:style>"].flatten

/-- The style `T{i+2}` (odt_w_proof.py 140-142). -/
def boldStyle (i : Nat) : Str :=
  [c!"  <style:style style:name=\"T", Str.ofNat i, c!"\" style:family=\"text\">\n   <style:text-properties fo:font-weight=\"bold\" ",
   c!"style:font-weight-asian=\"bold\" style:font-weight-complex=\"bold\"/>\n  </style:style>"].flatten

/-- The automatic styles (odt_w_proof.py 125-144). -/
def proofStyles (languages : List Str) : Str :=
  Str.join c!"\n" (c!"<office:automatic-styles>" :: languageStyles 1 languages ++
    [italicStyle (languages.length + 1), boldStyle (languages.length + 2), c!" </office:automatic-styles>"])

/-- The value of `ContentHeader` (odt_w_proof.py 145-148). -/
def proofHeader (languages : List Str) : Str := Template.subst odtHeadTemplate [(c!"automaticStyles", proofStyles languages)]

/-- What the writer knows besides the novel. -/
def proofEnv (name path : Str) : DocEnv := ⟨name, path, proofHeader⟩

/-- The base of the writer. -/
def DocEnv.proofBase (e : DocEnv) : Base := ⟨proofConvert, e.projectName, e.projectPath⟩

/-- The templates of `OdtWProof` (odt_w_proof.py 21-37). -/
def proofTemplates : Templates :=
  { fileHeader := titleTemplate
    part := c!"<text:h text:style-name=\"Heading_20_1\" text:outline-level=\"1\">$Title</text:h>\n"
    chapter := c!"<text:h text:style-name=\"Heading_20_2\" text:outline-level=\"2\">$Title</text:h>\n"
    scene := c!"<text:h text:style-name=\"Heading_20_3\" text:outline-level=\"3\">$Title</text:h>\n" ++
      c!"<text:p text:style-name=\"scene_20_mark\">[ScID:$ID]</text:p>\n" ++
      c!"<text:p text:style-name=\"Text_20_body\">$SceneContent</text:p>\n" ++
      c!"<text:p text:style-name=\"scene_20_mark\">[/ScID]</text:p>\n"
    fileFooter := contentFooter }

/-- `OdtWProof` (odt_w/odt_w_proof.py). -/
def odtProof (e : DocEnv) : Exporter := exporterOf e e.proofBase proofTemplates

/-- `OdtWProof._get_text()` (odt_w_proof.py 150-160): unlike `OdtWFormatted`, no quotations are marked. -/
def proofText (x : Exporter) (n : Novel) : Except Exc Str := do
  let h ← getFileHeader x n
  let c ← getChapters x n
  .ok (h ++ c ++ [x.fileFooter]).flatten

end Verif
