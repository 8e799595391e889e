/-
The ODT character, location and item sheets: odt_w/odt_w_characters.py, odt_w/odt_w_locations.py, odt_w/odt_w_items.py.
-/
import Verif.Model.OdtWriters
import Verif.Model.OdtHeader

namespace Verif

/-- What the plain writers know: their document header is the constant `OdtWriter._CONTENT_XML_HEADER` (odt_w/odt_writer.py 26-35),
the same text as the header of a formatted document without languages. -/
def plainEnv (name path : Str) : DocEnv := ⟨name, path, fun _ => formattedHeader []⟩

/-- `f' ("{aka}")'` (odt_w_locations.py 42, odt_w_items.py 42, odt_w_characters.py 57): the name is not escaped. -/
def akaText (aka : Str) : Str := c!" (\"" ++ aka ++ c!"\")"

/-- `if element.aka: mapping['AKA'] = f' ("{element.aka}")'` (odt_w_locations.py 41-42, odt_w_items.py 41-42, odt_w_characters.py
56-57). -/
def withAka (aka : Option Str) (m : Mapping) : Mapping :=
  if aka.getD [] = [] then m else Dict.set m c!"AKA" (akaText (aka.getD []))

/-- The sheet of a location or an item; `mark` is `LcID:` or `ItID:` (odt_w_locations.py 23-27, odt_w_items.py 23-27). -/
def elementSheet (mark : Str) : Str :=
  c!"<text:h text:style-name=\"Heading_20_2\" text:outline-level=\"2\">$Title$AKA</text:h>\n" ++
  c!"<text:section text:style-name=\"Sect1\" text:name=\"" ++ mark ++ c!":$ID\">\n" ++
  c!"<text:p text:style-name=\"Text_20_body\">$Desc</text:p>\n" ++ sectionEnd

/-- `OdtWLocations` (odt_w/odt_w_locations.py 11-43). -/
def odtLocations (e : DocEnv) : Exporter :=
  { exporterOf e e.plainBase { fileHeader := titleTemplate, location := elementSheet c!"LcID", fileFooter := contentFooter } with
    locationMapping := fun n id => do
      let m ← e.plainBase.location n id
      let l ← n.locations.get! id
      .ok (withAka l.aka m) }

/-- `OdtWItems` (odt_w/odt_w_items.py 11-43). -/
def odtItems (e : DocEnv) : Exporter :=
  { exporterOf e e.plainBase { fileHeader := titleTemplate, item := elementSheet c!"ItID", fileFooter := contentFooter } with
    itemMapping := fun n id => do
      let m ← e.plainBase.item n id
      let l ← n.items.get! id
      .ok (withAka l.aka m) }

/-- A section of a character sheet: its heading, the mark of the section and the placeholder of the text
(odt_w_characters.py 25-40). -/
def personPart (heading mark field : Str) : Str :=
  c!"<text:h text:style-name=\"Heading_20_3\" text:outline-level=\"3\">" ++ heading ++ c!"</text:h>\n" ++
  c!"<text:section text:style-name=\"Sect1\" text:name=\"CrID_" ++ mark ++ c!":$ID\">\n" ++
  c!"<text:p text:style-name=\"Text_20_body\">$" ++ field ++ c!"</text:p>\n" ++ sectionEnd

/-- The sheet of a character (odt_w_characters.py 23-42); the headings are translated in the code, here they are in English. -/
def personSheet : Str :=
  c!"<text:h text:style-name=\"Heading_20_2\" text:outline-level=\"2\">$Title$FullName$AKA</text:h>\n" ++
  c!"<text:section text:style-name=\"Sect1\" text:name=\"CrID:$ID\">\n" ++
  personPart c!"Description" c!"desc" c!"Desc" ++ personPart c!"Bio" c!"bio" c!"Bio" ++
  personPart c!"Goals" c!"goals" c!"Goals" ++ personPart c!"Notes" c!"notes" c!"Notes" ++ sectionEnd

/-- `if character.fullName: mapping['FullName'] = f'/{character.fullName}'` (odt_w_characters.py 58-59): not escaped. -/
def withFullName (name : Option Str) (m : Mapping) : Mapping :=
  if name.getD [] = [] then m else Dict.set m c!"FullName" (c!"/" ++ name.getD [])

/-- `OdtWCharacters` (odt_w/odt_w_characters.py 11-60). -/
def odtCharacters (e : DocEnv) : Exporter :=
  { exporterOf e e.plainBase { fileHeader := titleTemplate, character := personSheet, fileFooter := contentFooter } with
    characterMapping := fun n id => do
      let m ← e.plainBase.character n id
      let c ← n.characters.get! id
      .ok (withFullName c.fullName (withAka c.aka m)) }

end Verif
