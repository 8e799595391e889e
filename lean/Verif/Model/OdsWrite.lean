/-
The ODS writers: ods_w/ods_writer.py, ods_w_charlist.py, ods_w_loclist.py, ods_w_itemlist.py, ods_w_scenelist.py.
-/
import Verif.Model.OdtWriters

namespace Verif

/-- `OdsWriter._CONTENT_XML_HEADER` (ods_w/ods_writer.py 24-56), up to the name of the table. -/
def odsHeader : Str :=
  [
c!"<?xml version=\"1.0\" encoding=\"UTF-8\"?>\n\n<office:document-content xmlns:office=\"urn:oasis:names:tc:opendocument:xmlns:office:1.0\" xmlns:style=\"urn:oasis:names:tc:opendocum",
   c!"ent:xmlns:style:1.0\" xmlns:text=\"urn:oasis:names:tc:opendocument:xmlns:text:1.0\" xmlns:table=\"urn:oasis:names:tc:opendocument:xmlns:table:1.0\" xmlns:draw=\"urn:oasis:names",
   c!":tc:opendocument:xmlns:drawing:1.0\" xmlns:fo=\"urn:oasis:names:tc:opendocument:xmlns:xsl-fo-compatible:1.0\" xmlns:xlink=\"http://www.w3.org/1999/xlink\" xmlns:dc=\"http://pur",
   c!"l.org/dc/elements/1.1/\" xmlns:meta=\"urn:oasis:names:tc:opendocument:xmlns:meta:1.0\" xmlns:number=\"urn:oasis:names:tc:opendocument:xmlns:datastyle:1.0\" xmlns:presentation=",
   c!"\"urn:oasis:names:tc:opendocument:xmlns:presentation:1.0\" xmlns:svg=\"urn:oasis:names:tc:opendocument:xmlns:svg-compatible:1.0\" xmlns:chart=\"urn:oasis:names:tc:opendocument",
   c!":xmlns:chart:1.0\" xmlns:dr3d=\"urn:oasis:names:tc:opendocument:xmlns:dr3d:1.0\" xmlns:math=\"http://www.w3.org/1998/Math/MathML\" xmlns:form=\"urn:oasis:names:tc:opendocument:",
   c!"xmlns:form:1.0\" xmlns:script=\"urn:oasis:names:tc:opendocument:xmlns:script:1.0\" xmlns:ooo=\"http://openoffice.org/2004/office\" xmlns:ooow=\"http://openoffice.org/2004/write",
   c!"r\" xmlns:oooc=\"http://openoffice.org/2004/calc\" xmlns:dom=\"http://www.w3.org/2001/xml-events\" xmlns:xforms=\"http://www.w3.org/2002/xforms\" xmlns:xsd=\"http://www.w3.org/20",
   c!"01/XMLSchema\" xmlns:xsi=\"http://www.w3.org/2001/XMLSchema-instance\" xmlns:rpt=\"http://openoffice.org/2005/report\" xmlns:of=\"urn:oasis:names:tc:opendocument:xmlns:of:1.2\" ",
   c!"xmlns:xhtml=\"http://www.w3.org/1999/xhtml\" xmlns:grddl=\"http://www.w3.org/2003/g/data-view#\" xmlns:tableooo=\"http://openoffice.org/2009/table\" xmlns:field=\"urn:openoffice",
   c!":names:experimental:ooo-ms-interop:xmlns:field:1.0\" office:version=\"1.2\">\n <office:scripts/>\n <office:font-face-decls>\n  <style:font-face style:name=\"Segoe UI\" svg:font-f",
   c!"amily=\"&apos;Segoe UI&apos;\" style:font-adornments=\"Standard\" style:font-family-generic=\"swiss\" style:font-pitch=\"variable\"/>\n </office:font-face-decls>\n <office:automati",
   c!"c-styles>\n  <style:style style:name=\"co1\" style:family=\"table-column\">\n   <style:table-column-properties fo:break-before=\"auto\" style:column-width=\"2.000cm\"/>\n  </style:s",
   c!"tyle>\n  <style:style style:name=\"co2\" style:family=\"table-column\">\n   <style:table-column-properties fo:break-before=\"auto\" style:column-width=\"3.000cm\"/>\n  </style:style",
   c!">\n  <style:style style:name=\"co3\" style:family=\"table-column\">\n   <style:table-column-properties fo:break-before=\"auto\" style:column-width=\"4.000cm\"/>\n  </style:style>\n  ",
   c!"<style:style style:name=\"co4\" style:family=\"table-column\">\n   <style:table-column-properties fo:break-before=\"auto\" style:column-width=\"8.000cm\"/>\n  </style:style>\n  <sty",
   c!"le:style style:name=\"ro1\" style:family=\"table-row\">\n   <style:table-row-properties style:row-height=\"1.157cm\" fo:break-before=\"auto\" style:use-optimal-row-height=\"true\"/>",
   c!"\n  </style:style>\n  <style:style style:name=\"ro2\" style:family=\"table-row\">\n   <style:table-row-properties style:row-height=\"2.053cm\" fo:break-before=\"auto\" style:use-opt",
   c!"imal-row-height=\"true\"/>\n  </style:style>\n  <style:style style:name=\"ta1\" style:family=\"table\" style:master-page-name=\"Default\">\n   <style:table-properties table:display=",
   c!"\"true\" style:writing-mode=\"lr-tb\"/>\n  </style:style>\n </office:automatic-styles>\n <office:body>\n  <office:spreadsheet>\n   <table:table table:name=\""].flatten
/-- `OdsWriter._CONTENT_XML_FOOTER` (ods_w/ods_writer.py 58-62). -/
def odsFooter : Str := c!"   </table:table>\n  </office:spreadsheet>\n </office:body>\n</office:document-content>\n"

/-- The rest of the start tag of the table (e.g. ods_w_charlist.py 17). -/
def odsTableStart (description : Str) : Str := description ++ c!"\" table:style-name=\"ta1\" table:print=\"false\">\n"

/-- A column definition. -/
def odsColumn (style : Str) : Str :=
  c!"    <table:table-column table:style-name=\"" ++ style ++ c!"\" table:default-cell-style-name=\"Default\"/>\n"

/-- A repeated column definition. -/
def odsColumns (style count : Str) : Str :=
  c!"    <table:table-column table:style-name=\"" ++ style ++ c!"\" table:number-columns-repeated=\"" ++ count ++
  c!"\" table:default-cell-style-name=\"Default\"/>\n"

/-- A cell of the header row. -/
def odsHeading (title : Str) : Str :=
  c!"     <table:table-cell table:style-name=\"Heading\" office:value-type=\"string\">\n      <text:p>" ++ title ++
  c!"</text:p>\n     </table:table-cell>\n"

/-- The end of the header row: the excess cells. -/
def odsHeadingEnd (count : Str) : Str :=
  c!"     <table:table-cell table:style-name=\"Heading\" table:number-columns-repeated=\"" ++ count ++
  c!"\"/>\n    </table:table-row>\n\n"

/-- The beginning of a table row. -/
def odsRowStart : Str := c!"   <table:table-row table:style-name=\"ro2\">\n"

/-- A cell with the given attributes. -/
def odsCellWith (attrs v : Str) : Str :=
  c!"     <table:table-cell" ++ attrs ++ c!">\n      <text:p>" ++ v ++ c!"</text:p>\n     </table:table-cell>\n"

/-- A text cell. -/
def odsCell (v : Str) : Str := odsCellWith c!" office:value-type=\"string\"" v

/-- A number cell. -/
def odsNumber (v : Str) : Str := odsCellWith (c!" office:value-type=\"float\" office:value=\"" ++ v ++ c!"\"") v

/-- The end of a row of the character, location and item lists, with the excess cells. -/
def odsRowEnd : Str := c!"     <table:table-cell table:number-columns-repeated=\"1014\"/>\n    </table:table-row>\n\n"

/-- The titles of the columns of the character list (ods_w_charlist.py 27-57; ods_r_charlist.py 21). -/
def charTitles : List Str :=
  [c!"ID", c!"Name", c!"Full name", c!"Aka", c!"Description", c!"Bio", c!"Goals", c!"Importance", c!"Tags", c!"Notes"]

/-- The titles of the columns of the location and item lists (ods_w_loclist.py 23-38; ods_r_loclist.py 21, ods_r_itemlist.py 21). -/
def worldTitles : List Str := [c!"ID", c!"Name", c!"Description", c!"Aka", c!"Tags"]

/-- The titles of the columns of the scene list (ods_w_scenelist.py 69-132; ods_r_scenelist.py 23-26). -/
def sceneTitles : List Str :=
  [c!"Scene link", c!"Scene title", c!"Scene description", c!"Tags", c!"Scene notes", c!"A/R", c!"Goal", c!"Conflict", c!"Outcome",
   c!"Scene", c!"Words total", c!"$FieldTitle1", c!"$FieldTitle2", c!"$FieldTitle3", c!"$FieldTitle4", c!"Word count", c!"Letter count",
   c!"Status", c!"Characters", c!"Locations", c!"Items"]

/-- `OdsWCharList._fileHeader` (ods_w/ods_w_charlist.py 17-61). The description is not translated here. -/
def charListHeader : Str :=
  odsHeader ++ odsTableStart c!"Character list" ++ odsColumn c!"co1" ++ odsColumn c!"co2" ++ odsColumn c!"co3" ++ odsColumn c!"co2" ++
  odsColumns c!"co4" c!"3" ++ odsColumn c!"co2" ++ odsColumn c!"co3" ++ odsColumn c!"co4" ++ odsColumns c!"co1" c!"1014" ++
  c!"     <table:table-row table:style-name=\"ro1\">\n" ++ charTitles.flatMap odsHeading ++ odsHeadingEnd c!"1014"

/-- `OdsWCharList._characterTemplate` (ods_w/ods_w_charlist.py 62-96). -/
def charListRow : Str :=
  odsRowStart ++ [c!"CrID:$ID", c!"$Title", c!"$FullName", c!"$AKA", c!"$Desc", c!"$Bio", c!"$Goals", c!"$Status", c!"$Tags",
    c!"$Notes"].flatMap odsCell ++ odsRowEnd

/-- `_fileHeader` of the location and item lists (ods_w/ods_w_loclist.py 16-42, ods_w_itemlist.py 17-43). -/
def worldListHeader (description : Str) : Str :=
  odsHeader ++ odsTableStart description ++ odsColumn c!"co1" ++ odsColumn c!"co3" ++ odsColumn c!"co4" ++ odsColumn c!"co2" ++
  odsColumn c!"co3" ++ odsColumns c!"co1" c!"1014" ++
  c!"     <table:table-row table:style-name=\"ro1\">\n" ++ worldTitles.flatMap odsHeading ++ odsHeadingEnd c!"1014"

/-- The row template of the location and item lists (ods_w/ods_w_loclist.py 44-63, ods_w_itemlist.py 45-64). -/
def worldListRow (idMark : Str) : Str :=
  odsRowStart ++ [idMark ++ c!"$ID", c!"$Title", c!"$Desc", c!"$AKA", c!"$Tags"].flatMap odsCell ++ odsRowEnd

/-- `OdsWSceneList._fileHeader` (ods_w/ods_w_scenelist.py 46-136). -/
def sceneListHeader : Str :=
  odsHeader ++ odsTableStart c!"Scene list" ++
  [c!"co1", c!"co3", c!"co4", c!"co3", c!"co4", c!"co1", c!"co4", c!"co4", c!"co4", c!"co1", c!"co1", c!"co1", c!"co1", c!"co1", c!"co1",
   c!"co1", c!"co1", c!"co2", c!"co2", c!"co3", c!"co3", c!"co3"].flatMap odsColumn ++
  c!"    <table:table-row table:style-name=\"ro1\">\n" ++ sceneTitles.flatMap odsHeading ++ odsHeadingEnd c!"1003"

/-- The attributes of the ID cell of a scene row (ods_w_scenelist.py 139). -/
def sceneLinkAttrs : Str :=
  c!" table:formula=\"of:=HYPERLINK(&quot;file:///$ProjectPath/${ProjectName}_manuscript.odt#ScID:$ID%7Cregion&quot;;&quot;ScID:$ID&quot;)\"" ++
  c!" office:value-type=\"string\" office:string-value=\"ScID:$ID\""

/-- `OdsWSceneList._sceneTemplate` (ods_w/ods_w_scenelist.py 138-204). -/
def sceneListRow : Str :=
  odsRowStart ++ odsCellWith sceneLinkAttrs c!"ScID:$ID" ++
  [c!"$Title", c!"$Desc", c!"$Tags", c!"$Notes", c!"$ReactionScene", c!"$Goal", c!"$Conflict", c!"$Outcome"].flatMap odsCell ++
  [c!"$SceneNumber", c!"$WordsTotal", c!"$Field1", c!"$Field2", c!"$Field3", c!"$Field4", c!"$WordCount", c!"$LetterCount"].flatMap
    odsNumber ++
  [c!"$Status", c!"$Characters", c!"$Locations"].flatMap odsCell ++ odsCellWith [] c!"$Items" ++
  c!"    </table:table-row>\n\n"

/-- The base of the ODS writers. -/
def DocEnv.odsBase (e : DocEnv) : Base := ⟨fun _ t _ => odsConvert t, e.projectName, e.projectPath⟩

/-- An ODS writer with the base class mappings. -/
def odsWriter (e : DocEnv) (t : Templates) : Exporter :=
  { t with
    headerMapping := e.odsBase.header
    chapterMapping := e.odsBase.chapter
    sceneMapping := e.odsBase.scene
    characterMapping := e.odsBase.character
    locationMapping := e.odsBase.location
    itemMapping := e.odsBase.item
    noteMapping := e.odsBase.note }

/-- `OdsWCharList` (ods_w/ods_w_charlist.py). An empty template still makes an (empty) line for each element of the other kinds. -/
def odsCharList (e : DocEnv) : Exporter :=
  odsWriter e { fileHeader := charListHeader, character := charListRow, fileFooter := odsFooter }

/-- `OdsWLocList` (ods_w/ods_w_loclist.py). -/
def odsLocList (e : DocEnv) : Exporter :=
  odsWriter e { fileHeader := worldListHeader c!"Location list", location := worldListRow c!"LcID:", fileFooter := odsFooter }

/-- `OdsWItemList` (ods_w/ods_w_itemlist.py). -/
def odsItemList (e : DocEnv) : Exporter :=
  odsWriter e { fileHeader := worldListHeader c!"Item list", item := worldListRow c!"ItID:", fileFooter := odsFooter }

/-- `Field1 = ''` if the rating is `'1'` (ods_w_scenelist.py 221-228). -/
def hideRating (key : Str) (v : Option Str) (m : Mapping) : Mapping := if v = some c!"1" then Dict.set m key [] else m

/-- `OdsWSceneList` (ods_w/ods_w_scenelist.py). -/
def odsSceneList (e : DocEnv) : Exporter :=
  { odsWriter e { fileHeader := sceneListHeader, scene := sceneListRow, fileFooter := odsFooter } with
    sceneMapping := fun n id k w l => do
      let m ← e.odsBase.scene n id k w l
      let s ← n.scenes.get! id
      .ok (hideRating c!"Field4" s.field4 (hideRating c!"Field3" s.field3 (hideRating c!"Field2" s.field2
        (hideRating c!"Field1" s.field1 m)))) }

end Verif
