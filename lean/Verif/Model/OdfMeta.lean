/-
The parts of ODF documents other than the content: `meta.xml` and `styles.xml` (`OdfFile._set_up`).
The templates are generated from the source text; they are divided so that the parts can be referred to.
-/
import Verif.Py.Template
import Verif.Model.Languages

namespace Verif

/-- The declaration (odt_writer.py 181-402) -/
def odtStylesProlog : Str :=
  c!"<?xml version=\"1.0\" encoding=\"UTF-8\"?>\n\n"

/-- The start tag (odt_writer.py 181-402) -/
def odtStylesRoot : Str :=
  c!"<office:document-styles xmlns:office=\"urn:oasis:names:tc:opendocument:xmlns:office:1.0\" xmlns:style=\"urn:oasis:names:tc:opendocument:xmlns:style:1.0\" xmlns:text=\"urn:oasis:names:tc:opendocument:xmlns:text:1.0\" xmlns:table=\"urn:oasis:names:tc:opendocument:xmlns:table:1.0\" xmlns:draw=\"urn:oasis:names:tc:opendocument:xmlns:drawing:1.0\" xmlns:fo=\"urn:oasis:names:tc:opendocument:xmlns:xsl-fo-compatible:1.0\" xmlns:xlink=\"http://www.w3.org/1999/xlink\" xmlns:dc=\"http://purl.org/dc/elements/1.1/\" xmlns:meta=\"urn:oasis:names:tc:opendocument:xmlns:meta:1.0\" xmlns:number=\"urn:oasis:names:tc:opendocument:xmlns:datastyle:1.0\" xmlns:svg=\"urn:oasis:names:tc:opendocument:xmlns:svg-compatible:1.0\" xmlns:chart=\"urn:oasis:names:tc:opendocument:xmlns:chart:1.0\" xmlns:dr3d=\"urn:oasis:names:tc:opendocument:xmlns:dr3d:1.0\" xmlns:math=\"http://www.w3.org/1998/Math/MathML\" xmlns:form=\"urn:oasis:names:tc:opendocument:xmlns:form:1.0\" xmlns:script=\"urn:oasis:names:tc:opendocument:xmlns:script:1.0\" xmlns:ooo=\"http://openoffice.org/2004/office\" xmlns:ooow=\"http://openoffice.org/2004/writer\" xmlns:oooc=\"http://openoffice.org/2004/calc\" xmlns:dom=\"http://www.w3.org/2001/xml-events\" xmlns:rpt=\"http://openoffice.org/2005/report\" xmlns:of=\"urn:oasis:names:tc:opendocument:xmlns:of:1.2\" xmlns:xhtml=\"http://www.w3.org/1999/xhtml\" xmlns:grddl=\"http://www.w3.org/2003/g/data-view#\" xmlns:tableooo=\"http://openoffice.org/2009/table\" xmlns:loext=\"urn:org:documentfoundation:names:experimental:office:xmlns:loext:1.0\">"

/-- The fonts (odt_writer.py 181-402) -/
def odtStylesFonts : Str :=
  c!"\n <office:font-face-decls>\n  <style:font-face style:name=\"StarSymbol\" svg:font-family=\"StarSymbol\" style:font-charset=\"x-symbol\"/>\n  <style:font-face style:name=\"Segoe UI\" svg:font-family=\"&apos;Segoe UI&apos;\"/>\n  <style:font-face style:name=\"Courier New\" svg:font-family=\"&apos;Courier New&apos;\" style:font-adornments=\"Standard\" style:font-family-generic=\"modern\" style:font-pitch=\"fixed\"/>\n  <style:font-face style:name=\"Consolas\" svg:font-family=\"Consolas\" style:font-adornments=\"Standard\" style:font-family-generic=\"modern\" style:font-pitch=\"fixed\"/>\n  </office:font-face-decls>\n "

/-- The start tag of the styles -/
def odtStylesOpen : Str :=
  c!"<office:styles>"

/-- A default style (odt_writer.py 181-402) -/
def odtStylesDefault1 : Str :=
  c!"\n  <style:default-style style:family=\"graphic\">"

/-- Its properties before the text properties (odt_writer.py 181-402) -/
def odtStylesBefore1 : Str :=
  c!"\n   <style:graphic-properties svg:stroke-color=\"#3465a4\" draw:fill-color=\"#729fcf\" fo:wrap-option=\"no-wrap\" draw:shadow-offset-x=\"0.3cm\" draw:shadow-offset-y=\"0.3cm\" draw:start-line-spacing-horizontal=\"0.283cm\" draw:start-line-spacing-vertical=\"0.283cm\" draw:end-line-spacing-horizontal=\"0.283cm\" draw:end-line-spacing-vertical=\"0.283cm\" style:flow-with-text=\"true\"/>\n   <style:paragraph-properties style:text-autospace=\"ideograph-alpha\" style:line-break=\"strict\" style:writing-mode=\"lr-tb\" style:font-independent-line-spacing=\"false\">\n    <style:tab-stops/>\n   </style:paragraph-properties>\n   "

/-- The text properties (odt_writer.py 181-402), up to the language -/
def odtStylesLang1 : Str :=
  c!"<style:text-properties fo:color=\"#000000\" fo:font-size=\"10pt\" fo:language=\""

/-- Up to the country -/
def odtStylesCtr1 : Str :=
  c!"\" fo:country=\""

/-- After the country -/
def odtStylesRest1 : Str :=
  c!"\" style:font-size-asian=\"10pt\" style:language-asian=\"zxx\" style:country-asian=\"none\" style:font-size-complex=\"1pt\" style:language-complex=\"zxx\" style:country-complex=\"none\"/>"

/-- The end of the default style -/
def odtStylesEnd1 : Str :=
  c!"\n  </style:default-style>"

/-- A default style (odt_writer.py 181-402) -/
def odtStylesDefault2 : Str :=
  c!"\n  <style:default-style style:family=\"paragraph\">"

/-- Its properties before the text properties (odt_writer.py 181-402) -/
def odtStylesBefore2 : Str :=
  c!"\n   <style:paragraph-properties fo:hyphenation-ladder-count=\"no-limit\" style:text-autospace=\"ideograph-alpha\" style:punctuation-wrap=\"hanging\" style:line-break=\"strict\" style:tab-stop-distance=\"1.251cm\" style:writing-mode=\"lr-tb\"/>\n   "

/-- The text properties (odt_writer.py 181-402), up to the language -/
def odtStylesLang2 : Str :=
  c!"<style:text-properties fo:color=\"#000000\" style:font-name=\"Segoe UI\" fo:font-size=\"10pt\" fo:language=\""

/-- Up to the country -/
def odtStylesCtr2 : Str :=
  c!"\" fo:country=\""

/-- After the country -/
def odtStylesRest2 : Str :=
  c!"\" style:font-name-asian=\"Segoe UI\" style:font-size-asian=\"10pt\" style:language-asian=\"zxx\" style:country-asian=\"none\" style:font-name-complex=\"Segoe UI\" style:font-size-complex=\"1pt\" style:language-complex=\"zxx\" style:country-complex=\"none\" fo:hyphenate=\"false\" fo:hyphenation-remain-char-count=\"2\" fo:hyphenation-push-char-count=\"2\"/>"

/-- The end of the default style -/
def odtStylesEnd2 : Str :=
  c!"\n  </style:default-style>"

/-- The other styles (odt_writer.py 181-402), part 1. -/
def odtStylesMore1 : Str :=
  c!"\n  <style:style style:name=\"Standard\" style:family=\"paragraph\" style:class=\"text\" style:master-page-name=\"\">\n   <style:paragraph-properties fo:line-height=\"0.73cm\" style:page-number=\"auto\"/>\n   <style:text-properties style:font-name=\"Courier New\" fo:font-size=\"12pt\" fo:font-weight=\"normal\"/>\n  </style:style>\n  <style:style style:name=\"Text_20_body\" style:display-name=\"Text body\" style:family=\"paragraph\" style:parent-style-name=\"Standard\" style:next-style-name=\"First_20_line_20_indent\" style:class=\"text\" style:master-page-name=\"\">\n   <style:paragraph-properties style:page-number=\"auto\">\n    <style:tab-stops/>\n   </style:paragraph-properties>\n  </style:style>\n  <style:style style:name=\"First_20_line_20_indent\" style:display-name=\"First line indent\" style:family=\"paragraph\" style:parent-style-name=\"Text_20_body\" style:class=\"text\" style:master-page-name=\"\">\n   <style:paragraph-properties loext:contextual-spacing=\"false\" fo:margin=\"100%\" fo:margin-left=\"0cm\" fo:margin-right=\"0cm\" fo:margin-top=\"0cm\" fo:margin-bottom=\"0cm\" fo:text-indent=\"0.499cm\" style:auto-text-indent=\"false\" style:page-number=\"auto\"/>\n  </style:style>\n  <style:style style:name=\"Hanging_20_indent\" style:display-name=\"Hanging indent\" style:family=\"paragraph\" style:parent-style-name=\"Text_20_body\" style:class=\"text\">\n   <style:paragraph-properties loext:contextual-spacing=\"false\" fo:margin=\"100%\" fo:margin-left=\"1cm\" fo:margin-right=\"0cm\" fo:margin-top=\"0cm\" fo:margin-bottom=\"0cm\" fo:text-indent=\"-0.499cm\" style:auto-text-indent=\"false\">\n    <style:tab-stops>\n     <style:tab-stop style:position=\"0cm\"/>\n    </style:tab-stops>\n   </style:paragraph-properties>\n  </style:style>\n  <style:style style:name=\"Text_20_body_20_indent\" style:display-name=\"Text body indent\" style:family=\"paragraph\" style:parent-style-name=\"Text_20_body\" style:class=\"text\">\n   <style:paragraph-properties loext:contextual-spacing=\"false\" fo:margin=\"100%\" fo:margin-left=\"0.499cm\" fo:margin-right=\"0cm\" fo:margin-top=\"0cm\" fo:margin-bottom=\"0cm\" fo:text-indent=\"0cm\" style:auto-text-indent=\"false\"/>\n  </style:style>\n  <style:style style:name=\"Heading\" style:family=\"paragraph\" style:parent-style-name=\"Standard\" style:next-style-name=\"Text_20_body\" style:class=\"text\" style:master-page-name=\"\">\n   <style:paragraph-properties fo:line-height=\"0.73cm\" fo:text-align=\"center\" style:justify-single-word=\"false\" style:page-number=\"auto\" fo:keep-with-next=\"always\">\n    <style:tab-stops/>\n   </style:paragraph-properties>\n  </style:style>\n"

/-- The other styles (odt_writer.py 181-402), part 2. -/
def odtStylesMore2 : Str :=
  c!"  <style:style style:name=\"Heading_20_1\" style:display-name=\"Heading 1\" style:family=\"paragraph\" style:parent-style-name=\"Heading\" style:next-style-name=\"Text_20_body\" style:default-outline-level=\"1\" style:list-style-name=\"\" style:class=\"text\" style:master-page-name=\"\">\n   <style:paragraph-properties loext:contextual-spacing=\"false\" fo:margin-top=\"1.461cm\" fo:margin-bottom=\"0.73cm\" style:page-number=\"auto\">\n    <style:tab-stops/>\n   </style:paragraph-properties>\n   <style:text-properties fo:text-transform=\"uppercase\" fo:font-weight=\"bold\"/>\n  </style:style>\n  <style:style style:name=\"Heading_20_2\" style:display-name=\"Heading 2\" style:family=\"paragraph\" style:parent-style-name=\"Heading\" style:next-style-name=\"Text_20_body\" style:default-outline-level=\"2\" style:list-style-name=\"\" style:class=\"text\" style:master-page-name=\"\">\n   <style:paragraph-properties loext:contextual-spacing=\"false\" fo:margin-top=\"1.461cm\" fo:margin-bottom=\"0.73cm\" style:page-number=\"auto\"/>\n   <style:text-properties fo:font-weight=\"bold\"/>\n  </style:style>\n  <style:style style:name=\"Heading_20_3\" style:display-name=\"Heading 3\" style:family=\"paragraph\" style:parent-style-name=\"Heading\" style:next-style-name=\"Text_20_body\" style:default-outline-level=\"3\" style:list-style-name=\"\" style:class=\"text\" style:master-page-name=\"\">\n   <style:paragraph-properties loext:contextual-spacing=\"false\" fo:margin-top=\"0.73cm\" fo:margin-bottom=\"0.73cm\" style:page-number=\"auto\"/>\n   <style:text-properties fo:font-style=\"italic\"/>\n  </style:style>\n  <style:style style:name=\"Heading_20_4\" style:display-name=\"Heading 4\" style:family=\"paragraph\" style:parent-style-name=\"Heading\" style:next-style-name=\"Text_20_body\" style:default-outline-level=\"\" style:list-style-name=\"\" style:class=\"text\" style:master-page-name=\"\">\n   <style:paragraph-properties fo:margin-top=\"0.73cm\" fo:margin-bottom=\"0.73cm\" style:page-number=\"auto\"/>\n  </style:style>\n  <style:style style:name=\"Heading_20_5\" style:display-name=\"Heading 5\" style:family=\"paragraph\" style:parent-style-name=\"Heading\" style:next-style-name=\"Text_20_body\" style:default-outline-level=\"\" style:list-style-name=\"\" style:class=\"text\" style:master-page-name=\"\">\n   <style:paragraph-properties style:page-number=\"auto\"/>\n  </style:style>\n  <style:style style:name=\"Heading_20_6\" style:display-name=\"Heading 6\" style:family=\"paragraph\" style:parent-style-name=\"Heading\" style:next-style-name=\"Text_20_body\" style:default-outline-level=\"\" style:list-style-name=\"\" style:class=\"text\"/>\n"

/-- The other styles (odt_writer.py 181-402), part 3. -/
def odtStylesMore3 : Str :=
  c!"  <style:style style:name=\"Heading_20_7\" style:display-name=\"Heading 7\" style:family=\"paragraph\" style:parent-style-name=\"Heading\" style:next-style-name=\"Text_20_body\" style:default-outline-level=\"\" style:list-style-name=\"\" style:class=\"text\"/>\n  <style:style style:name=\"Heading_20_8\" style:display-name=\"Heading 8\" style:family=\"paragraph\" style:parent-style-name=\"Heading\" style:next-style-name=\"Text_20_body\" style:default-outline-level=\"\" style:list-style-name=\"\" style:class=\"text\"/>\n  <style:style style:name=\"Heading_20_9\" style:display-name=\"Heading 9\" style:family=\"paragraph\" style:parent-style-name=\"Heading\" style:next-style-name=\"Text_20_body\" style:default-outline-level=\"\" style:list-style-name=\"\" style:class=\"text\"/>\n  <style:style style:name=\"Heading_20_10\" style:display-name=\"Heading 10\" style:family=\"paragraph\" style:parent-style-name=\"Heading\" style:next-style-name=\"Text_20_body\" style:default-outline-level=\"10\" style:list-style-name=\"\" style:class=\"text\">\n   <style:text-properties fo:font-size=\"75%\" fo:font-weight=\"bold\"/>\n  </style:style>\n  <style:style style:name=\"Header\" style:family=\"paragraph\" style:parent-style-name=\"Standard\" style:class=\"extra\" style:master-page-name=\"\">\n   <style:paragraph-properties fo:text-align=\"end\" style:justify-single-word=\"false\" style:page-number=\"auto\" fo:padding=\"0.049cm\" fo:border-left=\"none\" fo:border-right=\"none\" fo:border-top=\"none\" fo:border-bottom=\"0.002cm solid #000000\" style:shadow=\"none\">\n    <style:tab-stops>\n     <style:tab-stop style:position=\"8.5cm\" style:type=\"center\"/>\n     <style:tab-stop style:position=\"17.002cm\" style:type=\"right\"/>\n    </style:tab-stops>\n   </style:paragraph-properties>\n   <style:text-properties fo:font-variant=\"normal\" fo:text-transform=\"none\" fo:font-style=\"italic\"/>\n  </style:style>\n  <style:style style:name=\"Header_20_left\" style:display-name=\"Header left\" style:family=\"paragraph\" style:parent-style-name=\"Standard\" style:class=\"extra\">\n   <style:paragraph-properties>\n    <style:tab-stops>\n     <style:tab-stop style:position=\"8.5cm\" style:type=\"center\"/>\n     <style:tab-stop style:position=\"17.002cm\" style:type=\"right\"/>\n    </style:tab-stops>\n   </style:paragraph-properties>\n  </style:style>\n  <style:style style:name=\"Header_20_right\" style:display-name=\"Header right\" style:family=\"paragraph\" style:parent-style-name=\"Standard\" style:class=\"extra\">\n   <style:paragraph-properties>\n    <style:tab-stops>\n     <style:tab-stop style:position=\"8.5cm\" style:type=\"center\"/>\n     <style:tab-stop style:position=\"17.002cm\" style:type=\"right\"/>\n    </style:tab-stops>\n"

/-- The other styles (odt_writer.py 181-402), part 4. -/
def odtStylesMore4 : Str :=
  c!"   </style:paragraph-properties>\n  </style:style>\n  <style:style style:name=\"Footer\" style:family=\"paragraph\" style:parent-style-name=\"Standard\" style:class=\"extra\" style:master-page-name=\"\">\n   <style:paragraph-properties fo:text-align=\"center\" style:justify-single-word=\"false\" style:page-number=\"auto\" text:number-lines=\"false\" text:line-number=\"0\">\n    <style:tab-stops>\n     <style:tab-stop style:position=\"8.5cm\" style:type=\"center\"/>\n     <style:tab-stop style:position=\"17.002cm\" style:type=\"right\"/>\n    </style:tab-stops>\n   </style:paragraph-properties>\n   <style:text-properties fo:font-size=\"11pt\"/>\n  </style:style>\n  <style:style style:name=\"Footer_20_left\" style:display-name=\"Footer left\" style:family=\"paragraph\" style:parent-style-name=\"Standard\" style:class=\"extra\">\n   <style:paragraph-properties>\n    <style:tab-stops>\n     <style:tab-stop style:position=\"8.5cm\" style:type=\"center\"/>\n     <style:tab-stop style:position=\"17.002cm\" style:type=\"right\"/>\n    </style:tab-stops>\n   </style:paragraph-properties>\n  </style:style>\n  <style:style style:name=\"Footer_20_right\" style:display-name=\"Footer right\" style:family=\"paragraph\" style:parent-style-name=\"Standard\" style:class=\"extra\">\n   <style:paragraph-properties>\n    <style:tab-stops>\n     <style:tab-stop style:position=\"8.5cm\" style:type=\"center\"/>\n     <style:tab-stop style:position=\"17.002cm\" style:type=\"right\"/>\n    </style:tab-stops>\n   </style:paragraph-properties>\n  </style:style>\n  <style:style style:name=\"Title\" style:family=\"paragraph\" style:parent-style-name=\"Standard\" style:next-style-name=\"Subtitle\" style:class=\"chapter\" style:master-page-name=\"\">\n   <style:paragraph-properties loext:contextual-spacing=\"false\" fo:margin=\"100%\" fo:margin-left=\"0cm\" fo:margin-right=\"0cm\" fo:margin-top=\"0.000cm\" fo:margin-bottom=\"0cm\" fo:line-height=\"200%\" fo:text-align=\"center\" style:justify-single-word=\"false\" fo:text-indent=\"0cm\" style:auto-text-indent=\"false\" style:page-number=\"auto\" fo:background-color=\"transparent\" fo:padding=\"0cm\" fo:border=\"none\" text:number-lines=\"false\" text:line-number=\"0\">\n    <style:tab-stops/>\n    <style:background-image/>\n   </style:paragraph-properties>\n   <style:text-properties fo:text-transform=\"uppercase\" fo:font-weight=\"normal\" style:letter-kerning=\"false\"/>\n  </style:style>\n  <style:style style:name=\"Subtitle\" style:family=\"paragraph\" style:parent-style-name=\"Title\" style:class=\"chapter\" style:master-page-name=\"\">\n   <style:paragraph-properties loext:contextual-spacing=\"false\" fo:margin-top=\"0cm\" fo:margin-bottom=\"0cm\" style:page-number=\"auto\"/>\n"

/-- The other styles (odt_writer.py 181-402), part 5. -/
def odtStylesMore5 : Str :=
  c!"   <style:text-properties fo:font-variant=\"normal\" fo:text-transform=\"none\" fo:letter-spacing=\"normal\" fo:font-style=\"italic\" fo:font-weight=\"normal\"/>\n  </style:style>\n  <style:style style:name=\"Quotations\" style:family=\"paragraph\" style:parent-style-name=\"Text_20_body\" style:class=\"html\">\n   <style:paragraph-properties fo:margin=\"100%\" fo:margin-left=\"1cm\" fo:margin-right=\"0cm\" fo:margin-top=\"0cm\" fo:margin-bottom=\"0cm\" fo:text-indent=\"0cm\" style:auto-text-indent=\"false\"/>\n   <style:text-properties style:font-name=\"Consolas\"/>\n  </style:style>\n  <style:style style:name=\"scene_20_mark\" style:display-name=\"Scene mark\" style:family=\"paragraph\" style:parent-style-name=\"Standard\" style:next-style-name=\"Standard\" style:class=\"text\">\n   <style:text-properties fo:color=\"#008000\" fo:font-size=\"10pt\" fo:language=\"zxx\" fo:country=\"none\"/>\n  </style:style>\n  <style:style style:name=\"scene_20_mark_20_unused\" style:display-name=\"Scene mark (unused type)\" style:family=\"paragraph\" style:parent-style-name=\"Standard\" style:next-style-name=\"Standard\" style:class=\"text\">\n   <style:text-properties fo:color=\"#808080\" fo:font-size=\"10pt\" fo:language=\"zxx\" fo:country=\"none\"/>\n  </style:style>\n  <style:style style:name=\"scene_20_mark_20_notes\" style:display-name=\"Scene mark (notes type)\" style:family=\"paragraph\" style:parent-style-name=\"Standard\" style:next-style-name=\"Standard\" style:class=\"text\">\n   <style:text-properties fo:color=\"#0000FF\" fo:font-size=\"10pt\" fo:language=\"zxx\" fo:country=\"none\"/>\n  </style:style>\n  <style:style style:name=\"scene_20_mark_20_todo\" style:display-name=\"Scene mark (todo type)\" style:family=\"paragraph\" style:parent-style-name=\"Standard\" style:next-style-name=\"Standard\" style:class=\"text\">\n   <style:text-properties fo:color=\"#B22222\" fo:font-size=\"10pt\" fo:language=\"zxx\" fo:country=\"none\"/>\n  </style:style>\n  <style:style style:name=\"Invisible_20_Heading_20_3\" style:display-name=\"Invisible Heading 3\" style:family=\"paragraph\" style:parent-style-name=\"Heading_20_3\" style:class=\"text\">\n   <style:paragraph-properties fo:margin-top=\"0cm\" fo:margin-bottom=\"0cm\" fo:line-height=\"100%\"/>\n   <style:text-properties text:display=\"none\"/>\n  </style:style>\n  <style:style style:name=\"Emphasis\" style:family=\"text\">\n   <style:text-properties fo:font-style=\"italic\" fo:background-color=\"transparent\"/>\n  </style:style>\n  <style:style style:name=\"Strong_20_Emphasis\" style:display-name=\"Strong Emphasis\" style:family=\"text\">\n   <style:text-properties fo:text-transform=\"uppercase\"/>\n  </style:style>\n "

/-- The other styles (odt_writer.py 181-402). -/
def odtStylesMore : Str := odtStylesMore1 ++ odtStylesMore2 ++ odtStylesMore3 ++ odtStylesMore4 ++ odtStylesMore5

/-- The end of the styles -/
def odtStylesClose : Str :=
  c!"</office:styles>"

/-- Automatic styles and master styles (odt_writer.py 181-402) -/
def odtStylesLayout : Str :=
  c!"\n <office:automatic-styles>\n  <style:page-layout style:name=\"Mpm1\">\n   <style:page-layout-properties fo:page-width=\"21.001cm\" fo:page-height=\"29.7cm\" style:num-format=\"1\" style:paper-tray-name=\"[From printer settings]\" style:print-orientation=\"portrait\" fo:margin-top=\"3.2cm\" fo:margin-bottom=\"2.499cm\" fo:margin-left=\"2.701cm\" fo:margin-right=\"3cm\" style:writing-mode=\"lr-tb\" style:layout-grid-color=\"#c0c0c0\" style:layout-grid-lines=\"20\" style:layout-grid-base-height=\"0.706cm\" style:layout-grid-ruby-height=\"0.353cm\" style:layout-grid-mode=\"none\" style:layout-grid-ruby-below=\"false\" style:layout-grid-print=\"false\" style:layout-grid-display=\"false\" style:footnote-max-height=\"0cm\">\n    <style:columns fo:column-count=\"1\" fo:column-gap=\"0cm\"/>\n    <style:footnote-sep style:width=\"0.018cm\" style:distance-before-sep=\"0.101cm\" style:distance-after-sep=\"0.101cm\" style:adjustment=\"left\" style:rel-width=\"25%\" style:color=\"#000000\"/>\n   </style:page-layout-properties>\n   <style:header-style/>\n   <style:footer-style>\n    <style:header-footer-properties fo:min-height=\"1.699cm\" fo:margin-left=\"0cm\" fo:margin-right=\"0cm\" fo:margin-top=\"1.199cm\" style:shadow=\"none\" style:dynamic-spacing=\"false\"/>\n   </style:footer-style>\n  </style:page-layout>\n </office:automatic-styles>\n <office:master-styles>\n  <style:master-page style:name=\"Standard\" style:page-layout-name=\"Mpm1\">\n   <style:footer>\n    <text:p text:style-name=\"Footer\"><text:page-number text:select-page=\"current\"/></text:p>\n   </style:footer>\n  </style:master-page>\n </office:master-styles>\n"

/-- The end -/
def odtStylesStop : Str :=
  c!"</office:document-styles>\n"

/-- `_STYLES_XML` (odt_writer.py 181-402). -/
def odtStylesXml : Str :=
  odtStylesProlog ++ (odtStylesRoot ++ (odtStylesFonts ++ (odtStylesOpen ++ (odtStylesDefault1 ++ (odtStylesBefore1 ++ (odtStylesLang1 ++ (c!"$Language" ++ (odtStylesCtr1 ++ (c!"$Country" ++ (odtStylesRest1 ++ (odtStylesEnd1 ++ (odtStylesDefault2 ++ (odtStylesBefore2 ++ (odtStylesLang2 ++ (c!"$Language" ++ (odtStylesCtr2 ++ (c!"$Country" ++ (odtStylesRest2 ++ (odtStylesEnd2 ++ (odtStylesMore ++ (odtStylesClose ++ (odtStylesLayout ++ (odtStylesStop)))))))))))))))))))))))

/-- The declaration (ods_writer.py 182-265) -/
def odsStylesProlog : Str :=
  c!"<?xml version=\"1.0\" encoding=\"UTF-8\"?>\n\n"

/-- The start tag (ods_writer.py 182-265) -/
def odsStylesRoot : Str :=
  c!"<office:document-styles xmlns:office=\"urn:oasis:names:tc:opendocument:xmlns:office:1.0\" xmlns:style=\"urn:oasis:names:tc:opendocument:xmlns:style:1.0\" xmlns:text=\"urn:oasis:names:tc:opendocument:xmlns:text:1.0\" xmlns:table=\"urn:oasis:names:tc:opendocument:xmlns:table:1.0\" xmlns:draw=\"urn:oasis:names:tc:opendocument:xmlns:drawing:1.0\" xmlns:fo=\"urn:oasis:names:tc:opendocument:xmlns:xsl-fo-compatible:1.0\" xmlns:xlink=\"http://www.w3.org/1999/xlink\" xmlns:dc=\"http://purl.org/dc/elements/1.1/\" xmlns:meta=\"urn:oasis:names:tc:opendocument:xmlns:meta:1.0\" xmlns:number=\"urn:oasis:names:tc:opendocument:xmlns:datastyle:1.0\" xmlns:presentation=\"urn:oasis:names:tc:opendocument:xmlns:presentation:1.0\" xmlns:svg=\"urn:oasis:names:tc:opendocument:xmlns:svg-compatible:1.0\" xmlns:chart=\"urn:oasis:names:tc:opendocument:xmlns:chart:1.0\" xmlns:dr3d=\"urn:oasis:names:tc:opendocument:xmlns:dr3d:1.0\" xmlns:math=\"http://www.w3.org/1998/Math/MathML\" xmlns:form=\"urn:oasis:names:tc:opendocument:xmlns:form:1.0\" xmlns:script=\"urn:oasis:names:tc:opendocument:xmlns:script:1.0\" xmlns:ooo=\"http://openoffice.org/2004/office\" xmlns:ooow=\"http://openoffice.org/2004/writer\" xmlns:oooc=\"http://openoffice.org/2004/calc\" xmlns:dom=\"http://www.w3.org/2001/xml-events\" xmlns:rpt=\"http://openoffice.org/2005/report\" xmlns:of=\"urn:oasis:names:tc:opendocument:xmlns:of:1.2\" xmlns:xhtml=\"http://www.w3.org/1999/xhtml\" xmlns:grddl=\"http://www.w3.org/2003/g/data-view#\" xmlns:tableooo=\"http://openoffice.org/2009/table\" office:version=\"1.2\">"

/-- The fonts (ods_writer.py 182-265) -/
def odsStylesFonts : Str :=
  c!"\n <office:font-face-decls>\n  <style:font-face style:name=\"Segoe UI\" svg:font-family=\"&apos;Segoe UI&apos;\" style:font-adornments=\"Standard\" style:font-family-generic=\"swiss\" style:font-pitch=\"variable\"/>\n </office:font-face-decls>\n "

/-- The start tag of the styles -/
def odsStylesOpen : Str :=
  c!"<office:styles>"

/-- A default style (ods_writer.py 182-265) -/
def odsStylesDefault1 : Str :=
  c!"\n  <style:default-style style:family=\"table-cell\">"

/-- Its properties before the text properties (ods_writer.py 182-265) -/
def odsStylesBefore1 : Str :=
  c!"\n   <style:paragraph-properties style:tab-stop-distance=\"1.25cm\"/>\n   "

/-- The text properties (ods_writer.py 182-265), up to the language -/
def odsStylesLang1 : Str :=
  c!"<style:text-properties style:font-name=\"Arial\" fo:language=\""

/-- Up to the country -/
def odsStylesCtr1 : Str :=
  c!"\" fo:country=\""

/-- After the country -/
def odsStylesRest1 : Str :=
  c!"\" style:font-name-asian=\"Arial Unicode MS\" style:language-asian=\"zh\" style:country-asian=\"CN\" style:font-name-complex=\"Tahoma\" style:language-complex=\"hi\" style:country-complex=\"IN\"/>"

/-- The end of the default style -/
def odsStylesEnd1 : Str :=
  c!"\n  </style:default-style>"

/-- The other styles (ods_writer.py 182-265) -/
def odsStylesMore : Str :=
  c!"\n  <number:number-style style:name=\"N0\">\n   <number:number number:min-integer-digits=\"1\"/>\n  </number:number-style>\n  <style:style style:name=\"Default\" style:family=\"table-cell\">\n   <style:table-cell-properties style:text-align-source=\"fix\" style:repeat-content=\"false\" fo:background-color=\"transparent\" fo:wrap-option=\"wrap\" fo:padding=\"0.136cm\" style:vertical-align=\"top\"/>\n   <style:paragraph-properties fo:text-align=\"start\"/>\n   <style:text-properties style:font-name=\"Segoe UI\" style:font-name-asian=\"Microsoft YaHei\" style:font-name-complex=\"Arial Unicode MS\"/>\n  </style:style>\n  <style:style style:name=\"Result\" style:family=\"table-cell\" style:parent-style-name=\"Default\">\n   <style:text-properties fo:font-style=\"italic\" style:text-underline-style=\"solid\" style:text-underline-width=\"auto\" style:text-underline-color=\"font-color\" fo:font-weight=\"bold\"/>\n  </style:style>\n  <style:style style:name=\"Result2\" style:family=\"table-cell\" style:parent-style-name=\"Result\"/>\n  <style:style style:name=\"Heading\" style:family=\"table-cell\" style:parent-style-name=\"Default\">\n   <style:table-cell-properties fo:background-color=\"#cfe7f5\" style:text-align-source=\"fix\" style:repeat-content=\"false\"/>\n   <style:paragraph-properties fo:text-align=\"start\"/>\n   <style:text-properties fo:font-weight=\"bold\"/>\n  </style:style>\n  <style:style style:name=\"Heading1\" style:family=\"table-cell\" style:parent-style-name=\"Heading\">\n   <style:table-cell-properties style:rotation-angle=\"90\"/>\n  </style:style>\n "

/-- The end of the styles -/
def odsStylesClose : Str :=
  c!"</office:styles>"

/-- Automatic styles and master styles (ods_writer.py 182-265) -/
def odsStylesLayout : Str :=
  c!"\n <office:automatic-styles>\n  <style:page-layout style:name=\"Mpm1\">\n   <style:page-layout-properties style:writing-mode=\"lr-tb\"/>\n   <style:header-style>\n    <style:header-footer-properties fo:min-height=\"0.751cm\" fo:margin-left=\"0cm\" fo:margin-right=\"0cm\" fo:margin-bottom=\"0.25cm\"/>\n   </style:header-style>\n   <style:footer-style>\n    <style:header-footer-properties fo:min-height=\"0.751cm\" fo:margin-left=\"0cm\" fo:margin-right=\"0cm\" fo:margin-top=\"0.25cm\"/>\n   </style:footer-style>\n  </style:page-layout>\n  <style:page-layout style:name=\"Mpm2\">\n   <style:page-layout-properties style:writing-mode=\"lr-tb\"/>\n   <style:header-style>\n    <style:header-footer-properties fo:min-height=\"0.751cm\" fo:margin-left=\"0cm\" fo:margin-right=\"0cm\" fo:margin-bottom=\"0.25cm\" fo:border=\"0.088cm solid #000000\" fo:padding=\"0.018cm\" fo:background-color=\"#c0c0c0\">\n     <style:background-image/>\n    </style:header-footer-properties>\n   </style:header-style>\n   <style:footer-style>\n    <style:header-footer-properties fo:min-height=\"0.751cm\" fo:margin-left=\"0cm\" fo:margin-right=\"0cm\" fo:margin-top=\"0.25cm\" fo:border=\"0.088cm solid #000000\" fo:padding=\"0.018cm\" fo:background-color=\"#c0c0c0\">\n     <style:background-image/>\n    </style:header-footer-properties>\n   </style:footer-style>\n  </style:page-layout>\n </office:automatic-styles>\n <office:master-styles>\n  <style:master-page style:name=\"Default\" style:page-layout-name=\"Mpm1\">\n   <style:header>\n    <text:p><text:sheet-name>???</text:sheet-name></text:p>\n   </style:header>\n   <style:header-left style:display=\"false\"/>\n   <style:footer>\n    <text:p>Seite <text:page-number>1</text:page-number></text:p>\n   </style:footer>\n   <style:footer-left style:display=\"false\"/>\n  </style:master-page>\n  <style:master-page style:name=\"Report\" style:page-layout-name=\"Mpm2\">\n   <style:header>\n    <style:region-left>\n     <text:p><text:sheet-name>???</text:sheet-name> (<text:title>???</text:title>)</text:p>\n    </style:region-left>\n    <style:region-right>\n     <text:p><text:date style:data-style-name=\"N2\" text:date-value=\"2021-03-15\">15.03.2021</text:date>, <text:time>15:34:40</text:time></text:p>\n    </style:region-right>\n   </style:header>\n   <style:header-left style:display=\"false\"/>\n   <style:footer>\n    <text:p>Seite <text:page-number>1</text:page-number> / <text:page-count>99</text:page-count></text:p>\n   </style:footer>\n   <style:footer-left style:display=\"false\"/>\n  </style:master-page>\n </office:master-styles>\n"

/-- The end -/
def odsStylesStop : Str :=
  c!"</office:document-styles>\n"

/-- `_STYLES_XML` (ods_writer.py 182-265). -/
def odsStylesXml : Str :=
  odsStylesProlog ++ (odsStylesRoot ++ (odsStylesFonts ++ (odsStylesOpen ++ (odsStylesDefault1 ++ (odsStylesBefore1 ++ (odsStylesLang1 ++ (c!"$Language" ++ (odsStylesCtr1 ++ (c!"$Country" ++ (odsStylesRest1 ++ (odsStylesEnd1 ++ (odsStylesMore ++ (odsStylesClose ++ (odsStylesLayout ++ (odsStylesStop)))))))))))))))

/-- A part of `_META_XML` (odt_writer.py 42-56) -/
def metaHead : Str :=
  c!"<?xml version=\"1.0\" encoding=\"utf-8\"?>\n<office:document-meta xmlns:office=\"urn:oasis:names:tc:opendocument:xmlns:office:1.0\" xmlns:xlink=\"http://www.w3.org/1999/xlink\" xmlns:dc=\"http://purl.org/dc/elements/1.1/\" xmlns:meta=\"urn:oasis:names:tc:opendocument:xmlns:meta:1.0\" xmlns:ooo=\"http://openoffice.org/2004/office\" xmlns:grddl=\"http://www.w3.org/2003/g/data-view#\" office:version=\"1.2\">\n  <office:meta>\n    <meta:generator>PyWriter</meta:generator>\n    <dc:title>"

/-- A part of `_META_XML` (odt_writer.py 42-56) -/
def metaDesc : Str :=
  c!"</dc:title>\n    <dc:description>"

/-- A part of `_META_XML` (odt_writer.py 42-56) -/
def metaAuthor : Str :=
  c!"</dc:description>\n    <dc:subject></dc:subject>\n    <meta:keyword></meta:keyword>\n    <meta:initial-creator>"

/-- A part of `_META_XML` (odt_writer.py 42-56) -/
def metaDate : Str :=
  c!"</meta:initial-creator>\n    <dc:creator></dc:creator>\n    <meta:creation-date>"

/-- A part of `_META_XML` (odt_writer.py 42-56) -/
def metaEnd : Str :=
  c!"Z</meta:creation-date>\n    <dc:date></dc:date>\n  </office:meta>\n</office:document-meta>\n"

/-- `_META_XML` (odt_writer.py 42-56; the same in ods_writer.py 64-78). -/
def metaXml : Str :=
  metaHead ++ (c!"$Title" ++ (metaDesc ++ (c!"$Summary" ++ (metaAuthor ++ (c!"$Author" ++ (metaDate ++ (c!"${Datetime}" ++ metaEnd)))))))

/-- `str(value)` of a text or `None`, as `safe_substitute` and f-strings use it. -/
def strOrNone (v : Option Str) : Str := v.getD c!"None"

/-- `styles.xml` (odf_file.py 134-141): the locale is checked first, and the checked one is inserted. -/
def stylesText (template : Str) (sysLng sysCtr : Str) (n : Novel) : Str :=
  let n := n.checkLocale sysLng sysCtr
  Template.subst template [(c!"Language", strOrNone n.languageCode), (c!"Country", strOrNone n.countryCode)]

/-- `meta.xml` (odf_file.py 148-156); `now` is the date and time. -/
def metaText (now : Str) (n : Novel) : Str :=
  Template.subst metaXml [(c!"Author", strOrNone n.authorName), (c!"Title", strOrNone n.title),
    (c!"Summary", c!"<![CDATA[" ++ strOrNone n.desc ++ c!"]]>"), (c!"Datetime", now)]

end Verif
