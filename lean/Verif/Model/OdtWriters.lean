/-
The ODT document writers with chapters and scenes: odt_w/odt_w_export.py, odt_w_manuscript.py, odt_w_notes.py, odt_w_todo.py,
odt_w_scenedesc.py, odt_w_chapterdesc.py, odt_w_partdesc.py, odt_w_brief_synopsis.py.
-/
import Verif.Model.OdtText

namespace Verif

/-- What a writer instance knows besides the novel: project name and path, and the document header text (`_CONTENT_XML_HEADER`; for
`OdtWFormatted` with the automatic styles for the document languages, odt_w_formatted.py 111-139). The header is a constant apart from
the language styles; it is a parameter here. -/
structure DocEnv where
  projectName : Str
  projectPath : Str
  contentHeader : List Str → Str

/-- `_CONTENT_XML_FOOTER` (odt_w/odt_writer.py 37-40). -/
def contentFooter : Str := c!"  </office:text>\n </office:body>\n</office:document-content>\n"

/-- The title lines of all ODT documents (e.g. odt_w_export.py 18-20). -/
def titleTemplate : Str :=
  c!"$ContentHeader<text:p text:style-name=\"Title\">$Title</text:p>\n<text:p text:style-name=\"Subtitle\">$AuthorName</text:p>\n"

/-- The base of the writers that export formatted text. -/
def DocEnv.exportBase (e : DocEnv) : Base := ⟨odtExportConvert, e.projectName, e.projectPath⟩

/-- The base of the manuscript writers. -/
def DocEnv.formattedBase (e : DocEnv) : Base := ⟨odtFormattedConvert, e.projectName, e.projectPath⟩

/-- The base of the writers that export plain text (`OdtWriter`). -/
def DocEnv.plainBase (e : DocEnv) : Base := ⟨fun _ t q => odtConvert t q, e.projectName, e.projectPath⟩

/-- `_get_fileHeaderMapping` with the content header (odt_w_formatted.py 136-139). -/
def headerWith (e : DocEnv) (b : Base) (n : Novel) : Except Exc Mapping := do
  let m ← b.header n
  .ok (Dict.set m c!"ContentHeader" (e.contentHeader (n.languages.getD [])))

/-- `_get_chapterMapping` that suppresses the chapter title (odt_w_export.py 53-66, odt_w_manuscript.py 52-65). -/
def chapterSuppressed (b : Base) (n : Novel) (chId : Str) (k : Nat) : Except Exc Mapping := do
  let m ← b.chapter n chId k
  let ch ← n.chapters.get! chId
  .ok (if ch.suppressChapterTitle = some true then Dict.set m c!"Title" [] else m)

/-- The exporter with the base class mappings, the translated word "Scene" added (odt_w/odt_writer.py 400-413). -/
def exporterOf (e : DocEnv) (b : Base) (t : Templates) : Exporter :=
  { t with
    headerMapping := headerWith e b
    chapterMapping := b.chapter
    sceneMapping := fun n id k w l => do
      let m ← b.scene n id k w l
      .ok (Dict.set m c!"sceneTitle" c!"Scene")
    characterMapping := b.character
    locationMapping := b.location
    itemMapping := b.item
    noteMapping := b.note }

/-- `* * *` (odt_w_export.py 34, odt_w_manuscript.py 43, odt_w_scenedesc.py 43-44). -/
def starsDivider : Str := c!"<text:p text:style-name=\"Heading_20_4\">* * *</text:p>\n"

/-- The templates of `OdtWExport` (odt_w/odt_w_export.py 18-35); the stray `'` at the beginning of the scene template is in the code. -/
def exportTemplates : Templates :=
  { fileHeader := titleTemplate
    part := c!"<text:h text:style-name=\"Heading_20_1\" text:outline-level=\"1\">$Title</text:h>\n"
    chapter := c!"<text:h text:style-name=\"Heading_20_2\" text:outline-level=\"2\">$Title</text:h>\n"
    scene := c!"'<text:p text:style-name=\"Text_20_body\">$SceneContent</text:p>\n    "
    appendedScene := c!"<text:p text:style-name=\"First_20_line_20_indent\">$SceneContent</text:p>\n"
    sceneDivider := starsDivider
    fileFooter := contentFooter }

/-- `OdtWExport` (odt_w/odt_w_export.py). -/
def odtExport (e : DocEnv) : Exporter :=
  { exporterOf e e.exportBase exportTemplates with chapterMapping := chapterSuppressed e.exportBase }

/-- The beginning of a section for a chapter (odt_w_manuscript.py 24, 28). -/
def chSection : Str := c!"<text:section text:style-name=\"Sect1\" text:name=\"ChID:$ID\">\n"

/-- The beginning of a section for a scene (odt_w_manuscript.py 33, 39). -/
def scSection : Str := c!"<text:section text:style-name=\"Sect1\" text:name=\"ScID:$ID\">\n"

/-- The end of a section. -/
def sectionEnd : Str := c!"</text:section>\n"

/-- The templates of `OdtWManuscript` (odt_w/odt_w_manuscript.py 20-50). -/
def manuscriptTemplates : Templates :=
  { fileHeader := titleTemplate
    part := chSection ++ c!"<text:h text:style-name=\"Heading_20_1\" text:outline-level=\"1\">$Title</text:h>\n"
    chapter := chSection ++ c!"<text:h text:style-name=\"Heading_20_2\" text:outline-level=\"2\">$Title</text:h>\n"
    scene := c!"<text:h text:style-name=\"Invisible_20_Heading_20_3\" text:outline-level=\"3\">$Title</text:h>\n" ++ scSection ++
      c!"<text:p text:style-name=\"Text_20_body\">$SceneContent</text:p>\n" ++ sectionEnd
    appendedScene := c!"<text:h text:style-name=\"Invisible_20_Heading_20_3\" text:outline-level=\"3\">$Title</text:h>\n" ++ scSection ++
      c!"<text:p text:style-name=\"First_20_line_20_indent\">$SceneContent</text:p>\n" ++ sectionEnd
    sceneDivider := starsDivider
    chapterEnd := sectionEnd
    fileFooter := contentFooter }

/-- `OdtWManuscript._get_sceneMapping` and its relatives add the translated word "Summary" (odt_w_manuscript.py 67-80). -/
def withSummary (e : DocEnv) (b : Base) (t : Templates) : Exporter :=
  { exporterOf e b t with
    chapterMapping := chapterSuppressed b
    sceneMapping := fun n id k w l => do
      let m ← (exporterOf e b t).sceneMapping n id k w l
      .ok (Dict.set m c!"Summary" c!"Summary") }

/-- `OdtWManuscript` (odt_w/odt_w_manuscript.py). -/
def odtManuscript (e : DocEnv) : Exporter := withSummary e e.formattedBase manuscriptTemplates

/-- The scene template of the notes and todo documents (odt_w_notes.py 34-38, odt_w_todo.py 34-38). -/
def noteSceneTemplate : Str :=
  c!"<text:h text:style-name=\"Heading_20_3\" text:outline-level=\"3\">$Title</text:h>\n" ++ scSection ++
  c!"<text:p text:style-name=\"Text_20_body\">$SceneContent</text:p>\n" ++ sectionEnd

/-- The templates of `OdtWNotes` (odt_w/odt_w_notes.py 20-42). -/
def notesTemplates : Templates :=
  { fileHeader := titleTemplate
    notesPart := chSection ++ c!"<text:h text:style-name=\"Heading_20_1\" text:outline-level=\"1\">$Title</text:h>\n"
    notesChapter := chSection ++ c!"<text:h text:style-name=\"Heading_20_2\" text:outline-level=\"2\">$Title</text:h>\n"
    notesScene := noteSceneTemplate
    notesChapterEnd := sectionEnd
    fileFooter := contentFooter }

/-- `OdtWNotes`. -/
def odtNotes (e : DocEnv) : Exporter := withSummary e e.formattedBase notesTemplates

/-- The templates of `OdtWTodo` (odt_w/odt_w_todo.py 20-42). -/
def todoTemplates : Templates :=
  { fileHeader := titleTemplate
    todoPart := chSection ++ c!"<text:h text:style-name=\"Heading_20_1\" text:outline-level=\"1\">$Title</text:h>\n"
    todoChapter := chSection ++ c!"<text:h text:style-name=\"Heading_20_2\" text:outline-level=\"2\">$Title</text:h>\n"
    todoScene := noteSceneTemplate
    todoChapterEnd := sectionEnd
    fileFooter := contentFooter }

/-- `OdtWTodo`. -/
def odtTodo (e : DocEnv) : Exporter := withSummary e e.formattedBase todoTemplates

/-- A chapter heading with a link to the manuscript (odt_w_scenedesc.py 28, odt_w_chapterdesc.py 27). -/
def linkedHeading (level : Str) : Str :=
  c!"<text:h text:style-name=\"Heading_20_" ++ level ++ c!"\" text:outline-level=\"" ++ level ++
  c!"\"><text:a xlink:href=\"../${ProjectName}_manuscript.odt#ChID:$ID%7Cregion\">$Title</text:a></text:h>\n"

/-- The templates of `OdtWSceneDesc` (odt_w/odt_w_scenedesc.py 19-49). -/
def sceneDescTemplates : Templates :=
  { fileHeader := titleTemplate
    part := chSection ++ c!"<text:h text:style-name=\"Heading_20_1\" text:outline-level=\"1\">$Title</text:h>\n"
    chapter := chSection ++ linkedHeading c!"2"
    scene := c!"<text:h text:style-name=\"Invisible_20_Heading_20_3\" text:outline-level=\"3\">$Title</text:h>\n" ++ scSection ++
      c!"<text:p text:style-name=\"Text_20_body\">$Desc</text:p>\n" ++ sectionEnd
    appendedScene := c!"<text:h text:style-name=\"Invisible_20_Heading_20_3\" text:outline-level=\"3\">$Title</text:h>\n" ++ scSection ++
      c!"<text:p text:style-name=\"First_20_line_20_indent\">$Desc</text:p>\n" ++ sectionEnd
    sceneDivider := starsDivider
    chapterEnd := sectionEnd
    fileFooter := contentFooter }

/-- `OdtWSceneDesc`. -/
def odtSceneDesc (e : DocEnv) : Exporter := exporterOf e e.plainBase sceneDescTemplates

/-- The templates of `OdtWChapterDesc` (odt_w/odt_w_chapterdesc.py 19-32). -/
def chapterDescTemplates : Templates :=
  { fileHeader := titleTemplate
    part := c!"<text:h text:style-name=\"Heading_20_1\" text:outline-level=\"1\">$Title</text:h>\n"
    chapter := chSection ++ linkedHeading c!"2" ++ c!"<text:p text:style-name=\"Text_20_body\">$Desc</text:p>\n" ++ sectionEnd
    fileFooter := contentFooter }

/-- `OdtWChapterDesc`. -/
def odtChapterDesc (e : DocEnv) : Exporter := exporterOf e e.plainBase chapterDescTemplates

/-- The templates of `OdtWPartDesc` (odt_w/odt_w_partdesc.py 21-31). -/
def partDescTemplates : Templates :=
  { fileHeader := titleTemplate
    part := chSection ++ linkedHeading c!"1" ++ c!"<text:p text:style-name=\"Text_20_body\">$Desc</text:p>\n" ++ sectionEnd
    fileFooter := contentFooter }

/-- `OdtWPartDesc`. -/
def odtPartDesc (e : DocEnv) : Exporter := exporterOf e e.plainBase partDescTemplates

/-- The templates of `OdtWBriefSynopsis` (odt_w/odt_w_brief_synopsis.py 19-32). -/
def synopsisTemplates : Templates :=
  { fileHeader := titleTemplate
    part := c!"<text:h text:style-name=\"Heading_20_1\" text:outline-level=\"1\">$Title</text:h>\n"
    chapter := c!"<text:h text:style-name=\"Heading_20_2\" text:outline-level=\"2\">$Title</text:h>\n"
    scene := c!"<text:p text:style-name=\"Text_20_body\">$Title</text:p>\n"
    fileFooter := contentFooter }

/-- `OdtWBriefSynopsis`. -/
def odtSynopsis (e : DocEnv) : Exporter := exporterOf e e.plainBase synopsisTemplates

/-- `OdtWFormatted._get_text()` (odt_w_formatted.py 155-177): only header, chapters and footer. -/
def formattedText (x : Exporter) (n : Novel) : Except Exc Str := do
  let header ← getFileHeader x n
  let chapters ← getChapters x n
  .ok (quotations (header ++ chapters ++ [x.fileFooter]).flatten)

/-- `OdtWExport._get_text()` (odt_w_export.py 80-117). -/
def exportText (e : DocEnv) (n : Novel) : Except Exc Str := do
  let t ← formattedText (odtExport e) n
  .ok (convertNotes n.authorName t)

end Verif
