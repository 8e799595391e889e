import json
P=[]
def p(title, statement, quantifier, why, anchors):
    P.append(dict(id="C%02d"%(len(P)+1), title=title, statement=statement, quantifier=quantifier, why_tests_cant=why, anchors=anchors))

G="src/pywriter/pywriter_globals.py"; Y="src/pywriter/yw/yw7_file.py"; SP="src/pywriter/model/splitter.py"
p("New IDs are always fresh and minimal",
  "create_id(elements) terminates for every collection of existing IDs, never returns an ID that is already in use, and returns the decimal form of the smallest positive integer that is not in use.",
  "every finite collection of existing ID strings (any strings, any order, with or without duplicates)",
  "A unit test samples a few collections; freshness and termination have to hold for every set of IDs a project can contain, including non-numeric and gappy ones.",
  ["src/pywriter/model/id_generator.py:create_id"])
p("Divider-separated lists are normalised",
  "string_to_list(text, divider) returns exactly the non-empty stripped segments of the text, each once, in the order of their first occurrence; no element is empty, has leading or trailing whitespace, or is repeated.",
  "every text and every non-empty divider",
  "The set of texts and dividers is unbounded; the claim is about exact set equality, order and uniqueness for all of them.",
  [G+":string_to_list"])
p("Tag lists survive text form",
  "string_to_list(list_to_string(tags, d), d) returns tags for every list of distinct, non-empty, stripped tags that do not interact with the divider; and converting any text to a list, to text and to a list again changes nothing (normal form).",
  "every list of tag strings; every text; every divider used by the program (';' and ', ' and any single-character divider)",
  "Round-trips must hold for every tag list; the boundary case is a tag that contains or abuts the divider.",
  [G+":string_to_list", G+":list_to_string"])
p("Escaping of user text for XML is lossless and leaves no markup",
  "The escaping used for generated ODT and ODS documents and for yw7 custom fields yields text without raw '<', '>', quotes, and with every '&' starting one of the five predefined entities, and an XML parser recovers exactly the original text; therefore different texts stay different.",
  "every text of characters that XML can carry (legal characters, no carriage return)",
  "Replacement-order bugs (escaping '&' last) only show on texts mixing specials; all strings must be covered.",
  ["src/pywriter/odt_w/odt_writer.py:OdtWriter._convert_from_yw", "src/pywriter/ods_w/ods_writer.py:OdsWriter._convert_from_yw", Y+":Yw7File._convert_from_yw"])
p("Word and letter counts are consistent",
  "After any assignment to a scene's content, wordCount and letterCount are those of exactly this content; both are additive when texts are joined by a line break; markup in brackets and comments on one line contribute nothing to the letter count; the letter count never exceeds the length of the text.",
  "every scene text; every pair of texts joined by a newline",
  "Additivity and exclusion must hold for all texts, including unbalanced brackets and comments spanning lines.",
  ["src/pywriter/model/scene.py:Scene.sceneContent", "src/pywriter/model/scene.py:NO_WORD_LIMITS", "src/pywriter/model/scene.py:NON_LETTERS"])
p("Splitting scenes never loses text",
  "Splitter.split_scenes moves text but keeps all of it: the sequence of non-divider lines of a scene's text before the split equals the concatenated sequence of lines of the resulting scenes in narrative order.",
  "every novel, every scene text with any sequence of '#', '##', '###' heading lines and ordinary lines",
  "The divider sequences form an unbounded language; the failing order (chapter heading immediately followed by scene heading) is one nobody wrote a test for.",
  [SP+":Splitter.split_scenes"])
p("The splitter reports structural change",
  "Splitter.split_scenes returns True if and only if the chapter or scene structure of the novel has changed.",
  "every novel and every scene text",
  "Needs all combinations of part, chapter and scene headings; tests check single examples.",
  [SP+":Splitter.split_scenes"])
p("Splitting keeps the project structure sound",
  "After split_scenes every previously existing chapter and scene still exists and is listed in the same relative order, every new chapter and scene has a fresh ID and is listed exactly once, and if every scene was listed in exactly one chapter before, so it is afterwards.",
  "every structurally sound novel, any number of chapters, scenes, dividers",
  "A structural invariant over arbitrary novels and divider sequences; tests can only check particular novels.",
  [SP+":Splitter.split_scenes", "src/pywriter/model/id_generator.py:create_id"])
p("Splitting leaves undivided scenes alone and is final",
  "A scene whose text has no line starting with '#' keeps its text and all its metadata; if no scene has one, split_scenes changes nothing and returns False; no text line starting with '#' remains in any scene listed in a chapter afterwards, so a second split_scenes changes nothing.",
  "every novel",
  "Idempotence and frame conditions quantify over every novel.",
  [SP+":Splitter.split_scenes"])
p("Cross references are exactly the inverse of the scene relations",
  "After generate_xref, a scene is listed for a character/location/item/tag if and only if it is listed in some chapter and refers to that character/location/item/tag; scenes are listed in narrative order with the multiplicity of the reference; every character/location/item in the sort order has an entry; each listed scene maps to the last chapter that lists it.",
  "every novel whose scene references are registered in the sort orders",
  "The relation must be exact for every novel, with any overlap of references and tags.",
  ["src/pywriter/model/cross_references.py:CrossReferences.generate_xref"])
p("Document languages are detected completely and without duplicates",
  "get_languages lists every language code that occurs as a [lang=...] tag in some scene, nothing else, each once, in order of first occurrence.",
  "every novel with any scene texts, including unterminated and nested tags",
  "Completeness over all texts cannot be sampled.",
  ["src/pywriter/model/novel.py:Novel.get_languages"])
p("Locale check always ends in a usable locale",
  "After check_locale either the given codes were kept, both two characters long, or the document locale is the system locale (only if no language was set), or 'zxx'/'none'; calling it again changes nothing once a language is set.",
  "every combination of language and country code values, including missing ones",
  "All strings of all lengths and missing values.",
  ["src/pywriter/model/novel.py:Novel.check_locale"])
p("Scene type survives save and reload",
  "Whatever the project file contained before, a scene saved with type Normal, Notes, Todo or Unused is read back with the same type, and with the same 'do not export' flag.",
  "every scene type, every previous content of the scene's XML element, with unknown elements, in which the elements PyWriter manages are not repeated",
  "The encoding spreads over two elements with leftovers from earlier saves; every prior XML state must be covered.",
  [Y+":Yw7File._build_element_tree", Y+":Yw7File._read_scenes"])
p("Chapter type, level and flags survive save and reload",
  "Whatever the project file contained before, a chapter saved with a given type, level, suppress-title, suppress-break and trash flag is read back with the same values (a missing flag counts as false; a title starting with '@' always suppresses the chapter title).",
  "every chapter state, every previous content of the chapter's XML element, with unknown elements, in which the elements PyWriter manages are not repeated",
  "The encoding spreads over four elements interpreted in priority order with leftovers from earlier saves.",
  [Y+":Yw7File._build_element_tree", Y+":Yw7File._read_chapters"])
p("Scene metadata survives save and reload",
  "Title, description, text, status, notes, tags, ratings, goal/conflict/outcome, flags, image, characters and locations of a scene are read back as they were saved; an attribute that is None leaves the value in the file alone, an empty text is read back as None.",
  "every scene and every previous content of the scene's XML element, with unknown elements, in which the elements PyWriter manages are not repeated",
  "Each field interacts with elements left by earlier saves, so all prior XML trees have to be considered.",
  [Y+":Yw7File._build_element_tree", Y+":Yw7File._read_scenes"])
p("Scene items survive save and reload",
  "The items assigned to a scene are read back as they were saved.",
  "every scene with items",
  "The write and read tag names are distant in the code; a test with no items passes.",
  [Y+":Yw7File._build_element_tree", Y+":Yw7File._read_scenes"])
p("Scene date and time survive save and reload",
  "A scene's specific date and time or relative day and time, and its duration, are read back as they were saved; switching between specific and relative dates leaves no stale value of the other kind.",
  "every valid date/time combination and every previous content of the scene's XML element",
  "The writer edits existing elements in place with four modes; every mode transition must be covered.",
  [Y+":Yw7File._build_element_tree", Y+":Yw7File._read_scenes"])
p("Saving preserves project data PyWriter does not know",
  "Saving a project keeps every element of the PROJECT, SCENE and CHAPTER nodes that PyWriter does not manage, with the same content and order.",
  "every project file with arbitrary additional elements",
  "Additional elements form an open set.",
  [Y+":Yw7File._build_element_tree"])
p("Reading a project does not alter text",
  "Reading a project file drops only control characters that are illegal in XML; every other character of every text field is delivered unchanged.",
  "every project file text",
  "The filter is a character class; a wrong member shows only for texts containing this very character.",
  [Y+":Yw7File.read"])
p("Repeated save/reload cycles are stable",
  "Saving a project that was just read and reading it again yields the same novel, so no field grows or changes by saving repeatedly.",
  "every project and every number of save/reload cycles",
  "A fixpoint over unboundedly many cycles.",
  [Y+":Yw7File.read", Y+":Yw7File.write", Y+":Yw7File._convert_from_yw"])
p("Saved projects are well-formed and carry the text literally",
  "For each text field, the line written into the project file is parsed back by an XML parser to exactly the text of the field, for every text without ']]>'.",
  "every text field and every text",
  "Literal/escaped status of a field depends on membership in a long table; a missing entry only shows with '&' or '<' in this field.",
  [Y+":Yw7File._CDATA_TAGS", Y+":Yw7File._postprocess_xml_file"])
p("Saved structure equals the novel's structure",
  "After saving, the CHAPTER elements appear in the novel's chapter order, each with the scene IDs in the chapter's scene order, characters/locations/items/project notes appear in their sort orders, and exactly the novel's scenes are present; reading back yields the same orders.",
  "every novel and every previous project file",
  "Order and completeness for lists of any length, with arbitrary earlier file contents.",
  [Y+":Yw7File._build_element_tree", Y+":Yw7File._read_chapters"])
p("World data survives save and reload",
  "Characters, locations, items and project notes are read back with the same title, description, tags, names, notes, bio, goals, importance and image as saved.",
  "every set of characters, locations, items and notes",
  "Every combination of set and unset fields.",
  [Y+":Yw7File._build_element_tree", Y+":Yw7File._read_characters", Y+":Yw7File._read_locations", Y+":Yw7File._read_items", Y+":Yw7File._read_projectnotes"])
p("A crash while saving never destroys the only copy",
  "At every point at which saving a project (yw7, exported text document, ODF document) may be interrupted, the previous version of the file is intact either under its own name or as the .bak backup; a failed write that is reported as an error leaves the previous version under its own name.",
  "every crash point, every failure point, every initial file system state",
  "Crash points cannot be enumerated by running the program.",
  [Y+":Yw7File._write_element_tree", Y+":Yw7File._postprocess_xml_file", "src/pywriter/file/file_export.py:FileExport.write", "src/pywriter/odf/odf_file.py:OdfFile.write"])
p("A project locked by yWriter is never modified",
  "If the lock file exists, writing the project fails with an error and no file is created, changed or removed.",
  "every file system state and every novel",
  "Frame condition on the whole file system.",
  [Y+":Yw7File.write", Y+":Yw7File.is_locked"])
p("Existing files are not overwritten without consent",
  "The converter replaces an existing target file only if the user interface was asked and agreed; creating a new project never replaces an existing project.",
  "every source, target and user decision",
  "Decision logic over all source/target kinds.",
  ["src/pywriter/converter/yw_cnv_ui.py:YwCnvUi.check", "src/pywriter/converter/yw_cnv_ui.py:YwCnvUi.create_yw7"])
p("An exported document is re-imported into the project it came from",
  "For every project path and document type, the document file that the export writes for a project leads the import back to the same project file.",
  "every project path and every document type that can be re-imported",
  "Paths are unbounded; the failing ones contain the document suffix in the project or directory name.",
  ["src/pywriter/converter/import_target_factory.py:ImportTargetFactory.make_file_objects", "src/pywriter/converter/export_target_factory.py:ExportTargetFactory.make_file_objects"])
p("Conversion result is reported truthfully",
  "After a conversion, newFile is the path of the written file if and only if the conversion succeeded; the message shown starts with the error marker if and only if it failed; the source file is never changed by an export.",
  "every conversion run",
  "All outcomes of reading, checking, writing.",
  ["src/pywriter/converter/yw_cnv_ui.py:YwCnvUi", "src/pywriter/ui/ui.py:Ui.set_info_how"])
p("Material that is not for export never appears in the exported manuscript",
  "For a project as read from a file, the text of unused, notes, todo scenes, of scenes marked 'do not export', and of scenes in unused/notes/todo chapters never gets into an exported manuscript; the text of every other scene (except raw <HTML>/<TEX> scenes, which are skipped) appears exactly once, in narrative order.",
  "every novel with any mixture of chapter and scene types",
  "Exact filtering over all mixtures.",
  ["src/pywriter/file/file_export.py:FileExport._get_chapters", "src/pywriter/file/file_export.py:FileExport._get_scenes"])
p("Chapter and scene numbers and word totals in exports are right",
  "Exported chapters and scenes are numbered consecutively from 1 in narrative order counting only exported ones, and running totals equal the sums over exported scenes so far.",
  "every novel",
  "Counters over arbitrary mixtures.",
  ["src/pywriter/file/file_export.py:FileExport._get_chapters", "src/pywriter/file/file_export.py:FileExport._get_scenes"])
p("Generated documents are balanced",
  "Every section, paragraph and span opened in a generated manuscript document is closed in proper nesting, whatever formatting tags (balanced or not) the scene texts contain.",
  "every novel and every scene text",
  "Unbalanced user markup is an unbounded input language.",
  ["src/pywriter/odt_w/odt_w_formatted.py:OdtWFormatted._convert_from_yw", "src/pywriter/odt_w/odt_w_manuscript.py"])
p("Spreadsheet rows have the declared shape and their cells round-trip",
  "Every row of a written character/location/item/scene list has as many cells as the header row, and reading the spreadsheet back returns the text of every cell; a table with a different number of columns is refused.",
  "every novel and every cell text",
  "Cell texts with line breaks and special characters, rows with empty cells (repeated-columns) are an unbounded set.",
  ["src/pywriter/ods_w/ods_writer.py", "src/pywriter/ods_r/ods_parser.py:OdsParser.get_rows", "src/pywriter/ods_r/ods_reader.py:OdsReader.read"])
p("Spreadsheet imports change only what the table contains",
  "Importing a character/location/item/scene list updates exactly the listed elements' listed attributes; an empty cell clears an attribute that had a value and leaves an unset attribute unset; other elements and attributes keep their values.",
  "every table and every novel",
  "Frame conditions over all attributes.",
  ["src/pywriter/ods_r/ods_r_charlist.py", "src/pywriter/ods_r/ods_r_loclist.py", "src/pywriter/ods_r/ods_r_itemlist.py", "src/pywriter/ods_r/ods_r_scenelist.py"])
p("Parsing does not depend on how the XML parser chunks text",
  "The imported text does not depend on how the SAX parser splits character data into pieces.",
  "every event stream and every way of splitting character data",
  "Chunking is decided by parser buffers; tests see one schedule only.",
  ["src/pywriter/odt_r/odt_parser.py:OdtParser", "src/pywriter/odt_r/odt_r_scenedesc.py", "src/pywriter/odt_r/odt_r_chapterdesc.py"])
p("Importing a manuscript changes only the text",
  "Importing a manuscript, scene or chapter description document changes only the text (or description) of the elements whose IDs occur in the document; IDs that do not occur keep their contents.",
  "every document and every novel",
  "Frame conditions over all documents.",
  ["src/pywriter/odt_r/odt_reader.py:OdtReader", "src/pywriter/odt_r/odt_r_manuscript.py", "src/pywriter/odt_r/odt_r_scenedesc.py", "src/pywriter/odt_r/odt_r_chapterdesc.py"])
p("Pretty-printing changes layout only",
  "Indenting the XML tree changes only whitespace around elements: tags, nesting, order and the text of elements without children are unchanged, and indenting twice is the same as once.",
  "every XML tree",
  "Trees of any depth and width.",
  ["src/pywriter/yw/xml_indent.py:indent"])
p("Configuration files keep settings",
  "Settings and options written to a configuration file are read back unchanged; keys missing from the file keep their values; unknown keys are ignored.",
  "every set of settings and options and every file",
  "All maps.",
  ["src/pywriter/config/configuration.py:Configuration"])
p("Project variables keep unique IDs and the document languages",
  "Saving registers every document language exactly once as a project variable with an unused ID, keeps foreign project variables, and reading back yields the same languages.",
  "every project variable list and language list",
  "Unbounded lists and prior contents.",
  [Y+":Yw7File._build_element_tree", Y+":Yw7File._read_projectvars"])
p("Scenes inherit the non-normal chapter type",
  "adjust_scene_types gives every scene in a non-normal chapter the chapter's type and leaves scenes in normal chapters alone.",
  "every novel",
  "Loop over arbitrary novels.",
  [Y+":Yw7File.adjust_scene_types"])
p("A file object only accepts paths of its own type",
  "Assigning a path to a File object takes effect exactly if the path ends with the file type's suffix and extension (ignoring case); otherwise the old path is kept.",
  "every path and file type",
  "Unbounded paths.",
  ["src/pywriter/file/file.py:File.filePath"])
p("Purging leaves nothing of what it promises to remove",
  "After reset_custom_variables no custom keyword variable has a value, and after remove_language_tags no language tag remains in any scene, and everything else is unchanged.",
  "every novel, every scene text",
  "Regex removal can create new matches; only special texts show it.",
  ["src/pywriter/yw/yw7_purge.py"])
p("The source document determines the conversion",
  "A source file is handled by the document type whose suffix and extension it ends with; yw7 files are exported, other known types imported, and unknown files are refused without touching the file system.",
  "every source path",
  "Dispatch over all paths with overlapping suffixes.",
  ["src/pywriter/converter/yw_cnv_ff.py:YwCnvFf.run", "src/pywriter/converter/yw7_converter.py"])
p("Formatting survives the document round trip",
  "Text with emphasis markup written to a document and read back by the document parser yields the same text and markup, paragraph by paragraph.",
  "every scene text with well-nested markup",
  "Unbounded markup language; the reader is a stateful SAX machine.",
  ["src/pywriter/odt_w/odt_w_formatted.py", "src/pywriter/odt_r/odt_parser.py:OdtParser"])
p("Importing a work in progress keeps every heading and paragraph",
  "Importing an unstructured document or an outline creates a chapter per part/chapter heading and a scene per scene (heading or divider) in document order, with fresh consecutive IDs, and every paragraph of the document ends up in exactly one scene or description.",
  "every document",
  "Unbounded event sequences.",
  ["src/pywriter/odt_r/odt_r_import.py", "src/pywriter/odt_r/odt_r_outline.py"])
p("A saved project can be opened again",
  "If saving a project succeeds and the parser reads the file, then reading the project succeeds: the reader does not fail on anything the writer produced.",
  "every novel with sound structure, every previous project file with readable status, day, hour and minute elements, and every scene whose start is usable",
  "Reader failures come from combinations of old elements and new values (an element left empty by one and read as a number by the other).",
  [Y+":Yw7File.write", Y+":Yw7File.read"])
p("Project data survives save and reload",
  "Whatever the project file contained before, the title, description, author, biography and the four field titles are read back as saved (None keeps what is in the file, an empty text is read as None), and so are the word count start and the word target.",
  "every project, every previous project element without repeated elements",
  "All texts and all previous states of the file.",
  [Y+":Yw7File.write", Y+":Yw7File.read"])
p("Importing an unmodified list changes nothing",
  "Exporting a character, location, item or scene list and importing the unmodified file leaves every element of the project as it was.",
  "every project",
  "All texts, tags and ratings at once, through escaping, document text, XML parser and table reader.",
  ["src/pywriter/ods_w/", "src/pywriter/ods_r/"])
p("Importing an unmodified manuscript changes nothing",
  "Exporting the manuscript of a project and importing the document without editing it leaves the project as it was: all texts, titles, types, counts, world data and the order of chapters and scenes.",
  "every project whose texts are in normal form, every set of languages",
  "The text passes regular expressions, a template, an XML parser and a stateful reader; the claim is about all texts at once.",
  ["src/pywriter/odt_w/odt_w_manuscript.py", "src/pywriter/odt_w/odt_w_formatted.py", "src/pywriter/odt_r/odt_r_manuscript.py", "src/pywriter/odt_r/odt_parser.py", "src/pywriter/model/splitter.py"])
p("Character, location and item sheets come back unchanged",
  "Exporting the character, location or item sheets of a project and importing the unmodified document gives every listed element back its description (for characters also biography, goals and notes), up to blanks around the lines; nothing else in the project changes.",
  "every project, every description text, every project the document is imported into",
  "All texts at once, through escaping, template, XML parser, ODT parser and a reader that finds elements by section names.",
  ["src/pywriter/odt_w/odt_w_characters.py", "src/pywriter/odt_w/odt_w_locations.py", "src/pywriter/odt_w/odt_w_items.py", "src/pywriter/odt_r/odt_r_characters.py", "src/pywriter/odt_r/odt_r_locations.py", "src/pywriter/odt_r/odt_r_items.py"])
p("Scene, chapter and part descriptions come back unchanged",
  "Exporting the scene, chapter or part descriptions of a project and importing the unmodified document gives every scene, chapter or part in the document back its description, up to white space (chapters: blanks around the lines; scenes: white space at the end); no other text and no structure changes.",
  "every project, every description text, every project the document is imported into",
  "All texts at once, through escaping, templates with links, XML parser, ODT parser and readers that guess chapter titles from the text they meet.",
  ["src/pywriter/odt_w/odt_w_scenedesc.py", "src/pywriter/odt_w/odt_w_chapterdesc.py", "src/pywriter/odt_w/odt_w_partdesc.py", "src/pywriter/odt_r/odt_r_scenedesc.py", "src/pywriter/odt_r/odt_r_chapterdesc.py", "src/pywriter/odt_r/odt_r_partdesc.py"])
p("What has been read can be saved",
  "Saving a sound project (what is listed exists, types are valid, starts are well-formed) to any project tree with all its sections raises no exception; in particular a project just read from a file can be saved to that file again.",
  "every project, every previous content of the file, every system locale",
  "Exceptions come from combinations of values and old elements; all of them have to be excluded at once.",
  [Y+":Yw7File.write", Y+":Yw7File.read"])
p("From file to file",
  "Saving a project whose texts a project file can carry makes a well-formed file that can be opened again; a settled project file can be opened and saved any number of times, on systems with any locales, without an exception and without any change to the novel.",
  "every project with carriable texts, every number of save cycles, every sequence of system locales",
  "The claim is about the file text after any number of cycles of building the tree, indenting, writing, post-processing with regular expressions, filtering, parsing and reading.",
  [Y+":Yw7File.write", Y+":Yw7File.read", Y+":Yw7File._write_element_tree", Y+":Yw7File._postprocess_xml_file", "src/pywriter/yw/xml_indent.py"])
p("An unchanged project makes an identical file",
  "After a settled project has been opened and saved once, opening and saving it again leaves the project file as it is, character by character, however often and on systems with whatever locales: a version control system sees no change.",
  "every settled project file, every number of further save cycles, every sequence of system locales",
  "Equality of whole files after a pipeline of tree building (old elements are found and patched), indenting, writing, post-processing, parsing and reading; each of some forty kinds of elements could drift.",
  [Y+":Yw7File.write", Y+":Yw7File.read", Y+":Yw7File._build_element_tree", Y+":Yw7File._write_element_tree", Y+":Yw7File._postprocess_xml_file", "src/pywriter/yw/xml_indent.py"])
p("A document for proof reading brings the texts back",
  "Exporting the document for proof reading of a project and importing it unmodified gives every scene in the document exactly its text (with the word and letter counts of it); no title, no structure and no other field of the project changes, apart from the language settings of the document.",
  "every project, every scene text with formatting, comments and languages, every project with these scenes the document is imported into",
  "Scene texts travel as document text between visible markers; whether a text survives depends on every stage (regular expressions, template, XML parser, ODT parser, reader that searches markers) and on all characters of all texts at once.",
  ["src/pywriter/odt_w/odt_w_proof.py", "src/pywriter/odt_w/odt_w_formatted.py", "src/pywriter/odt_r/odt_r_proof.py", "src/pywriter/odt_r/odt_parser.py", "src/pywriter/odt_r/odt_r_formatted.py"])
p("The cross reference document is right",
  "For a consistent project whose tags contain no XML special characters, the cross reference document that the program writes is a readable document. It shows, after title and author, one section for each character, location and item that occurs in a scene, and one for each tag of scenes, characters, locations and items, each section once and in the order of the project; a section lists exactly the scenes (elements) that refer to it, in narrative order, with the right scene number, chapter number and title, and links every normal scene to its place in the manuscript and every element to its place in the list of characters, locations or items; scenes of other types are marked as notes, todo or unused.",
  "every consistent novel (any number of chapters, scenes, elements, tags, reference lists), every project name, titles with arbitrary XML-legal text",
  "The sections depend on all reference lists of all scenes at once, and the document text passes through templates, escaping and an XML parser; a finite set of projects does not show that no reference is dropped, duplicated, misnumbered or wrongly linked.",
  ["src/pywriter/odt_w/odt_w_xref.py", "src/pywriter/model/cross_references.py", "src/pywriter/file/file_export.py"])
p("The exported document shows exactly the text of the novel",
  "For a novel with properly nested formatting, the document written by the export is a readable document that shows exactly the novel: the title, the author, then for every exported chapter its heading (empty if the title is suppressed) and its exported scenes, separated by dividers unless appended, line by line, every character with exactly the formattings open at its place, lines that begin with a quotation mark as quotations, comments in the margin with the author's name, comments marked as footnotes or endnotes as such, numbered in the order of the document, and a text style with the right language and country for every language.",
  "every novel (any chapters, scenes, titles, languages), every scene text built of characters, comments, notes and nested formattings over any number of lines",
  "The document text passes through a chain of some forty text replacements and regular expressions on each scene and, for comments, on the whole document; any character sequence in any text could interact with any of them.",
  ["src/pywriter/odt_w/odt_w_export.py", "src/pywriter/odt_w/odt_w_formatted.py", "src/pywriter/odt_w/odt_writer.py", "src/pywriter/file/file_export.py"])
p("The line ends of files do not matter",
  "A project file or a configuration file whose lines end with a newline, with carriage return and newline, or with a carriage return alone, is read in the same way: the same novel, the same settings, or the same failure. In particular settings and projects written on one system are restored on another.",
  "every file text, every choice of the line ends, every configuration",
  "Texts with other line ends are rarely in a test suite, and which character sequences count as one line end depends on neighbouring characters in any position of the file.",
  ["src/pywriter/yw/yw7_file.py:Yw7File.read", "src/pywriter/config/configuration.py:Configuration.read"])
p("Updating the translations loses none of them",
  "Updating a translation file from a message template gives a file with a header and exactly the messages of the template, sorted, each with its translation in the old file, otherwise with the one in the dictionary; success is reported exactly if no translation is missing; the dictionary then holds all known translations, also those of messages no longer in use; running the update again changes nothing. If writing fails at any step or the process is killed, the old file is still there, under its name or as a backup.",
  "every template and translation file with messages of one line, every dictionary, every failing step and every crash point",
  "Depends on all lines of two files and the state of the reader between them; crash points and failing steps cannot be enumerated by unit tests.",
  ["src/translations.py:Translations", "src/translations.py:main"])
p("The script that is built contains every module it needs, once and in order",
  "The build script writes a script that contains the main script and every module of the package that it needs, directly or through other modules: each one exactly once, with all its code lines in their order, and nothing else; a module stands before the lines that follow its import, unless the two need each other; other imports appear once. The build ends also if modules need each other. If a module is missing, no script is written.",
  "every set of source files, with any graph of imports, of any depth, with cycles",
  "The result depends on the whole graph of imports and on the order of the lines in all files; a module that is missing, doubled or too late shows up only for particular graphs.",
  ["src/inliner.py:inline_module", "src/inliner.py:run"])
p("A compiled translation file gives every message its translation",
  "The file that the compiler writes is a regular catalog: the search that programs do in it finds every message that has a certain translation (neither empty nor marked as uncertain; the last one, if there are several), and finds exactly this translation; it finds nothing for anything else. So after an update and a compilation every message of the template appears with the translation that the old file or the dictionary has for it.",
  "every translation file with a header and entries in the usual form: any number of entries, strings in any number of lines, comments, escape sequences, characters of all languages; every set of messages up to 2 GB",
  "The positions in the compiled file depend on the lengths and the order of all messages together, and the binary search on the order of all of them; a test sees a few files.",
  ["src/msgfmt.py:make", "src/msgfmt.py:generate", "src/msgfmt.py:add"])
p("Every message marked in the programs gets into the translations",
  "The template for translations contains exactly the messages that are marked in the programs of a directory and its subdirectories, each of them once, and no other entries; after the update of the translations and the compilation, every marked message is found in the compiled file, under the text it has in the program, with its translation. If a program cannot be read, no template is made. Whatever fails and whenever the process ends, the old template is still there.",
  "every tree of directories and files of any depth, every program with any number of marked messages in both kinds of quotation marks; every failure and crash point while writing",
  "A message that is missed or altered shows up only when exactly this message is displayed in another language; the result depends on all files together.",
  ["src/pgettext.py:PotFile", "src/pgettext.py:main", "src/translations.py:main", "src/msgfmt.py:make"])
p("A project file is opened no matter how it is encoded",
  "A project file in UTF-16 with byte order mark, of either byte order, is opened with exactly the same result as a file in UTF-8 with the same text, whatever its XML header says. A project is opened if and only if it is not locked, its file is there, can be decoded in this way, and holds a well-formed document with readable values. If the project is locked, if there is no such file, or if the file can neither be decoded nor parsed, the user gets a message.",
  "every text of any length and with any characters, every byte sequence, every behaviour of the XML parser",
  "The bytes of UTF-16 and of UTF-8 overlap: whether the attempt to decode the wrong way always fails is a statement about all texts.",
  ["src/pywriter/yw/yw7_file.py:Yw7File.read", "src/pywriter/yw/yw7_file.py:Yw7File.is_locked"])
p("The main window always shows the project that is open",
  "After every sequence of actions (opening by name or with the dialog, closing, showing messages and status, restoring the status), the menu entry for closing is enabled exactly if a project is open, the path bar shows its path, the title of the window shows its title and author, and the data are those that were in the file when it was opened; without a project, the path bar is empty and the window has the title of the application. A project that cannot be opened leaves no project open, and its error message is shown in red until the status is restored; cancelling the dialog changes nothing; opening reports success exactly if a project has been opened now. The dialog starts in the directory of the file that was chosen last.",
  "every history of actions of any length, with any files, locks and answers of the user at every action",
  "The state of the window depends on the whole history, including failed and cancelled openings; tests see a few sequences.",
  ["src/pywriter/ui/main_tk.py:MainTk.open_project", "src/pywriter/ui/main_tk.py:MainTk.close_project", "src/pywriter/ui/main_tk.py:MainTk.set_info_how", "src/pywriter/ui/main_tk.py:MainTk.restore_status", "src/pywriter/ui/main_tk.py:MainTk.set_title", "src/pywriter/ui/main_tk.py:MainTk.select_project"])
p("The documents carry the metadata and the language of the project",
  "Every text document and spreadsheet that is written contains the title, the author and the description of the project and the date as its metadata, and the language and country of its default styles are those of the project (those of the system, if the project has no language; 'no language', if the project's codes do not have two letters). Every paragraph style and character style an exported book uses is defined in the document.",
  "every project: all titles, authors, descriptions, language and country codes, and all texts",
  "The values are inserted in XML templates, where single characters matter; whether all styles are defined depends on all formattings that can occur in a text.",
  ["src/pywriter/odf/odf_file.py:OdfFile._set_up", "src/pywriter/odt_w/odt_writer.py:OdtWriter._STYLES_XML", "src/pywriter/odt_w/odt_writer.py:OdtWriter._META_XML", "src/pywriter/ods_w/ods_writer.py:OdsWriter._STYLES_XML", "src/pywriter/model/novel.py:Novel.check_locale"])
p("The document that is opened is the one that was asked for",
  "When a document is opened after a conversion, the system is asked to open exactly one file, and the path it gets leads to the same place as the path of the document, no matter from which directory it is followed; nothing else is executed. Normalising a path never changes where it leads (apart from links), and a normalised path stays as it is.",
  "every path: all characters, any number and order of `.`, `..`, names and slashes; every directory from which it is followed",
  "Paths have unlimited depth and may contain any characters; a path is inserted in a command that the shell interprets.",
  ["src/pywriter/file/doc_open.py:open_document", "src/pywriter/pywriter_globals.py:norm_path", "src/pywriter/converter/yw_cnv_ui.py:YwCnvUi._open_newFile"])
p("The notes and to-do documents bring exactly their texts back",
  "The document with the notes of a project contains exactly its notes: all chapters of this type, and all notes scenes, also those in other chapters. Read into a project with these chapters and scenes, it sets the texts of these scenes, exactly as they were exported, and changes nothing else; importing it unmodified changes nothing but the language settings. The same is true of the to-do lists.",
  "every project, with any number of chapters and scenes of all types in any order, and every formatted text",
  "The types of chapters and scenes can be mixed in unlimited ways; texts are unlimited.",
  ["src/pywriter/odt_w/odt_w_notes.py:OdtWNotes", "src/pywriter/odt_w/odt_w_todo.py:OdtWTodo", "src/pywriter/odt_r/odt_r_notes.py:OdtRNotes", "src/pywriter/odt_r/odt_r_todo.py:OdtRTodo", "src/pywriter/odt_r/odt_r_manuscript.py:OdtRManuscript"])
p("A project that travels through an unmodified document comes back, file for file",
  "A project file is exported to a document of any of the fourteen types that can be written back, and the document is written back unmodified: both conversions report success, the project file is then exactly what just opening and saving the project would have made of it (so if the file had been saved by this program before, it is byte for byte the same), it reads as the same project, the old file is the backup, and no other file is touched than the document and its backup.",
  "every project file in good order and every path, for each of the fourteen document types; every previous content of the disk",
  "The whole program is involved - path handling, reading, export, archive, XML parsers, import, merging, writing - and projects, texts and disk contents are unlimited.",
  ["src/pywriter/converter/yw_cnv_ff.py:YwCnvFf.run", "src/pywriter/converter/yw_cnv_ui.py:YwCnvUi.export_from_yw", "src/pywriter/converter/yw7_converter.py:Yw7Converter", "src/pywriter/odf/odf_file.py:OdfFile.write", "src/pywriter/odt_r/odt_parser.py:OdtParser.feed_file", "src/pywriter/yw/yw7_file.py:Yw7File.write"])
p("Links between the documents of a project lead to the file and the section they name",
  "Whatever characters the name and the folder of a project have, the links in its documents name them so that a program that follows the rules of URIs gets the same name back; a relative link in an exported document leads to the file that exporting the same project to the other document type writes into the same folder, and every link in a cross reference leads to a section that this file has. The name of the project can always be inserted into a document without escaping.",
  "every file name and folder (any Unicode text), every document type, every project and every scene, character, location and item in it",
  "File names are arbitrary Unicode texts, and two documents written at different times by different writers have to agree for every project.",
  ["src/pywriter/file/file.py:File.filePath", "src/pywriter/odt_w/odt_w_xref.py:OdtWXref", "src/pywriter/ods_w/ods_w_scenelist.py:OdsWSceneList", "src/pywriter/odt_w/odt_w_manuscript.py:OdtWManuscript", "src/pywriter/odt_w/odt_w_characters.py:OdtWCharacters"])
p("Every user interface tells the truth about a conversion and asks before a file is replaced",
  "With each of the five user interfaces (silent, console, message boxes, window, main window), a conversion shows at most one announcement, at most one question, perhaps the warning about new scenes, and exactly one result, at last; the result is shown as a success if and only if the file named by newFile was written completely, otherwise as a failure. An existing file is changed only if the user was asked about it and agreed (at the console by typing y or Y, otherwise by a click on Yes). Apart from the answers, the user interface has no influence on the files.",
  "every user interface in every state, every file, document type and previous content of the disk, every answer of the user, and every failure or crash of a file access",
  "The result depends on all that can go wrong during a conversion, on the answers and on what the interface has shown before; tests use the silent interface only.",
  ["src/pywriter/ui/ui.py:Ui", "src/pywriter/ui/ui_cmd.py:UiCmd", "src/pywriter/ui/ui_mb.py:UiMb", "src/pywriter/ui/ui_tk.py:UiTk", "src/pywriter/ui/main_tk.py:MainTk", "src/pywriter/converter/yw_cnv_ui.py:YwCnvUi"])
p("The sample applications make the documents they are named after, and data files carry the world of a project",
  "Whatever happens, a sample application that is given a project changes no file but the document of its name next to the project, the backup of this document and its own temporary files; if it reports success, the document is complete. The export of XML data files writes exactly three files next to the project; if it reports success, whoever puts the three sections into a project gets exactly the characters, locations and items of the exported project, in the same order, with all their attributes. Existing files are replaced only with consent, and the file reported is the one that was written.",
  "every sample application, every project, every previous content of the disk, every answer of the user, and every failure or crash of a file access",
  "The claim is about all projects and all failures in the middle of writing; a test of an application sees one project and no failure.",
  ["src/sample/cnv_data.py:run", "src/sample/cnv_manuscript.py:run", "src/sample/cnv_plotlist.py:run", "src/pywriter/yw/data_files.py:DataFiles._write_element_tree", "src/pywriter/yw/data_files.py:DataFiles._postprocess_xml_file", "src/pywriter/converter/yw_cnv_ff.py:YwCnvFf.run"])
p("The brief synopsis is the outline of the story",
  "The brief synopsis of a project can be written and is a well-formed document. It shows exactly the title, the author, the heading of every chapter and part that is shown, and under it one line with the title of each exported scene, all in the order of the story; notes, todo, unused material and scenes that are not for export leave no trace in it.",
  "every consistent project with any number of parts, chapters and scenes of any kind, and any titles",
  "The claim is about every combination of scene and chapter kinds and every title with any special characters; a test compares one document.",
  ["src/pywriter/odt_w/odt_w_brief_synopsis.py:OdtWBriefSynopsis", "src/pywriter/file/file_export.py:FileExport._get_chapters", "src/pywriter/file/file_export.py:FileExport._get_scenes", "src/pywriter/odt_w/odt_writer.py:OdtWriter._convert_from_yw"])
p("The texts of a project that was opened are fit for documents",
  "Whatever a project file contains, if it can be opened, then every text and every ID of the project consists of characters that are legal in XML, without carriage returns. Therefore the brief synopsis of every project file that can be opened can be made, and it is well-formed and complete.",
  "every content of a project file, with any control characters, line endings, entities and CDATA sections",
  "The claim is about every text a file may contain; a test opens a few files.",
  ["src/pywriter/yw/yw7_file.py:Yw7File.read", "src/pywriter/odt_w/odt_w_brief_synopsis.py:OdtWBriefSynopsis", "src/pywriter/file/file_export.py:FileExport._get_sceneMapping"])
p("A project that was opened can be exported exactly if its scenes have states with names",
  "Of a project that can be opened, a document can be made if and only if every scene the program looks at has a state that has a name: the exported scenes for every document, even for those that show no scenes, in addition the notes or to-do scenes for the lists of these, and for the cross reference the scenes with references or tags. Nothing else in a project file makes an export fail; if nothing goes wrong outside the program, the converter reports success exactly in this case, and an error otherwise.",
  "every content of a project file that can be opened, every document type, every state of the file system in which the project is not locked",
  "The claim says that there is no other content of a project file that makes an export fail; tests export a few projects.",
  ["src/pywriter/file/file_export.py:FileExport._get_sceneMapping", "src/pywriter/file/file_export.py:FileExport._get_scenes", "src/pywriter/model/scene.py:Scene.STATUS", "src/pywriter/odt_w/odt_w_xref.py:OdtWXref", "src/pywriter/converter/yw_cnv_ui.py:YwCnvUi.export_from_yw"])
p("Description documents and sheets are well-formed and show exactly the texts of the project",
  "The scene descriptions, chapter descriptions, part descriptions and the sheets of characters, locations and items of a project are well-formed documents. Their paragraphs are exactly the title, the author, the headings (linked to the manuscript where they are links) and the descriptions, in the order of the project; each line of a description is one paragraph, unchanged; special characters in titles and descriptions do no harm; unused material and scenes that are not for export are not shown. This holds for every project file that can be opened, if its scenes have states with names, its IDs are numbers, and alternate and full names (which the program does not escape) are without XML special characters.",
  "every project with such IDs and names, whatever texts it contains; every project file that can be opened with this content",
  "The well-formedness of a document depends on each character of each text; tests compare a few documents.",
  ["src/pywriter/odt_w/odt_w_scenedesc.py:OdtWSceneDesc", "src/pywriter/odt_w/odt_w_chapterdesc.py:OdtWChapterDesc", "src/pywriter/odt_w/odt_w_partdesc.py:OdtWPartDesc", "src/pywriter/odt_w/odt_w_characters.py:OdtWCharacters", "src/pywriter/odt_w/odt_w_locations.py:OdtWLocations", "src/pywriter/odt_w/odt_w_items.py:OdtWItems", "src/pywriter/odt_w/odt_writer.py:OdtWriter._convert_from_yw"])
p("An export with filters shows the project without what the filters reject",
  "A template-based exporter can be given filters for scenes, chapters, characters, locations and items. The text it makes is exactly the text the same exporter makes without filters of the project from whose lists everything rejected has been taken: no line, no divider, no chapter or scene number and no word count is left of it. What has been rejected has no influence: projects that differ only in rejected chapters and scenes (apart from the mark 'do not export') give the same text, and a rejected scene that could not be exported (e.g. with an unknown state) does not stop the export. Without filters everything is shown. This holds for all exporters of the library and for all exporters a user derives with templates of his own.",
  "every project, every set of templates, all filters whose answers depend on the element only",
  "The templates, the filters and the project are arbitrary; a test shows one combination.",
  ["src/pywriter/file/filter.py:Filter.accept", "src/pywriter/file/file_export.py:FileExport._get_chapters", "src/pywriter/file/file_export.py:FileExport._get_scenes", "src/pywriter/file/file_export.py:FileExport._get_characters", "src/pywriter/file/file_export.py:FileExport._get_locations", "src/pywriter/file/file_export.py:FileExport._get_items", "src/pywriter/file/file_export.py:FileExport._get_text"])
p("Every written document is an OpenDocument package in order",
  "Whenever a converter reports that it has written a document, the file is a complete OpenDocument package: it contains content, styles, metadata and settings; its file 'mimetype' holds the media type of the document and nothing else; its manifest is well-formed, has the same media type, and lists every file once and no file that is not there; a text document says in RDF which files are its content and its styles; the settings are well-formed. The XML files are all well-formed if the content is and the metadata can be inserted as they are. This holds whatever the project contains, whatever suffix was asked for, and even if a step has failed on the way.",
  "every project, document type and converter, every sequence of failing steps",
  "A test unzips one document of one project.",
  ["src/pywriter/odf/odf_file.py:OdfFile.write", "src/pywriter/odf/odf_file.py:OdfFile._set_up", "src/pywriter/odt_w/odt_writer.py:OdtWriter._set_up", "src/pywriter/odt_w/odt_writer.py:OdtWriter._MANIFEST_XML", "src/pywriter/ods_w/ods_writer.py:OdsWriter._MANIFEST_XML"])
p("The scripts for translations lose no file and compile only what is complete",
  "A global update of the German translations (update_de_po.py) changes nothing but the translation files of the projects and their backups; whatever fails and whenever it is interrupted, the old file of each project is there, under its name or as backup. If nothing fails, each project's new file has the messages of its template, sorted, each with its entry in the JSON dictionary, otherwise with its old translation. The script that builds a program's catalogue (translate_de.py) leaves the catalogue alone as long as a message has no translation; otherwise it installs a catalogue in which each marked message of the program's source code has its translation.",
  "every list of projects, template, translation file, dictionary, and sequence of failures and interruptions",
  "A test updates one project, and nothing fails.",
  ["src/update_de_po.py", "src/translate_de.py", "src/translations.py:Translations.read_json", "src/translations.py:Translations.write_po", "src/msgfmt.py:make"])
p("Importing a document a second time changes nothing more",
  "A document (manuscript, notes or todo chapters, proof reading, scene, chapter and part descriptions, characters, locations, items, and the four lists) that is imported into the project that results from importing it leaves that project as it is: every scene, chapter, character, location and item with all attributes, the order of the elements, and the languages. This holds for damaged or edited documents as well: sections that occur several times or are new, rows for the same element, empty cells, titles. For texts the condition is that no scene text of the document contains a heading line, which begins a new scene or chapter at each import.",
  "every document that can be imported, of every kind, and every project it is imported into",
  "A test imports a document into a prepared project once and compares; it cannot try every combination of repeated and new sections, rows and fields twice.",
  ["src/pywriter/odt_r/odt_reader.py", "src/pywriter/odt_r/odt_r_formatted.py:OdtRFormatted.read", "src/pywriter/odt_r/odt_r_manuscript.py", "src/pywriter/odt_r/odt_r_proof.py", "src/pywriter/odt_r/odt_r_scenedesc.py", "src/pywriter/odt_r/odt_r_chapterdesc.py", "src/pywriter/odt_r/odt_r_characters.py", "src/pywriter/odt_r/odt_r_locations.py", "src/pywriter/odt_r/odt_r_items.py", "src/pywriter/ods_r/ods_r_charlist.py", "src/pywriter/ods_r/ods_r_loclist.py", "src/pywriter/ods_r/ods_r_itemlist.py", "src/pywriter/ods_r/ods_r_scenelist.py"])
p("The order in which documents are imported does not matter",
  "What the import of a document does depends only on the part of the project the document is about - chapters and scenes with the languages, characters, locations, or items - and changes nothing else: in projects that agree in this part it fails in the same way or makes the same changes. Therefore documents and lists about different parts can be imported in any order: the project is the same in the end, and one order fails exactly if the other one fails. Of documents about the same part, the last one imported wins.",
  "all documents of the eleven kinds that are imported into a project, every content of them (damaged ones included), all projects, any number of documents and any order of them",
  "A test imports some documents in some orders; that no reader looks at or touches another part of the project cannot be seen from outcomes.",
  ["src/pywriter/odt_r/odt_reader.py", "src/pywriter/odt_r/odt_r_formatted.py:OdtRFormatted.read", "src/pywriter/odt_r/odt_r_manuscript.py", "src/pywriter/odt_r/odt_r_proof.py", "src/pywriter/odt_r/odt_r_scenedesc.py", "src/pywriter/odt_r/odt_r_chapterdesc.py", "src/pywriter/odt_r/odt_r_characters.py", "src/pywriter/odt_r/odt_r_locations.py", "src/pywriter/odt_r/odt_r_items.py", "src/pywriter/ods_r/ods_r_charlist.py", "src/pywriter/ods_r/ods_r_loclist.py", "src/pywriter/ods_r/ods_r_itemlist.py", "src/pywriter/ods_r/ods_r_scenelist.py", "src/pywriter/model/splitter.py"])
p("A project stays in order whatever is imported",
  "Call a project in order if no chapter and no scene exists or is listed twice, everything that is listed exists, the types of chapters and scenes are the four codes, the dates and times can be saved, the word and letter counts belong to the texts, and no language is listed twice. Importing any number of documents and lists, of any kinds and contents, in any order, into a project that is in order leaves a project in order if the imports succeed, even if they create chapters and scenes or split scenes; and this project can be saved, as a new file or over any project file that has all the sections. A project that was read from a regular file with distinct IDs and languages and savable times is in order, and can be saved to this file after the imports.",
  "all documents of the eleven kinds, every content of them, any number and order of them, all projects that are in order, all files they are saved to",
  "A test imports some documents and looks at the results; that no document whatever can break the project, or make it impossible to save, needs an invariant over all inputs.",
  ["src/pywriter/odt_r/odt_reader.py", "src/pywriter/odt_r/odt_r_formatted.py:OdtRFormatted.read", "src/pywriter/odt_r/odt_r_manuscript.py", "src/pywriter/odt_r/odt_r_proof.py", "src/pywriter/odt_r/odt_r_scenedesc.py", "src/pywriter/odt_r/odt_r_chapterdesc.py", "src/pywriter/odt_r/odt_r_characters.py", "src/pywriter/odt_r/odt_r_locations.py", "src/pywriter/odt_r/odt_r_items.py", "src/pywriter/ods_r/ods_r_scenelist.py", "src/pywriter/ods_r/ods_r_charlist.py", "src/pywriter/ods_r/ods_r_loclist.py", "src/pywriter/ods_r/ods_r_itemlist.py", "src/pywriter/model/splitter.py:Splitter.split_scenes", "src/pywriter/yw/yw7_file.py:Yw7File.write"])

p("Every document makes a project that can be saved",
  "A new project that is made from a work in progress or from an outline is in order (in the sense of C80) whatever the document contains, if the document can be read at all: no ID is there or listed twice, everything listed exists, the types are valid and the counts belong to the texts, also after the splitting of the scenes. Therefore it can be saved as a new project file; and so it can after any number of documents and lists have been imported into it.",
  "all documents, with any content, styles and document information; both ways to make a project; any number and kinds of imports afterwards",
  "A test imports some documents; that no document makes a project that cannot be saved is a statement about all documents.",
  ["src/pywriter/odt_r/odt_r_import.py", "src/pywriter/odt_r/odt_r_outline.py", "src/pywriter/odt_r/odt_r_formatted.py:OdtRFormatted.read", "src/pywriter/model/splitter.py:Splitter.split_scenes", "src/pywriter/yw/yw7_file.py:Yw7File.write", "src/pywriter/converter/new_project_factory.py"])

p("What is imported is in the saved file",
  "If a project is opened, or made from a document, and any number of documents and lists are imported into it, the IDs of its chapters, scenes, characters, locations, items and notes are still distinct and fit for a project file. Therefore, when the project is saved and the file is opened again, the project has the structure it had when it was saved: the same chapters in the same order with the same scenes, the same scenes, characters, locations, items and notes. A project made from a document can always be saved and opened again, and so can a project that was opened, if the states, dates and times in its file are regular. A further condition is that a list of characters, locations or items that is imported has one row for each element; without it the element is listed repeatedly.",
  "all project trees and all documents; any number and kinds of imports in any order; all contents of the documents",
  "A test imports some documents; a clash or loss of an ID may need a certain combination of a project, document and sequence of imports.",
  ["src/pywriter/odt_r/odt_r_formatted.py:OdtRFormatted.read", "src/pywriter/odt_r/odt_r_characters.py", "src/pywriter/odt_r/odt_r_locations.py", "src/pywriter/odt_r/odt_r_items.py", "src/pywriter/ods_r", "src/pywriter/model/splitter.py:Splitter.split_scenes", "src/pywriter/yw/yw7_file.py:Yw7File.write", "src/pywriter/yw/yw7_file.py:Yw7File.read"])

with open('/verif/properties.jsonl','w') as f:
    for x in P: f.write(json.dumps(x, ensure_ascii=False)+'\n')
print(len(P))
