# Formal model of PyWriter in Lean 4 — design

Source: `/repo` (peter88213/PyWriter at the pinned commit), read as text, never run.
All source paths below are relative to `/repo/src/pywriter/`.

## How the model is built

* Python `str` is `List Char` (`Verif.Str`), so that every string function is a
  structurally recursive function the kernel can reduce. Literals are written
  `c!"abc"`, which elaborates to an explicit list of characters.
* Python `dict` is an insertion-ordered association list (`Verif.Dict`) with
  "update in place, else append" assignment.
* `None` is `Option.none`; an exception is a value of `Exc` in `Except Exc α`.
* Objects that the code mutates become structures, methods become functions
  returning the new structure. Loops become structural recursion / folds.
* `xml.etree.ElementTree` elements are the inductive type `Elem` (tag, text, tail,
  children) with the first-match semantics of `find`, `findall`, `remove`, `insert`,
  `SubElement`.
* The file system is a finite map from path to contents; each primitive
  operation (replace, open-for-write, write, remove) is one atomic step; a crash
  is a prefix of the sequence of steps, a failure is a step that raises.
* Regular expressions are modelled by hand-written matchers that follow the
  leftmost, ordered-alternative, lazy-quantifier semantics of `re`; each is
  documented beside its definition.

Directory layout under `lean/Verif`: `Py/` (Python strings, dictionaries, element trees, file system, paths,
templates), `Model/` (the modelled functions, each with a citation),
`Spec/` (small specifications, written without model helpers), `Lemmas/` (helper
lemmas), `Props/` (the property theorems with non-vacuity examples).

## Property plan

| id | modelled | how it is proved |
|----|----------|------------------|
| C01 | `create_id` | pigeonhole on decimal numerals gives termination; minimality by induction on the search |
| C02 | `string_to_list` | induction over the segment list |
| C03 | `string_to_list`, `list_to_string` | `split (join xs) = xs` for divider-free segments, then C02 facts |
| C04 | the three `_convert_from_yw` escapers | replace chains are equal to a per-character map; the spec decoder inverts it by induction |
| C05 | `Scene.sceneContent` setter with its three regexes | matcher never crosses a newline, so the substitution is a monoid morphism over newline |
| C06 | `Splitter.split_scenes` | negation with a witness; partial theorem under "no scene heading directly after a chapter/part heading with pending text", by induction over lines |
| C07 | same | negation with a witness (part heading); partial for `##`/`###` |
| C08 | same | invariant of the loop state |
| C09 | same | loop invariants, idempotence corollary |
| C10 | `generate_xref` | fold invariants |
| C11 | `get_languages` | induction over the text with the matcher spec |
| C12 | `check_locale` | case analysis |
| C13–C17 | `build_scene_subtree`, `build_chapter_subtree`, `_read_scenes`, `_read_chapters` over `Elem` | frame lemmas for `find` under each update, composition |
| C18 | same | each update preserves the children whose tag it does not manage |
| C19 | control-character filter of `read` | negation (`|`), partial |
| C20 | read/write composition, custom-field escaping | negation for `Field_SceneArcs`; for settled projects equality of the whole novel after any number of cycles (induction; regularity of the tree is an invariant) |
| C21 | `ET` serialisation of leaf lines, `_postprocess_xml_file`, XML text decoding spec | string lemmas; negation for `Conflict` |
| C22, C23 | tree building and reading | list induction |
| C45 | whole write + read on the tree | the reader raises only on status/day/hour/minute without text; the writer never produces those |
| C46 | whole write + read on the tree | composition of `buildProject`, reload and `readProject` |
| C24, C25 | save protocols over the file-system model | exhaustive over program prefixes, for every initial state |
| C26, C28, C42 | converter decision logic | case analysis over all runs |
| C27 | path computation of both factories | negation with a witness; partial theorem |
| C29, C30 | `FileExport._get_chapters/_get_scenes` | induction over chapters/scenes with counter invariants |
| C31 | section templates, formatted text conversion, XML parser specification | texts as lists of pieces; the balancing loop as a map over lines of pieces (`Lemmas/Balance*`); nesting of the documents (manuscript, notes, to-do lists, proof reading) by composition (`Lemmas/Nest*`), final export from C56; the balancing keeps the letters (`Lemmas/Letters`) |
| C32, C33 | ODS writer and reader | list induction |
| C34, C35 | SAX handlers as state machines | induction over event streams |
| C44 | import readers as state machines | an invariant over every run (`Lemmas/Import5`); exact simulation over chapters, scenes, paragraphs for documents of the expected form (`Spec/Import`) |
| C47 | ODS writer and reader | composition of the C32 round trip with the C33 import theorems |
| C36 | `indent` | mutual induction over trees |
| C37 | `Configuration` | dictionary lemmas |
| C38 | project variables | list induction |
| C39, C40, C41 | small functions | direct |
| C43, C48 | writer, document text, XML lexer, ODT parser, reader | texts as lists of pieces (`Spec/Markup`); every stage of the conversion is a map over pieces; reading is a simulation over pieces, lines, scenes, chapters (`Lemmas/Read*`); formattings over line breaks: what the balancing makes of them (`Lemmas/Flow`, `Flow2`) and what the reader joins again (`Lemmas/Flow3`) |
| C49 | sheet templates, plain conversion, lexer, ODT parser, sheet readers | text emitted piecewise is fed to the composed lexer/parser/reader (`Fed`); induction over paragraphs and elements |
| C50 | description templates, linked headings, plain conversion, lexer, ODT parser, description readers | `Fed` pieces for linked heading, section and paragraph; induction over scenes and chapters; reading state tracked as two dictionaries |
| C51 | building the project tree | totality of every step of `buildRoot`, section by section; a novel read from a regular tree is `Savable` |
| C52 | tree → indentation → file text → filter → parser → reader, repeated | `GoodTree` is kept by every builder, by indentation and by the parser (`Parsed`), so `SafeTree` holds at every save; with C51 (saving succeeds) and C20 (same novel) by induction over the list of locales |
| C53 | the same pipeline, twice | `Alike`: trees that differ only in layout; every build step, applied to a tree like its own output, gives a tree like it (`scene_fixed`, `chapter_fixed`, `project_fixed`, `vars_fixed`); parsing gives a like tree; like trees are indented and written alike (`write_alike`) |
| C54 | `odt_w_proof`, the conversion, header and templates; ODT parser and proof reader | conversion gives layout (as C43, without quotations and with the marker paragraphs); induction over scenes and chapters: `Goes`/`Fed` steps through lexer, parser and reader; markers are found because texts contain none |
| C55 | `odt_w_xref` with its templates, mappings and `cross_references`; header and footer of the document | independent description of the paragraphs (`Spec.crossReference`) from the reference lists; written text → XML parser specification → paragraphs by composition (`Pars`, `Inl`, `Val`: text that renders to given paragraphs, inline content, attribute values); dictionaries of the cross reference by C10; false for tags with `&` (`C55_tag_breaks`) |
| C56 | `odt_w_export` (scene conversion, notes, templates, chapter suppression), `odt_w_formatted` (conversion, quotations, language styles), the document frame | independent description of the shown document (`Spec.book`, from pieces of text, not from the program's replacements); every stage of the conversion proved to be a rendering of nodes (`Pas`, `Piec`, `Noted`), composed to the XML parser specification; note numbering over the whole document; texts that have to be mended: the balanced lines are pieces again (`Lemmas/Mended`), from which C31 for the export follows; refuted outside the conditions by `C56_author_breaks`, `C56_letters_lost`, `C56_overlap_false` |
| C57 | text mode reading (`universalNewlines`) of `Yw7File.read` and `ConfigParser.read` | induction over the text for each of the three line ends; corollaries for whole files by C21, C37, C52 |
| C58 | `src/translations.py`: both readers, header template, writer with backup | files described independently as header, entries and other lines (`Spec.PoFile`); loops by induction over lines; sorting by permutation and order; writing by simulation with the save protocol of C24; refuted for messages of several lines |
| C59 | `src/inliner.py` (`copyPyWriter` false) | the lines used of a file are described as a pipeline (`Spec.usedLines`), their meaning as items; the loop of the program is a walk over items (simulation); the walk by induction over depth and items: every newly met file is complete and in order, modules before their use unless mutually needed; it ends by the number of files not met |
| C60 | `src/msgfmt.py` | the file as lists of numbers and strings (`moFile`); the lookup is specified independently (`Spec.moFind`: the header, the two tables, binary search); its invariant needs sorted keys and fitting numbers; the line loop by an invariant on the state after each entry (`Ready`), for both encodings at once (`view`: what UTF-8 bytes look like in an encoding) |
| C61 | `src/pgettext.py` | a program is code and marked messages in alternation (`Spec.Source`); the regular expression search is shown to find exactly the messages; directories as trees (mutual induction); the template is a regular one in the sense of C58, so C58 and C60 apply; file operations as in C24 |
| C62 | the first part of `Yw7File.read` | files are byte sequences; UTF-8 is that of Lean's library (with its theorem that decoding inverts encoding), UTF-16 is modelled; induction over the text; a text that begins with a byte above F7 is never UTF-8; the XML parser is a parameter |
| C63 | `ui/main_tk.py` | the window as a state machine; what is outside (files, locks, answers) is given with every action, so that it may change in between; refinement: the window shows the state of a small specification (`Spec.current`), by induction over the history |
| C64 | `odf_file._set_up` (`styles.xml`, `meta.xml`), the templates of both writers | the templates verbatim, divided at the inserted values; the constant parts are parsed by evaluation in the kernel, the values by lemmas about the XML specification (`Spec/Sax`, CDATA sections in `Spec/OdfMeta`); the styles of a book by induction over its passages, with C56 |
| C65 | `open_document`, `norm_path` (`os.path.normpath`, POSIX) | a path is followed by a small specification (`Spec.place`); invariant of the components of a normalised path, induction over the components; the command is read by a specification of the shell's quoting (`Spec.shellCommands`) |
| C66 | `OdtWNotes`, `OdtWTodo`, `OdtRNotes`, `OdtRTodo` | the parts of the document are read one by one, as for C43 (`Part`); induction over the chapters and their scenes; what the documents contain is specified by filtering the scenes (`Spec.asideOf`) |
| C67 | the whole program: `Model/Program.lean` puts the converter (C26, C28), the file classes (C18-C24, C51-C53), the exporters (C29-C32), the archive, the XML parsers and the readers together; what remains a parameter is `Machine` | the runs of the converter are computed (`travel_run`), the other files of the archive are parsed (C64), the content is read by the theorems on the single documents (C47-C50, C54, C66); reading only changes the registered languages, which writing does not change in the file (`writeTree_langs`) |
| C68 | the names of the project in the setter of `filePath` with `urllib.parse.quote` and `os.path.split` (POSIX); `os.path.realpath` is a parameter; `Spec/Links.lean` says what a link means by the rules of URIs and of OpenDocument | quoting is inverted byte by byte; the files named by the links are those of `exportTarget` (C26); the sections are found in the SAX events of the documents (`Lemmas/Links3`, `Links4`), the links by C55 |
| C69 | the five classes of user interfaces as a state with their buffers, labels, console lines and message boxes; the converter once more, with its calls of the user interface recorded (`Talk`); exceptions of the user interface itself (closed console, Tk errors, interrupts) are not modelled | the conversation is related to the run of C26 and C28 by a simulation (`talkRun_agree`); answers to questions that are not asked do not matter (`talkRun_congr`), so consent (C26) is consent to a question that was asked |
| C70 | the table of the sample scripts with their converters and suffixes; `DataFiles` as a target of `export_from_yw`; the environment of C67 | documents: `convert_body` of C26/C28 for the class the suffix selects; data files: Hoare rules for the six steps of writing and postprocessing with any faults, then the three sections are reloaded like those of a project file (C23, C52) |
| C71 | the templates of `OdtWBriefSynopsis` and the export loops | the lines of the export loops are those of the specification (C29); every line is a paragraph with the given style and text (`Pars`, by the XML reader of C55), induction over scenes and chapters |
| C72 | the preparation of the file text (newlines, dropped characters), the XML parser of `Spec/XmlDoc`, `readTree` | an invariant of the tokeniser and of the tree builder (all accumulated texts are legal), then the readers of all sections; with C71 |
| C73 | all exporters, `readTree`, the converter | for each loop of the exporters: it succeeds if and only if the mapping of every scene that gets a template succeeds; the mapping fails only for the state, because reading leaves no dangling references; with C68, C28 |
| C74 | `OdtWSceneDesc`, `OdtWChapterDesc`, `OdtWPartDesc`, `OdtWCharacters`, `OdtWLocations`, `OdtWItems`, the XML parser | the paragraphs of the parsed document, piece by piece: each text produced by a template is an element with these paragraphs, a description by induction on its text; with C72 for the files |
| C75 | the loops of `FileExport` once more, with the five filters as functions of the ID; exporters with templates of a user | the filtered loops equal the loops over the filtered lists (induction); the mappings do not depend on the lists (`OwnData`, proved for the exporters of the library); independence by congruence of the loops |
| C76 | the constant files of the documents, generated from the source text (`Model/OdfPackage`); the packing (C24) and the converter (C28) | the constant files are parsed by the kernel; every entry of the archive is taken out again (`ArchivesWork`) |
| C77 | `update_de_po.py` and `translate_de.py` as programs on files (`Model/BulkPo`), with the models of C58 and C61; JSON syntax is a parameter | a small logic for what every execution preserves (`Post`), induction on the list of projects; the catalogue by C61 |
| C78 | the readers of C33-C36 (`Model/OdtRead`, `Model/OdsRead`) run twice | a simulation between the two runs (`Lemmas/Twice*`): in the second run each field of an element has the value of the first run or the final one; for lists, the rows of an element act on a field as a constant, the identity, or a clearing |
| C79 | the readers of C33-C36 with the splitter, on two projects | every step of every reader gives the same on a project whose other parts are replaced (`Lemmas/Order`); exchange of two imports, then induction over permutations |
| C80 | the imports of C79, the splitter, the saving of C51 | an invariant kept by every step of every reader and of the splitter (`Lemmas/Sound`, `Lemmas/Sound2`); induction over the imports; then C51 |
| C81 | the readers for new projects (C44), the splitter, the saving of C51 | the numbering of C44 with an invariant for dates, languages and the world; then C80 |
| C82 | the readers of all imports, the splitter, writing and reading the tree | the IDs read are digits (an invariant of each reader, from C35 for the texts); then C80 and C22 |

A property that turns out to be false of the code is kept in `properties.jsonl`; its
negation is proved on a concrete witness, and a `_partial` theorem says under which
additional condition it holds.

## Trusted base

* Lean 4.33.0 kernel; axioms `propext`, `Classical.choice`, `Quot.sound` at most.
* The faithfulness of the definitions in `Verif/Py`, `Verif/Model` to the
  cited source lines and to the Python library functions they call.
* The specifications in `Verif/Spec`, as far as a property is stated with them (each is
  written without model helpers and can be read on its own).
* What is modelled and what is not: the following section.

## Modelled and not modelled

Everything below is under `/repo/src/pywriter` unless the path says otherwise.

| code | model | simplifications |
|------|-------|-----------------|
| `pywriter_globals.py` (`string_to_list`, `list_to_string`), `model/id_generator.py` | `Model/Globals` | message catalogue: `_()` is the identity |
| `model/*` (`Novel`, `Chapter`, `Scene`, `Character`, `WorldElement`, `BasicElement`) | `Model/Novel`, `Model/Languages` | attributes that the code never sets from outside stay absent; `locale.getlocale` is a parameter; `str.lower`/`isspace` on ASCII plus the listed white space |
| `model/splitter.py`, `model/cross_references.py` | `Model/Splitter`, `Model/Xref` | none known |
| `yw/xml_indent.py`, `yw/yw7_file.py` | `Model/Yw7Tree`, `Yw7Read`, `Yw7Write`, `Yw7Text`, `Save` | element trees instead of `ElementTree` objects; `html.unescape` on the five XML entities; `int()`, `date.fromisoformat` are parameters with the stated laws; text encodings are modelled in `Model/Opening` only (elsewhere a file is a list of characters); `datetime` arithmetic only as far as the code uses it |
| `file/*.py`, `odf/odf_file.py`: save protocols | `Model/Save`, `Py/Fs` | each file system operation is one atomic step; directories are ordered listings; ZIP archives are not modelled |
| `converter/*.py` | `Model/Converter` | files, user interface and the file classes are parameters (`Env`); POSIX paths |
| `file/file_export.py`, `odt_w/*` (export, manuscript, notes, todo, scene, chapter and part descriptions, synopsis, character, location and item sheets) | `Model/Export`, `OdtText`, `OdtWriters`, `OdtSheets`, `OdtHeader` | the content header of ODT documents is a parameter (`OdtHeader` is that of the formatted documents); `\d` matches ASCII digits; the author's name is inserted literally in `re` templates; the quoting of URLs is in `Model/Links`; filters (`file/filter.py`) are in `Model/Filters`, elsewhere they accept everything |
| `ods_w/*`, `ods_r/*` | `Model/OdsWrite`, `OdsRead` | name spaces by their standard prefixes; the XML parser is specified in `Spec/Sax` |
| `odt_r/*` | `Model/OdtParse`, `OdtRead` | the calls of a reader are collected before it handles them; ZIP and XML parser not modelled (events are the input); the end tag `None` is the empty tag |
| `config/configuration.py` | `Model/Config`, `Py/Ini` | `ConfigParser` of CPython 3.11 by hand; values are strings |
| `yw/data_files.py`, `yw/yw7_purge.py`, `Yw7File.is_locked`, `adjust_scene_types` | `Model/Purge`, `Save` | none known |
| all of it together | `Model/Program` | `Machine` collects what is a parameter: Python's library, the locale of the system, the time, the name and the path of the project, the ZIP format (assumed: what is put in can be taken out, `Spec.ArchivesWork`; `tinyZip` is such a format), the answers of the user; only `meta.xml` is read with CDATA sections |
| `/repo/src/translations.py` | `Model/Translations` | JSON syntax and console output are not modelled |
| `/repo/src/inliner.py` | `Model/Inliner` | the recursion depth is a parameter; copying of source files (`copyPyWriter`) and console output are not modelled |
| `/repo/src/msgfmt.py` | `Model/Msgfmt` | bytes; ISO-8859-1 and UTF-8; strings in double quotation marks with escapes of one character (`ast.literal_eval`); the charset found in the header is a parameter; the command line and the console are not modelled |
| `/repo/src/pgettext.py` | `Model/Pgettext` | directories are trees in the order of `os.scandir` (links, permissions and changes during the scan are not modelled); console output is not modelled |
| `yw7_file.py` `read`, decoding | `Model/Opening` | the machine is little-endian; `ET.fromstring` and `ET.parse` are parameters |
| `ui/main_tk.py` | `Model/MainTk` | the instance variables and the visible texts and colors; message boxes, geometry and the event loop are not modelled; `norm_path` is a parameter |
| `odf_file.py` 134-160, `_STYLES_XML` and `_META_XML` of `odt_writer.py` and `ods_writer.py` | `Model/OdfMeta` | the generated texts; the date is a parameter |
| `file/file.py` 86-105 (`projectPath`, `projectName`) | `Model/Links` | `os.path.realpath` is a parameter, `os.path.split` as on POSIX systems, `urllib.parse.quote` on UTF-8 |
| `ui/ui.py`, `ui_cmd.py`, `ui_mb.py`, `ui_tk.py`, and what converters call of `main_tk.py` | `Model/Facade` | visible texts, colors and buffers; the widgets, the event loop and errors of the user interface are not modelled; `DESCRIPTION` of the file classes is a parameter |
| `src/sample/*.py`, `yw/data_files.py` | `Model/Samples`, `Model/Save` | the user interface of the scripts is in `Model/Facade`; the three sections are looked up before the first file is written |
| `file/doc_open.py`, `norm_path` | `Model/DocOpen` | `os.path.normpath` as in CPython's `posixpath`; `os.startfile` and the shell are outside |

Not modelled: `ui/rich_text_tk.py`, `ui/set_icon_tk.py`, logging and messages' translations.

## Findings

Properties that turned out to be false of the code are recorded in `MANIFEST.json` with a theorem that shows a witness (suffix
`_false` or a speaking name): among others C06, C07, C15, C16, C17, C19, C20, C21, C27, C32, C33, C34, C47.
C31: a line that ends a formatting and begins it again (`[/i]x[i]`) and a comment that begins inside a formatting and ends in a later
line make the manuscript document malformed.
C49: alternate names and full names are not escaped in the sheets; `&` or `<` in them makes the document malformed.
C72: a scene with a state out of range, or without one, makes every document fail, although the project opens.
C79: a list with several rows for the same location lists this location several times (ods_r_loclist.py 35).
C78: a manuscript with a heading line in a scene, imported twice, adds the new scene twice: the second import restores the whole text of the document in the first scene and splits it again (odt_r_formatted.py 25-35, splitter.py 138-147).
C77: the global update of translations removes the name and version of the program from the header, and an existing translation if the JSON entry is empty (update_de_po.py 22-25); a failed writing of a catalogue is ignored and the damaged file copied (translate_de.py 44-45, msgfmt.py 228-232).
C76: `mimetype` is neither the first file of a package nor stored uncompressed (odf_file.py 83-86).
C75: a chapter whose scenes for export are all rejected by a filter is still shown and numbered; a rejected character is still named with the scenes.
C74: an alternate name with `&` in a project file makes the location sheets a document that is not well-formed.
C73: an exported scene with an unknown state blocks also the lists of characters, locations and items and all documents that show no scenes.
C71: the brief synopsis shows the titles of chapters whose title is suppressed in the manuscript.
C70: data files are overwritten without asking and without a backup; the message names `x_data.xml`, which is never written; `cnv_plotlist` is always refused; the samples with `Yw7Exporter` raise an AttributeError for other files.
C69: message boxes leave `infoHowText` empty, the console leaves `infoWhatText` empty, the silent mode drops the warning about new scenes, message boxes and the main window do not show the announcement.
C68: the cross reference links to scenes that are marked not to be exported, which the manuscript does not have; the extension is accepted in capital letters but not removed from the project name (`NOVEL.YW7`); the suffix is removed from every place of the name; for a symbolic link the links use the name of the target; the scene list's links have four slashes on POSIX systems.
C67: a project without a language gets the language of the system when one of its documents with formatted text is written back, even though saving the project does not add one; if the title or the author's name contains `&` or `<`, the document cannot be written back at all (`meta.xml` is not well-formed, C64).
C66: a notes chapter without title gets the title of its first scene when the document is imported.
C65: a path is put between quotation marks in a shell command without escaping, so that a file name with a quotation mark can execute commands; the command of macOS is never tried, because a failing `os.system` raises no exception.
C64: the title, the author and the language codes are inserted in `meta.xml` and `styles.xml` without escaping, so that a title with an ampersand makes the document unreadable; the settings of spreadsheets keep the words `$Language` and `$Country`, because `settings.xml` is written without substitution; the styles `Footnote`, `Endnote` and `Sect1` are used but not defined.
C63: an exception other than `Error` while a project is opened leaves the window with a project, but with an empty path bar and a disabled menu entry for closing.
C62: `Yw7File.read` catches no `ParseError` of a malformed file; the third attempt (`ET.parse`) forgets its result, so that the next statement raises `UnboundLocalError`; UTF-16 without byte order mark may be taken for UTF-8, which replaces letters such as `Ł` by `A` and doubles CR-LF.
C61: pgettext misses messages over several lines, merges a concatenated text with the next message, and puts a second backslash before quotation marks that have one.
C60: a context (`msgctxt`) also applies to the entries that follow without a comment; msgfmt.make keeps the messages of earlier calls in the same process; the mark `#, fuzzy` also hides the entries that follow without a comment; the first message after the header is encoded twice if it is not plain ASCII and has no comment above it.
C59: the inliner drops an import inside of a function if another module has the same line, so that the function fails; it names module files with a backslash before each slash (works on Windows only); a module without a final line end spoils the next line.
C56: export: spans are closed without regard to the names of the tags, and at a line break all open formattings are closed and begun again in the order of the program's tag list: overlapping formattings, and two formattings that are open over a line break, are shown wrongly (`C56_overlap_false`: `[i]a[b]b[/i]c[/b]` shows c emphasized, not strong).
C56: export: the author's name goes unescaped into comments (an & in it makes the document unreadable as soon as there is a comment) and through the template syntax of `re.sub` (names with a backslash are excluded); literal `@n@`/`@r@` become line breaks in documents with comments; bracketed marks like `[h1]` are removed from titles; `/*` in the title swallows the following headings and paragraphs up to the next `*/`; every scene's first paragraph is preceded by a stray apostrophe between the paragraphs. C55: tags are not escaped in the cross reference document: a tag with & or < makes it unreadable. C54: documents for proof reading: blanks at the beginning of a scene are lost; `[/ScID` in a text cuts it off, `[ScID:1]` moves the rest of it to another scene, `[ScID` without a number makes the import fail. C53: of several word counts (or letter counts, RTF file names, chapter IDs, sort orders, save dates) in one element only the first is removed on saving, so such a file changes once more on the next saving. C52: text with an escaped `&` or `<` in an element the program does not know is kept in the tree and unescaped by the post-processing: the file saved is not well-formed. C51: a colon in the hours or minutes of a scene is read, but saving raises ValueError. C17, C20: a scene element with `SpecificDateMode` but without
`SpecificDateTime` gets a second `SpecificDateMode` when a date is saved.
C50: a scene description that begins with `/* ~title~ */` is taken for a title change and loses that part; a chapter without a title gets the text of the first heading read inside it, i.e. the title of its first scene. Scene descriptions keep blanks at the line beginnings, chapter descriptions lose them.
C43, C48: if two formattings reach over a line break, their order is swapped after it, and words get another formatting (`[i]a [b]b\nc[/b] d[/i]` makes `d` bold instead of italic); whitespace between two formattings, underline, strike-through and alignment are lost; the second line of a comment is lost;
a comment that contains a tilde sets the title of the scene; language codes that are not of the form `xx-YY` come back as `zxx`;
a chapter without a title gets the title of its first scene on import; a scene without content gets the empty text. Character data between
two tags is taken in one piece in these theorems; C34 is about its division by the parser.
C44: in a work in progress, a quotation or list item directly after a heading or divider, a text before the first heading and a paragraph that
contains `* * *` are lost; in an outline, quotations are merged with the next paragraph and empty paragraphs vanish.
