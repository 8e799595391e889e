c("C01","proved","Verif.C01_terminates Verif.C01_fresh_minimal Verif.C01_numerals_distinct")
c("C02","proved","Verif.C02_segments_exist_unique Verif.C02_string_to_list Verif.C02_clean")
c("C03","proved","Verif.C03_roundtrip Verif.C03_roundtrip_char Verif.C03_normal_form Verif.C03_dividers")
c("C04","proved","Verif.C04_yw7_roundtrip Verif.C04_odt_quick_roundtrip Verif.C04_ods_roundtrip Verif.C04_parser_deterministic Verif.C04_injective Verif.C04_no_markup Verif.C04_ods_no_markup Verif.C04_none")
c("C05","proved","Verif.C05_setter Verif.C05_last_assignment Verif.C05_words_additive Verif.C05_letters_additive Verif.C05_sum_over_lines Verif.C05_letters_le_length Verif.C05_letters_plain Verif.C05_tag_not_counted Verif.C05_comment_not_counted")
c("C06","partial","Verif.C06_false Verif.C06_no_text_lost_partial","The full statement (C06_statement) is refuted for the code: a scene heading directly after a chapter/part heading overwrites the preceding text with the empty text. Proved for all sound novels in which no listed scene has such a pair of lines.")
c("C07","partial","Verif.C07_false Verif.C07_flag_partial","The full statement is refuted: a '# Part' line that adds a chapter is not reported. Proved: True implies a structural change; False implies no new scene and no line starting with '##'.")
c("C08","proved","Verif.C08_sound Verif.C08_structure Verif.C08_all_listed Verif.C08_metadata")
c("C09","proved","Verif.C09_undivided_kept Verif.C09_nothing_to_do Verif.C09_no_heading_left Verif.C09_final")
c("C10","proved","Verif.C10_exact Verif.C10_inverse Verif.C10_success_iff")
c("C11","proved","Verif.C11_scan Verif.C11_scan_unique Verif.C11_sound Verif.C11_complete Verif.C11_languages Verif.C11_idempotent","Nested tags: the code found is that of the leftmost opening (C11_complete says exactly what is found).")
c("C12","proved","Verif.C12_outcome Verif.C12_stable Verif.C12_system_independent")
c("C13","proved","Verif.C13_scene_type Verif.C13_types Verif.scene_example Verif.C15_project Verif.C13_encoding")
c("C14","proved","Verif.C14_chapter Verif.C14_texts Verif.C14_scenes Verif.C14_types Verif.C14_project Verif.C14_encoding")
c("C15","partial","Verif.C15_texts Verif.C15_plain_partial Verif.C15_metadata Verif.C15_readable Verif.C15_false Verif.C15_conflict_unprotected Verif.scene_example Verif.C15_project","Proved for all texts that have a CDATA section, for flags, status, tags, characters and locations. The conflict, the ratings and the duration have no CDATA section (for the conflict because of a missing comma in _CDATA_TAGS) and are only proved for texts that need no XML escaping; C15_false refutes the full statement.")
c("C16","partial","Verif.C16_items_lost Verif.C16_written_partial Verif.C15_project","The statement is false of the code: items are written as ItmID but looked up as ItemID, so they are never read back (C16_items_lost). Proved: the file contains them in order.")
c("C17","partial","Verif.C17_specific Verif.C17_relative_partial Verif.C17_relative_minutes_partial Verif.C17_cleared Verif.C17_unset Verif.C17_false Verif.C17_invalid_day Verif.C17_empty_time_fails Verif.C15_plain_partial Verif.C15_project","Specific starts, clearing and switching are proved in full. The seconds of a relative time are lost (C17_false); with zero seconds it is read back exactly. Finding: an invalid day in the file makes the next saved file unreadable.")
c("C18","proved","Verif.C18_scene Verif.C18_chapter Verif.C18_project","On the element tree; the text of the elements in the file is the subject of C21.")
c("C36","proved","Verif.C36_layout_only Verif.C36_idempotent Verif.C36_reload")
c("C39","proved","Verif.C39_effect Verif.C39_success_iff Verif.C39_sound")
c("C22","proved","Verif.C22_structure Verif.exPrj_back")
c("C23","proved","Verif.C23_world Verif.exPrj_back")
c("C45","proved","Verif.C45_readable Verif.exPrj_readable")
c("C38","partial","Verif.C38_saved Verif.C38_unique_ids Verif.C38_once Verif.C38_project_partial Verif.C38_false Verif.exPrj_project","Proved for all language codes without an equals sign. For others the statement is false of the code (C38_false): such a code is registered again with each save and never read back.")
c("C46","proved","Verif.C46_project Verif.exPrj_project")
c("C20","partial","Verif.C20_cycles_partial Verif.C20_stable_partial Verif.tree_regular Verif.C20_custom Verif.C20_arcs_grow Verif.C20_items_lost","The statement is false of the code: the arcs of a scene are escaped and put into a CDATA section, so special characters grow with each cycle (C20_arcs_grow, any number of cycles), and the items of scenes are lost. C20_cycles_partial: a project that was read from a regular tree and has none of the values known to change (SettledNovel) is literally the same novel after any number of save/reload cycles, under any system locales, and its tree stays regular (tree_regular, for any saved novel). Missing: the values excluded by SettledNovel, for which it is false or which are normalised by the first cycle.")
c("C19","partial","Verif.C19_dropped Verif.C19_partial Verif.C19_false Verif.C19_unchanged","The statement is false of the code: the reader's regular expression also deletes every vertical bar (C19_false). Proved: exactly the illegal control characters and the bar are deleted; for texts without a bar the property holds.")
c("C21","partial","Verif.C21_file_partial Verif.C21_field_partial Verif.C21_false","False of the code without conditions (C21_false): Conflict has no CDATA section, a trailing newline, a leading blank line and bars are lost. Proved for whole files and single fields under the stated conditions on the texts, through the writer of the file's text, the postprocessor and an XML parser specification.")
c("C24","partial","Verif.C24_export Verif.C24_yw7 Verif.C24_odf Verif.C24_history Verif.C24_export_error Verif.C24_odf_error Verif.C24_yw7_error_partial Verif.C24_false Verif.C24_dataFiles_false Verif.C24_yw7_success Verif.C24_yw7_frame Verif.C24_odf_success Verif.C24_odf_frame Verif.odf_complete","The first half (no crash or failure destroys the only copy) is proved for all three kinds of files, all crash and failure points. The second half is false of the code for project files (C24_false): a failure in the postprocessor is reported as an error, but leaves a damaged file, and a retry destroys the backup. It is proved for exports, ODF documents and the first phase of saving a project. XML data files have no backup at all (C24_dataFiles_false).")
c("C25","proved","Verif.C25_locked Verif.C25_unlocked Verif.C25_run")
c("C26","proved","Verif.C26_consent Verif.C26_refused Verif.C26_create Verif.demo_setting")
c("C27","partial","Verif.C27_partial Verif.C27_exact Verif.C27_false Verif.C27_false_plain","False of the code if the name of the project contains the suffix (C27_false; C27_exact: it is then never imported into its project). Proved for all other project names.")
c("C28","proved","Verif.C28_reported Verif.C28_source_kept Verif.C28_export_succeeds Verif.C28_create_succeeds Verif.C28_update_succeeds Verif.C28_stale","C28_stale is a finding about create_yw7 called directly (not through run).")
c("C40","proved","Verif.C40_setPath Verif.C40_history","str.lower is modelled for ASCII letters.")
c("C42","proved","Verif.C42_yw7 Verif.C42_known Verif.C42_other Verif.C42_refused Verif.C42_exporter_raises","Finding: Yw7Exporter raises AttributeError for files that are not projects (C42_exporter_raises).")
c("C29","proved","Verif.C29_hidden_irrelevant Verif.C29_hidden_chapters Verif.C29_C30_lines Verif.C29_C30_project Verif.C29_writers Verif.C29_exported Verif.C29_scene_text Verif.C29_succeeds Verif.C29_document Verif.C29_unadjusted_leak","For projects as read from a file (the type of a set-aside chapter is inherited by its scenes). Scenes that begin with <HTML> or <TEX> are skipped as well. Finding C29_unadjusted_leak: in a novel built by hand, a normal scene of a notes chapter does leak. The language codes used in hidden scenes may still be declared in the header's automatic styles (the header is a parameter of the model).")
c("C30","proved","Verif.C29_C30_lines Verif.C29_C30_project Verif.C30_scene_mapping Verif.C30_chapter_mapping")
c("C37","partial","Verif.C37_set Verif.C37_roundtrip_partial Verif.C37_same Verif.C37_missing Verif.C37_false Verif.C37_bad_boolean Verif.demoConfig_good Verif.demoConfig_text","False of the code for arbitrary values (C37_false): percent signs, surrounding blanks and keys that differ in case only. Proved for all keys and values an INI file can represent, through the text of the file (ConfigParser's writer and parser are modelled); reading any file keeps missing keys and ignores unknown ones.")
c("C41","partial","Verif.C41_yw7 Verif.C41_reset Verif.C41_notes_raise Verif.C41_scene_variables_return Verif.C41_tags_partial Verif.C41_false Verif.C41_demo","The part about keyword variables is proved (in memory; saving restores those of scenes, C41_scene_variables_return). The part about language tags is false for nested brackets (C41_false) and proved for all texts without them; what is removed is characterised for all texts.")
c("C33","partial","Verif.C33_characters Verif.C33_locations Verif.C33_items Verif.C33_scenes_partial Verif.C33_false Verif.C33_deletes_unlisted Verif.C33_unlisted_leave_order Verif.C33_bad_id Verif.exImported_back","Proved for character, location and item lists. For scene lists the claim that empty cells leave a field alone is false (C33_false: an unset title, description or rating becomes set), the rest is proved. Finding C33_deletes_unlisted: elements not in the list disappear from the project when it is saved.")
c("C32","partial","Verif.C32_accepted Verif.C32_refused_partial Verif.C32_characters Verif.C32_locations Verif.C32_items Verif.C32_scenes_partial Verif.C32_false Verif.C32_refuses_repeated Verif.C32_scenes_names Verif.demoCast_written Verif.demoScenes_written","Shape and round trip are proved through the document text, an XML parser specification and the table reader for all four lists; in the scene list the names of characters, locations and items are not escaped, so they must be plain (C32_scenes_names). The refusal is false of the code for tables with more columns (C32_false: they are cut) and proved for tables with fewer.")
c("C47","partial","Verif.C47_characters_partial Verif.C47_locations_partial Verif.C47_items_partial Verif.C47_scenes_partial Verif.C47_false","Proved for all projects whose texts a list can carry (CharKept, WorldKept, SceneKept). False in general (C47_false): a tag containing a comma is split, trailing blanks are lost.")
c("C34","partial","Verif.C34_outline Verif.C34_sceneDesc_partial Verif.C34_chapterDesc_partial Verif.C34_characters_partial Verif.C34_world_partial Verif.C34_proof_partial Verif.C34_import_partial Verif.C34_manuscript_partial Verif.C34_false_manuscript Verif.C34_false_chapterDesc Verif.C34_false_sceneDesc Verif.C34_false_proof Verif.C34_false_import","Proved in full for outlines. False in general for the other documents (five C34_false theorems: blanks lost, marks and dividers not recognised, chapter titles cut); for each the exact condition on the division that suffices is proved. Python's expat reader does divide text at its buffer borders.")
c("C35","partial","Verif.C35_manuscript Verif.C35_sceneDesc Verif.C35_chapterDesc Verif.C35_kept Verif.C35_structure Verif.C35_import Verif.C35_characters Verif.C35_locations Verif.C35_items Verif.C35_proof Verif.C35_false","For every document and every reader: only the elements whose sections (or marks) the document has change, and only the fields the document carries, with the exact list of other fields that also change (types, missing titles, languages of the document) and that make the statement literally false (C35_false). C35_import includes the splitting of scenes that follows.")
c("C43","partial","Verif.C43_manuscript_partial Verif.C43_false Verif.exFormatted_fits Verif.exPieces_flowing Verif.Normal.flowing","Proved through all stages (conversion, template, quotations, document header with the language styles, XML lexer, ODT parser, reader) for every text whose formattings are properly nested, each of them possibly reaching over line breaks, one at a time (Spec.Flowing: emphasis, strong emphasis, languages, comments, quotations). False of the code without conditions (C43_false): if two formattings reach over a line break, words get another formatting; underline, strike-through and alignment are lost, blanks between formattings are lost, comments of two lines are cut.")
c("C48","partial","Verif.C48_unmodified_partial Verif.C48_false Verif.exFormatted_fits","Proved for projects whose texts can be carried (Spec.Flowing: formattings properly nested, at most one of them over a line break) and contain no heading lines; only the language settings of the document may replace those of the project. False of the code in general (C48_false).")
c("C31","partial","Verif.C31_balanced_partial Verif.C31_notes_partial Verif.C31_todo_partial Verif.C31_proof_partial Verif.C31_export_partial Verif.C31_false Verif.C31_proof_false Verif.C31_export_false Verif.sceneDocument_broken Verif.exWild_writable Verif.exWild_proofs Verif.exAside_writable Verif.exUnbalanced_mendable Verif.exLoose_writable","Proved for the whole manuscript document, the documents with the notes and with the to-do lists, the document for proof reading and the final export (the XML parser specification accepts them; what the final export shows is in C56) for every project whose texts consist of characters, one-line comments and marks for emphasis, strong emphasis and the project's languages, balanced or not, nested, overlapping, over several lines, unclosed or without a beginning, as long as no line begins a formatting again after a surplus end (Spec.Mendables). False of the code without conditions (C31_false: [/i]x[i]).")
c("C44","partial","Verif.C44_import_partial Verif.C44_outline_partial Verif.C44_import_structure_partial Verif.C44_outline_structure_partial Verif.C44_import_sound Verif.C44_false Verif.C44_false_beginning Verif.C44_false_stars Verif.C44_false_outline","Structure (IDs, order, one chapter per heading, each scene listed once) proved for every document, also after the splitting of scenes that follows. That every paragraph arrives in its scene or description is proved for documents of headings, plain paragraphs with emphasis and comments, and scene dividers; it is false in general (C44_false: quotation or list after a heading, text before the first heading, a paragraph that contains the divider's mark; outlines merge quotations with the next paragraph and drop empty paragraphs).")
c("C49","partial","Verif.C49_locations_partial Verif.C49_items_partial Verif.C49_characters_partial Verif.C49_locations_unmodified_partial Verif.C49_items_unmodified_partial Verif.C49_characters_unmodified_partial Verif.C49_written Verif.C49_aka_breaks Verif.C49_blanks_lost Verif.C49_missing_becomes_empty Verif.sheetExample_exportable Verif.sheetExample_locations Verif.sheetExample_persons","Proved for every project whose shown texts are legal XML text and whose alternate and full names contain no XML special characters (the program does not escape them: C49_aka_breaks); descriptions come back without blanks around the lines (C49_blanks_lost) and a missing description as an empty one (C49_missing_becomes_empty).")
c("C50","partial","Verif.C50_chapters_partial Verif.C50_chapters_unmodified_partial Verif.C50_scenes_partial Verif.C50_scenes_unmodified_partial Verif.C50_comment_lost Verif.C50_untitled_chapter","Proved from the written text through the XML parser specification and the ODT parser to the reader, for every consistent project whose IDs are numbers and whose texts are XML-legal, and every project the document is read into. The unrestricted property is false: a scene description that begins with a comment loses it and can rename the scene, a chapter without a title gets the title of its first scene, a missing description becomes an empty one.")
c("C51","partial","Verif.C51_writable Verif.C51_read_partial Verif.C51_settled_partial Verif.C51_colon_false","C51_writable: the project tree is built without exception for every sound novel, over a new or an old tree. C51_read_partial: a project read from a regular file can be saved to the same tree. False in general: a scene with a colon in the hours is read, but saving it raises ValueError (C51_colon_false); repeated scene IDs or languages in the file are excluded.")
c("C52","partial","Verif.C52_saved Verif.C52_resaved_partial Verif.C52_cycles_partial Verif.C52_foreign_false","C52_saved: a novel with carriable texts and a keepable tree make a file that parses to the tree that was built, with the same structure. C52_resaved_partial/C52_cycles_partial: from file text to file text, any number of times, any locales: always succeeds, the same novel (all of it) every time; for settled projects (Spec.SettledNovel), texts a file can carry (StorableNovel) and regular trees; st_file and st_travels are a concrete case. False without the condition on the tree: an escaped ampersand in an element the program does not know makes the saved file unreadable (C52_foreign_false).")
c("C53","partial","Verif.C53_identical_partial Verif.st_identical Verif.C53_untidy","From file text to file text: after one saving, every further opening and saving gives the same text, for any list of locales. For settled projects, texts a file can carry, regular trees in which no section and nothing that is removed on saving occurs twice; false without the last condition (C53_untidy: a second word count of a scene is removed only on the second saving). st_identical is a concrete case.")
c("C54","partial","Verif.C54_proof_partial Verif.C54_unmodified_partial Verif.C54_false Verif.exFormatted_proof","Proved through all stages (conversion, templates, document header, XML lexer, ODT parser, reader) for every text whose formattings are properly nested, one of them at a time reaching over line breaks (Spec.Flowing), without scene markers and without blanks at the beginning, and plain titles (Spec.ProofFits). False of the code in general (C54_false): leading blanks are lost, [/ScID in a text cuts it off, [ScID:1] in a text moves the rest to another scene, [ScID without a number makes the import fail.")
c("C55","partial","Verif.C55_document_partial Verif.C55_opened_partial Verif.C55_tag_breaks Verif.xrefExample_shown Verif.xrefExample_ready Verif.xrefExample_exportable Verif.xrefExample_fits","Proved from the novel to the written text, which the XML parser specification accepts and whose paragraphs (style, shown text, link targets) are exactly the ones of the independent specification Spec.crossReference, for every complete novel with plain tags and IDs. False for tags with special characters: the program does not escape them, the document is then unreadable (C55_tag_breaks).")
c("C56","partial","Verif.C56_book_partial Verif.C56_mended_partial Verif.bookNovel_shown Verif.bookNovel_fits Verif.exLoose_writable Verif.C56_author_breaks Verif.C56_letters_lost Verif.C56_overlap_false","Proved from the novel to the written text, which the XML parser specification accepts and whose paragraphs, formatted characters, comments and notes are exactly those of the independent specification Spec.book, for every complete novel with texts built of characters, comments, notes and properly nested formattings (Spec.Flowing), plain one-line titles. For texts that have to be mended (unclosed, overlapping formattings, stray ends: Spec.ExportWritable), C56_mended_partial proves that every paragraph, letter, comment and note is shown in its place; which formatting a letter is shown with is then left open, and where formattings overlap, or two stay open over a line break, it is indeed the wrong one (C56_overlap_false). False without conditions: an author's name with & and a comment make the document unreadable (C56_author_breaks); the letters @n@ become a line break, brackets like [h1] vanish from titles, a comment mark in the title swallows headings and text (C56_letters_lost).")
c("C57","proved","Verif.C57_project Verif.C57_resaved Verif.C57_configuration Verif.C57_settings_partial Verif.C57_file_partial Verif.C57_demo","Unconditional for reading (every text without carriage returns of its own). The two theorems with the suffix _partial are corollaries about written files: settings a configuration file can represent, trees a project file can carry.")
c("C58","partial","Verif.C58_update_partial Verif.C58_again_partial Verif.C58_old_kept Verif.C58_restored Verif.C58_demo Verif.C58_lines_lost Verif.trTemplate_regular Verif.trOld_regular","The contents are proved for all files whose messages and translations have one line each (Spec.PoFile.Regular), with arbitrary other lines between them; false otherwise (C58_lines_lost: messages of several lines vanish). The safety of writing is proved without conditions. JSON syntax is not modelled.")
c("C59","partial","Verif.C59_joined_partial Verif.C59_ends_partial Verif.C59_missing_partial Verif.C59_import_line Verif.C59_demo Verif.C59_local_import_lost Verif.C59_lines_run_together Verif.C59_main_twice Verif.C59_text_lost Verif.C59_backslash","Proved for all sources (any import graph, cycles included) in which no module needs the main script and no other import bears the name of a module file (Spec.Sources.Sound); the first condition is needed (C59_main_twice). Python's limit of the recursion depth is not modelled: the theorems hold for every bound above the number of files. Findings as theorems: an import inside of a function is lost if another module has the same (C59_local_import_lost); a file without a final line end runs into the next line (C59_lines_run_together); strings in three double quotation marks are lost (documented; C59_text_lost); module paths contain a backslash that only Windows accepts (C59_backslash).")
c("C60","partial","Verif.C60_catalog Verif.C60_make_partial Verif.C60_translations_partial Verif.C60_demo Verif.C60_fuzzy_spreads Verif.C60_context_spreads Verif.C60_plural Verif.C60_first_message Verif.C60_messages_stay","C60_catalog is about every set of messages. C60_make_partial is about files with a header and entries without contexts and plurals (the project has none), in which an uncertain entry is followed by a comment and the first message after the header has a comment above it or plain characters: both are needed (C60_fuzzy_spreads: the mark spreads to the next entries; C60_first_message: the first message is encoded twice). C60_translations_partial joins it with the update of the translations (C58). The reading of the charset in the header (email.parser) is a parameter. Finding: a second call in one process also writes the messages of the first (C60_messages_stay).")
c("C61","partial","Verif.C61_template_partial Verif.C61_catalog_partial Verif.C61_unreadable Verif.C61_old_kept Verif.C61_restored Verif.C61_demo Verif.srcTree_regular Verif.C61_quotes Verif.C61_missed","Proved for all programs in which nothing else looks like the beginning of a marked message and whose messages stand in one line (Spec.Source.Regular); false otherwise (C61_missed). C61_catalog_partial joins the three programs (pgettext, translations, msgfmt): from the programs' texts to the lookup in the compiled file, for messages without escaped double quotation marks; with them the compiler fails (C61_quotes). The safety of writing is proved without conditions.")
c("C62","proved","Verif.C62_utf16 Verif.C62_opened_iff Verif.C62_utf8 Verif.C62_utf8Bom Verif.C62_locked Verif.C62_missing Verif.C62_undecodable Verif.C62_ascii_partial Verif.C62_unmarked_partial Verif.C62_refute_malformed Verif.C62_refute_other Verif.C62_refute_letters Verif.C62_refute_lines","All of the statement is proved, for every behaviour of the XML parser (C62_utf8 for the parser of Spec.XmlDoc, so that all theorems about file texts apply to files of bytes). Beyond the statement: files without byte order mark (C62_ascii_partial, C62_unmarked_partial). The limits are theorems, too: without byte order mark, letters may be replaced and line ends doubled; files that are not well-formed raise ParseError instead of a message, files in other encodings UnboundLocalError.")
c("C63","partial","Verif.C63_window_partial Verif.C63_caption_partial Verif.C63_result Verif.C63_failed Verif.C63_restored Verif.C63_message Verif.C63_lastDir Verif.C63_dialog Verif.C63_recovers Verif.C63_demo Verif.C63_refute_exception","Proved for all histories in which no reading ends with an exception that is not meant for the user; with such an exception the statement is false (C63_refute_exception: a malformed file), but the next closing or opening repairs the window from any state (C63_recovers). C63_result, C63_failed, C63_restored, C63_message and C63_lastDir hold without this condition.")
c("C64","partial","Verif.C64_odt_styles_partial Verif.C64_ods_styles_partial Verif.C64_styles_defined_partial Verif.C64_styles_mended_partial Verif.C64_metadata_partial Verif.C64_markup_breaks Verif.C64_note_styles Verif.metaNovel_metadata Verif.bookNovel_styles","The full statement is false: title, author and codes are inserted without being escaped (C64_markup_breaks), a missing title, author or description becomes the word None, and the paragraph styles of footnotes and endnotes are not defined (C64_note_styles). Proved for titles and authors without markup characters, descriptions without the end of a CDATA section, codes of ordinary characters; the styles for the books of C56.")
c("C65","partial","Verif.C65_opens_partial Verif.C65_windows Verif.C65_same_place Verif.C65_norm_idempotent Verif.C65_never_open Verif.C65_refute_quote Verif.C65_refute_dollar","C65_same_place and C65_norm_idempotent hold for all paths. That only the document is opened is proved for paths without quotation marks, dollar signs, backquotes and backslashes; for others it is false (C65_refute_quote: the rest of the path is executed as a command).")
c("C66","partial","Verif.C66_notes_partial Verif.C66_todo_partial Verif.C66_unmodified_partial Verif.C66_false","Proved for all projects whose notes (to-do) texts are in the normal form of C43 (Flowing) and whose notes (to-do) chapters have a title; without these conditions the property is false of the code (C66_false).")
c("C67","partial","Verif.C67_manuscript_partial Verif.C67_proof_partial Verif.C67_notes_partial Verif.C67_todo_partial Verif.C67_scenes_partial Verif.C67_chapters_partial Verif.C67_parts_partial Verif.C67_characters_partial Verif.C67_items_partial Verif.C67_locations_partial Verif.C67_charlist_partial Verif.C67_loclist_partial Verif.C67_itemlist_partial Verif.C67_scenelist_partial Verif.C67_lists_written Verif.C67_same_file Verif.C67_language_added_partial Verif.tiny_travels Verif.tiny_same","Proved for all fourteen document types, for settled project files (C51) whose texts the document can carry (the conditions of C43, C47-C50, C54, C66) and whose metadata need no escaping (C64). For other projects the property is false of the code: see the theorems on lost texts of these properties, C64_markup_breaks, and C67_language_added_partial (a project without a language gets that of the system).")
c("C68","partial","Verif.C68_quoted Verif.C68_distinct Verif.C68_names_fit Verif.C68_path Verif.C68_name_partial Verif.C68_written Verif.C68_link_partial Verif.C68_scene_list_partial Verif.C68_cross_reference_partial Verif.C68_two_slashes Verif.C68_capitals Verif.C68_inner Verif.C68_symlink Verif.C68_dead_link","Quoting and the fitness of the names are proved for all names. The links are proved for files that are not symbolic links to other names and whose name does not contain the suffix and the extension of the document a second time (false otherwise: C68_inner, C68_symlink), and the cross reference for projects whose texts the documents can carry and without scenes that are marked not to be exported or are raw code (false otherwise: C68_dead_link). On POSIX systems the path in the links of the scene list begins with two slashes (C68_two_slashes).")
c("C69","proved","Verif.C69_same_run Verif.C69_reported Verif.C69_unambiguous Verif.C69_dialog Verif.C69_yes Verif.C69_consent Verif.C69_buffers Verif.C69_announcement Verif.C69_silent_warning","The silent interface cannot ask and always agrees; it does not show warnings (C69_silent_warning). Message boxes do not store the result and the console does not store the announcement in the buffers (C69_buffers).")
c("C70","partial","Verif.C70_scripts Verif.C70_data_frame Verif.C70_data_partial Verif.C70_data_succeeds_partial Verif.C70_plotlist_false Verif.C70_exporters_false Verif.C70_message_false Verif.C70_consent_false","The documents and the frame are proved for all inputs. Data files: for worlds a file can carry (StorableWorld; of others not even the project file keeps them, see C52). Refuted: data files are overwritten without asking and without a backup (C70_consent_false), the reported file does not exist (C70_message_false), cnv_plotlist never makes anything (C70_plotlist_false), three applications raise an AttributeError for a file that is no project (C70_exporters_false).")
c("C71","partial","Verif.C71_synopsis_partial Verif.C71_scenes_partial Verif.C71_headings_partial Verif.C71_control_breaks","For titles that can be in a document at all (legal characters, no carriage return); refuted without the condition: C71_control_breaks (titles are written without a check).")
c("C72","partial","Verif.C72_texts Verif.C72_synopsis_partial Verif.C72_status_false","The statement about the texts is proved for every file content. The synopsis: if the scenes have one of the six states the program knows; refuted without: C72_status_false (the file opens, but nothing can be exported).")
c("C73","proved","Verif.C73_exact Verif.C73_all Verif.C73_same Verif.C73_run Verif.C73_example","The run: for the converter without faults of the environment, a project that is not locked, and a target that is new or may be overwritten.")
c("C74","partial","Verif.C74_lines Verif.C74_scenes_partial Verif.C74_chapters_partial Verif.C74_characters_partial Verif.C74_locations_partial Verif.C74_items_partial Verif.C74_opened_partial Verif.C74_aka_breaks","Missing: IDs that are not numbers; alternate and full names with XML special characters, for which the full statement is false (C74_aka_breaks: the document is not well-formed).")
c("C75","partial","Verif.C75_default Verif.C75_remaining_partial Verif.C75_opened Verif.C75_rejected Verif.C75_exporters Verif.C75_marks_matter Verif.C75_named_with_scenes","Missing: filters for scenes that reject exactly the scenes of a chapter that are for export, or all scenes of a chapter that is not; the full statement is false for them (C75_marks_matter: the heading of the chapter is shown and numbered although the remaining chapter is not for export). Without a filter for scenes the statement is unconditional for opened projects (C75_opened).")
c("C76","partial","Verif.C76_package Verif.C76_settings Verif.C76_rdf Verif.C76_wellformed_partial Verif.C76_mimetype_not_first Verif.tiny_packages","Proved without conditions but for the ZIP format: completeness, media type, manifest, settings, RDF. Partial: the content and the metadata are well-formed only under the conditions of C31 and C64, without which it is false; the file mimetype is not the first of the package (C76_mimetype_not_first), and the settings of spreadsheets have unfilled place holders (C76_settings).")
c("C77","partial","Verif.C77_only Verif.C77_kept Verif.C77_updated_partial Verif.C77_stops Verif.C77_lost Verif.C77_de_kept Verif.C77_incomplete_partial Verif.C77_compiled_partial Verif.C77_installed_partial Verif.C77_damaged Verif.C77_demo Verif.C77_de_demo Verif.bulk_ready","Proved without conditions: nothing else is changed and no translation file is lost, for every sequence of failures. Partial: the contents for regular files (one line for each message and translation); a project without template stops the run (C77_stops), the global update removes the program's name and version and, for an empty JSON entry, an existing translation (C77_lost), and the catalogue itself is not written safely (C77_damaged).")
c("C78","partial","Verif.C78_manuscript Verif.C78_proof Verif.C78_text_partial Verif.C78_sceneDesc Verif.C78_chapterDesc Verif.C78_characters Verif.C78_locations Verif.C78_items Verif.C78_charList Verif.C78_locList Verif.C78_itemList Verif.C78_sceneList Verif.C78_false Verif.C78_demo Verif.C78_list_demo Verif.C78_more_demo","Proved for every document and every project with distinct IDs, for all twelve readers of documents with marks. Partial: for whole imports of texts (C78_text_partial) the texts read must not contain heading lines; otherwise each import adds the new scenes again (C78_false). A work in progress and an outline make a new project and are not covered.")
c("C79","proved","Verif.C79_local Verif.C79_order Verif.C79_sequence Verif.C79_demo Verif.C79_false","Proved for all documents, projects and orders. C79_false shows that the condition on the parts is needed: of two documents about the same scene the last one wins.")
c("C80","proved","Verif.C80_import Verif.C80_sequence Verif.C80_saved Verif.C80_opened Verif.C80_opened_saved Verif.C80_demo","Proved for all documents, numbers and orders of imports, and all projects in order. The saving is that of C51 (the construction of the tree; writing the file is C24).")
c("C81","proved","Verif.C81_made Verif.C81_saved Verif.C81_continued Verif.C81_demo","Proved for all documents that can be read. The saving is that of C51 (the construction of the tree; writing the file is C24).")
c("C82","proved","Verif.C82_ids Verif.C82_kept Verif.C82_opens Verif.C82_opens_demo Verif.C82_new Verif.C82_new_kept Verif.C82_new_opens Verif.C82_new_demo Verif.C82_demo Verif.C82_repeated","Proved for all sequences of imports, with the conditions of the statement (C82_repeated: the one on lists is needed). C82_opens and C82_new_opens: the saving succeeds, the file can be read, and the structure is that of the project when it was saved. The structure only; the contents are the subject of C13 to C23 and C46.")
