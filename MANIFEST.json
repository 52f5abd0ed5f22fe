{"claims": [
 {"property": "C01", "status": "proved", "theorems": ["Docx.Props.C01_escape_decodes", "Docx.Props.C01_escape_roundtrip", "Docx.Props.C01_escape_attribute"], "note": "Carriage returns are dropped by escape; the statement says exactly that."},
 {"property": "C02", "status": "proved", "theorems": ["Docx.Props.C02_escape_markup_free"], "note": ""},
 {"property": "C03", "status": "proved", "theorems": ["Docx.Props.C03_escape_owned"], "note": ""},
 {"property": "C04", "status": "proved", "theorems": ["Docx.Props.C04_replace_escape", "Docx.Props.C04_replace_inverts", "Docx.Props.C04_replace_plain", "Docx.Props.C04_replace_length", "Docx.Props.C04_replace_equations", "Docx.Props.C04_line_feed_not_restored"], "note": "replace_escaped inverts escape except that line feeds stay as references (C04_line_feed_not_restored)."},
 {"property": "C05", "status": "proved", "theorems": ["Docx.Props.C05_error_iff", "Docx.Props.C05_writes_canonical", "Docx.Props.C05_balanced_output", "Docx.Props.C05_declaration"], "note": ""},
 {"property": "C06", "status": "proved", "theorems": ["Docx.Props.C06_splitQName", "Docx.Props.C06_read_print", "Docx.Props.C06_read_write", "Docx.Props.C06_read_write_declared", "Docx.Props.C06_user_strings"], "note": "The tokens of the external quick_xml lexer are specified in Model/XmlParser.lean."},
 {"property": "C07", "status": "proved", "theorems": ["Docx.Props.C07_run_texts", "Docx.Props.C07_add_text", "Docx.Props.C07_add_texts", "Docx.Props.C07_document", "Docx.Props.C07_header", "Docx.Props.C07_footer", "Docx.Props.C07_comments", "Docx.Props.C07_footnotes", "Docx.Props.C07_document_deleted", "Docx.Props.C07_one_text", "Docx.Props.C07_package", "Docx.Props.C07_package_parts", "Docx.Props.C07_package_footnotes"], "note": "Every text, in order and with multiplicity, in every part. add_text drops line feeds and carriage returns; the theorems state the exact string."},
 {"property": "C08", "status": "partial", "theorems": ["Docx.Props.C08_run_style", "Docx.Props.C08_paragraph_style", "Docx.Props.C08_fonts", "Docx.Props.C08_insert_author", "Docx.Props.C08_delete_author", "Docx.Props.C08_change_author", "Docx.Props.C08_mark_author", "Docx.Props.C08_escaping_setters", "Docx.Props.C08_document", "Docx.Props.C08_header", "Docx.Props.C08_footer", "Docx.Props.C08_comments", "Docx.Props.C08_footnotes", "Docx.Props.C08_comment_author_injects", "Docx.Props.C08_raw_fields_unreadable", "Docx.Props.C08_package"], "note": "Proved for every string given to an escaping setter. Comment author, dates, colours, bookmark names and other fields are copied unescaped: proved as counterexamples (C08_comment_author_injects, C08_raw_fields_unreadable)."},
 {"property": "C09", "status": "proved", "theorems": ["Docx.Props.C09_ids_unique_nonempty", "Docx.Props.C09_footnote_text_not_visited"], "note": "Covers every paragraph outside footnote text still attached to its reference and text boxes, which the preparation does not visit (C09_footnote_text_not_visited). The u32 overflow of the id counter is not modelled."},
 {"property": "C10", "status": "proved", "theorems": ["Docx.Props.C10_first_occurrences_kept", "Docx.Props.C10_only_ids_change", "Docx.Props.C10_idempotent", "Docx.Props.C10_unchanged_when_unique"], "note": ""},
 {"property": "C11", "status": "proved", "theorems": ["Docx.Props.C11_distinct_one_thread", "Docx.Props.C11_texts_distinct", "Docx.Props.C11_distinct_without_overlap", "Docx.Props.C11_two_threads_collide", "Docx.Props.C11_one_thread_sees_repeat", "Docx.Props.C11_collision_from_every_state", "Docx.Props.C11_paragraph_ids_per_thread", "Docx.Props.C11_paragraph_ids_across_threads", "Docx.Props.C11_revision_counters_overlap"], "note": "Single-thread distinctness, per-thread paragraph ids under every schedule, and the multi-thread collisions as theorems."},
 {"property": "C12", "status": "partial", "theorems": ["Docx.Props.C12_document_ids", "Docx.Props.C12_unique_partial", "Docx.Props.C12_fails"], "note": "The exact set of written ids is proved (C12_document_ids); uniqueness is proved unless a body paragraph has an id the generator is about to use, and is false then (C12_fails)."},
 {"property": "C13", "status": "proved", "theorems": ["Docx.Props.C13_body_pictures_resolve", "Docx.Props.C13_header_pictures_resolve", "Docx.Props.C13_footer_pictures_resolve", "Docx.Props.C13_comment_and_footnote_pictures_lost", "Docx.Props.C13_document_written", "Docx.Props.C13_header_written", "Docx.Props.C13_footer_written", "Docx.Props.C13_package_body"], "note": "For pictures in the body, headers and footers; pictures inside comments and footnotes are lost (proved as counterexamples)."},
 {"property": "C14", "status": "proved", "theorems": ["Docx.Props.C14_media_names_unique", "Docx.Props.C14_media_stored_once", "Docx.Props.C14_media_are_the_pictures", "Docx.Props.C14_package_bytes"], "note": "The checksum is an arbitrary function."},
 {"property": "C15", "status": "proved", "theorems": ["Docx.Props.C15_relationship_ids_unique", "Docx.Props.C15_relationship_targets_stored"], "note": ""},
 {"property": "C16", "status": "partial", "theorems": ["Docx.Props.C16_no_error", "Docx.Props.C16_same_outcome", "Docx.Props.C16_entries_partial", "Docx.Props.C16_same_partial", "Docx.Props.C16_fails"], "note": "pack() and build().pack() succeed together, never fail with a writer error, and write the same entries in the same order with the same names, and the same contents except for generated ids in content parts (C16_entries_partial); with headers, footers and styles that draw no ids, the same contents (C16_same_partial). Byte-for-byte equality is false in general (C16_fails): the two ways write the parts in different orders, so a tracked change in a header and one in the body swap their revision ids."},
 {"property": "C17", "status": "proved", "theorems": ["Docx.Props.C17_pack", "Docx.Props.C17_build_pack"], "note": ""},
 {"property": "C18", "status": "partial", "theorems": ["Docx.Props.C18_targets_exist_partial", "Docx.Props.C18_fails"], "note": "C18_targets_exist_partial: every internal target is an entry when each header and footer slot is set at most once, the document is not replaced and sections are added without parts of their own; C18_fails for a header set twice."},
 {"property": "C19", "status": "partial", "theorems": ["Docx.Props.C19_references_resolve_partial", "Docx.Props.C19_fails"], "note": "Proved for packages built by calls that give headers (or footers) in the order default, first page, even pages and before sections are added; C19_fails shows that the parts are swapped for other orders. Parts are compared up to paragraph and picture ids."},
 {"property": "C20", "status": "partial", "theorems": ["Docx.Props.C20_unique_iff_partial", "Docx.Props.C20_fails", "Docx.Props.C20_program", "Docx.Props.C20_program_footnotes", "Docx.Props.C20_toc"], "note": "C20_unique_iff_partial: for pictures and links with ids as their constructors make them, the ids are distinct exactly when there is no custom item or no footnote; C20_fails is the collision. C20_program: from JavaScript the ids are always different, custom items included, because documents put together there have no footnotes (C20_program_footnotes, C20_toc)."},
 {"property": "C21", "status": "partial", "theorems": ["Docx.Props.C21_overrides_distinct", "Docx.Props.C21_overrides_exist_partial", "Docx.Props.C21_fails_taskpanes", "Docx.Props.C21_fails_item", "Docx.Props.C21_program_distinct", "Docx.Props.C21_program_exist_partial"], "note": "C21_overrides_distinct: no part name twice, always. C21_overrides_exist_partial: all exist when slots are set once, task panes are on and there are more custom items than web extensions before them; C21_fails_taskpanes and C21_fails_item are the failures. C21_program_distinct, C21_program_exist_partial: the same for programs in JavaScript; there web extensions never come without their pane and parts can be set again."},
 {"property": "C22", "status": "partial", "theorems": ["Docx.Props.C22_items_partial", "Docx.Props.C22_fails", "Docx.Props.C22_program_partial"], "note": "C22_items_partial: entry, id, relationship from the document, and exactly which relationship and content type the item gets; C22_fails for the second of two items. C22_program_partial: the same for programs in JavaScript, without the content type."},
 {"property": "C23", "status": "partial", "theorems": ["Docx.Props.C23_related_partial", "Docx.Props.C23_fails_row", "Docx.Props.C23_fails_cell", "Docx.Props.C23_fails_document"], "note": "Proved for all content made with the methods of its type and given directly. Fails, with witnesses, for rows added to an existing table, content controls in cells, and a body given as a whole; tables of contents and content inside paragraphs are not covered."},
 {"property": "C24", "status": "partial", "theorems": ["Docx.Props.C24_comments_written", "Docx.Props.C24_ranges_written", "Docx.Props.C24_package_partial", "Docx.Props.C24_anchored_partial", "Docx.Props.C24_given", "Docx.Props.C24_fails"], "note": "C24_given says exactly which comments are written; C24_package_partial for comments of one paragraph in paragraphs and tables of the body. C24_fails: comments in sections and in content controls at document level are anchored but not written. A comment of several paragraphs is written once per paragraph (C25_fails)."},
 {"property": "C25", "status": "partial", "theorems": ["Docx.Props.C25_records", "Docx.Props.C25_records_partial", "Docx.Props.C25_fails"], "note": "C25_records gives the exact records; C25_records_partial is the property for comments of one paragraph with distinct ids. C25_fails: a comment of two paragraphs gets two records."},
 {"property": "C26", "status": "proved", "theorems": ["Docx.Props.C26_package", "Docx.Props.C26_footnotes_in_order", "Docx.Props.C26_collect_footnotes", "Docx.Props.C26_references_written", "Docx.Props.C26_footnotes_written", "Docx.Props.C26_references_resolve"], "note": ""},
 {"property": "C27", "status": "partial", "theorems": ["Docx.Props.C27_expand", "Docx.Props.C27_expected_partial", "Docx.Props.C27_fails_without_range", "Docx.Props.C27_fails_twice", "Docx.Props.C27_fails_escaped_style", "Docx.Props.C27_fails_out_of_range"], "note": "C27_expand proves the exact effect for every document and instruction. Agreement with the expected rule needs the stated conditions; the four cases where the code differs are proved as counterexamples."},
 {"property": "C28", "status": "proved", "theorems": ["Docx.Props.C28_keys_distinct", "Docx.Props.C28_targets", "Docx.Props.C28_user_bookmark_collides"], "note": "Up to 2^64 entries. Keys do not avoid names of bookmarks made by the user (C28_user_bookmark_collides)."},
 {"property": "C29", "status": "partial", "theorems": ["Docx.Props.C29_document", "Docx.Props.C29_header", "Docx.Props.C29_footer", "Docx.Props.C29_balanced_partial", "Docx.Props.C29_fails", "Docx.Props.C29_example"], "note": "Balance of the written part is equivalent to balance of the field characters the user added, unless an entry-less table of contents is followed at once by a table (C29_fails: the field is never ended)."},
 {"property": "C30", "status": "partial", "theorems": ["Docx.Props.C30_parse", "Docx.Props.C30_parse_partial", "Docx.Props.C30_parse_iff", "Docx.Props.C30_written", "Docx.Props.C30_fails_lone_f", "Docx.Props.C30_fails_space", "Docx.Props.C30_fails_comma", "Docx.Props.C30_entry_text_lost", "Docx.Props.C30_example"], "note": "C30_parse gives what parsing the written instruction returns for every instruction whose arguments have no space, quotation mark, ampersand (and no comma in style names), C30_written the same through the file; C30_parse_iff says exactly when it is the same instruction. Missing because the code does not do it: arguments with spaces (C30_fails_space) or commas (C30_fails_comma), a lone \\\\f (C30_fails_lone_f); the text of a TC entry is never read back (C30_entry_text_lost)."},
 {"property": "C31", "status": "partial", "theorems": ["Docx.Props.C31_AlignmentType", "Docx.Props.C31_BorderType", "Docx.Props.C31_BreakType", "Docx.Props.C31_CharacterSpacingValues_unsupported_lost", "Docx.Props.C31_CharacterSpacingValues_partial", "Docx.Props.C31_DocGridType", "Docx.Props.C31_FieldCharType", "Docx.Props.C31_HeightRule", "Docx.Props.C31_HyperlinkType", "Docx.Props.C31_LevelSuffixType", "Docx.Props.C31_PageOrientationType", "Docx.Props.C31_PositionalTabAlignmentType", "Docx.Props.C31_PositionalTabRelativeTo", "Docx.Props.C31_RelativeFromHType", "Docx.Props.C31_RelativeFromVType_outsizeMargin_lost", "Docx.Props.C31_RelativeFromVType_partial", "Docx.Props.C31_SectionType", "Docx.Props.C31_ShdType", "Docx.Props.C31_StyleType", "Docx.Props.C31_TabLeaderType", "Docx.Props.C31_TabValueType", "Docx.Props.C31_TableAlignmentType", "Docx.Props.C31_TableLayoutType", "Docx.Props.C31_TextAlignmentType", "Docx.Props.C31_TextDirectionType", "Docx.Props.C31_ThemeColor", "Docx.Props.C31_VertAlignType", "Docx.Props.C31_VAlignType", "Docx.Props.C31_VMergeType", "Docx.Props.C31_WidthType", "Docx.Props.C31_tokens_plain"], "note": "Proved for every enumeration except two values: RelativeFromVType.outsizeMargin is written outsideMargin and read back as margin, CharacterSpacingValues.unsupported is written as a fixed token and not recovered; both are proved as counterexamples."},
 {"property": "C32", "status": "partial", "theorems": ["Docx.Props.C32_accepts", "Docx.Props.C32_rejects", "Docx.Props.C32_read", "Docx.Props.C32_round_trip_iff", "Docx.Props.C32_round_trip_partial", "Docx.Props.C32_fails_reference", "Docx.Props.C32_fails_markup", "Docx.Props.C32_fails_ampersand", "Docx.Props.C32_fails_space", "Docx.Props.C32_missing"], "note": "C32_read gives the exact value read back from every printable value, C32_round_trip_iff when it is the same one, C32_round_trip_partial the plain values for which it always is; C32_accepts and C32_rejects say exactly which texts are accepted, which give an error and which panic. Missing because the code does not do it: strings with special characters (C32_fails_reference, C32_fails_markup, C32_fails_ampersand) and surrounding white space (C32_fails_space)."},
 {"property": "C33", "status": "partial", "theorems": ["Docx.Props.C33_parts_partial", "Docx.Props.C33_no_panic", "Docx.Props.C33_ends", "Docx.Props.C33_fails_doubled", "Docx.Props.C33_fails_panic", "Docx.Props.C33_fails_text"], "note": "C33_parts_partial: for packages in the form word processors write, exactly the parts come out, in order. C33_no_panic and C33_ends hold for any text without doubled quotes, and any text. Missing because the code does not do it: doubled-quote attributes (C33_fails_doubled, C33_fails_panic) and texts that hold one (C33_fails_text)."},
 {"property": "C34", "status": "partial", "theorems": ["Docx.Props.C34_read", "Docx.Props.C34_fails", "Docx.Props.C34_type_first_partial", "Docx.Props.C34_panics"], "note": "C34_fails: for every written package the reader swaps part names and content types. C34_type_first_partial: tables whose elements give the content type first are read correctly. C34_panics: an element with fewer than two attributes panics."},
 {"property": "C35", "status": "partial", "theorems": ["Docx.Props.C35_skip_partial", "Docx.Props.C35_skip_exact_iff", "Docx.Props.C35_others_untouched", "Docx.Props.C35_nested_fails", "Docx.Props.C35_unclosed_never_ends"], "note": "C35_skip_exact_iff: an element is skipped exactly if and only if no element of the same name is inside it; C35_skip_partial is the direction that holds for any other content. C35_nested_fails: with one inside, the skip ends at the inner end tag. C35_unclosed_never_ends: without an end tag it never ends."},
 {"property": "C36", "status": "partial", "theorems": ["Docx.Props.C36_read_back", "Docx.Props.C36_kept_partial", "Docx.Props.C36_calls_partial", "Docx.Props.C36_fails_stretch", "Docx.Props.C36_fails_border_space", "Docx.Props.C36_fails_ptab", "Docx.Props.C36_fails_strike", "Docx.Props.C36_fails_size", "Docx.Props.C36_fails_tab"], "note": "C36_read_back gives the exact formatting read from the written form of any formatting; C36_kept_partial and C36_calls_partial are the property for all combinations within explicit limits. Missing because the code does not keep them: character scaling, text border space, positional tab reference, single strike disabled beside double strike, sizes above 2^53, tabs in strings (C36_fails_*)."},
 {"property": "C37", "status": "partial", "theorems": ["Docx.Props.C37_read_back", "Docx.Props.C37_items", "Docx.Props.C37_same_partial", "Docx.Props.C37_fails_entity", "Docx.Props.C37_fails_empty", "Docx.Props.C37_package"], "note": "C37_read_back: what is read from the part of any document that holds only what the reader knows. C37_items: for bodies built through the API of paragraphs (any formatting that survives), runs, tracked changes, bookmarks, links and nested tables, the same items come back in the same order, texts as afterText says. C37_same_partial: they are the same, texts included, if and only if no text is empty, has a line end or shows an entity reference. Missing because the code does not keep them: those texts (C37_fails_entity, C37_fails_empty)."},
 {"property": "C38", "status": "partial", "theorems": ["Docx.Props.C38_raw_text", "Docx.Props.C38_visible_partial", "Docx.Props.C38_fails", "Docx.Props.C38_moved_and_linked"], "note": "raw_text returns the texts in order (C38_raw_text) but escaped as written, so it equals the visible text only where nothing needed escaping (C38_visible_partial, C38_fails)."},
 {"property": "C39", "status": "proved", "theorems": ["Docx.Props.C39_document", "Docx.Props.C39_header", "Docx.Props.C39_footer", "Docx.Props.C39_comments", "Docx.Props.C39_block_in_every_cell", "Docx.Props.C39_paragraph_last", "Docx.Props.C39_two_tables", "Docx.Props.C39_example"], "note": "Exact element names of every written cell; C39_two_tables shows the excluded case."},
 {"property": "C40", "status": "proved", "theorems": ["Docx.Props.C40_strike", "Docx.Props.C40_complex_script", "Docx.Props.C40_color", "Docx.Props.C40_outline", "Docx.Props.C40_chars_dropped"], "note": ""},
 {"property": "C41", "status": "proved", "theorems": ["Docx.Props.C41_round_trip", "Docx.Props.C41_overflow", "Docx.Props.C41_to_px", "Docx.Props.C41_picture"], "note": ""},
 {"property": "C42", "status": "proved", "theorems": ["Docx.Props.C42_part_relations"], "note": "For pictures whose ids are as the constructor makes them."},
 {"property": "C43", "status": "proved", "theorems": ["Docx.Props.C43_kind", "Docx.Props.C43_add_image"], "note": ""},
 {"property": "C44", "status": "proved", "theorems": ["Docx.Props.C44_heading_level", "Docx.Props.C44_named_heading", "Docx.Props.C44_only_headings", "Docx.Props.C44_level_is_number", "Docx.Props.C44_style_map"], "note": ""},
 {"property": "C45", "status": "proved", "theorems": ["Docx.Props.C45_document", "Docx.Props.C45_header", "Docx.Props.C45_footer", "Docx.Props.C45_comments", "Docx.Props.C45_footnotes", "Docx.Props.C45_package"], "note": "C45_package adds every other part of the package: styles, numbering, settings, properties, relationships, content types, task panes, custom items."},
 {"property": "C46", "status": "proved", "theorems": ["Docx.Props.C46_document", "Docx.Props.C46_header", "Docx.Props.C46_footer", "Docx.Props.C46_comments", "Docx.Props.C46_footnotes", "Docx.Props.C46_distinct", "Docx.Props.C46_kinds_overlap"], "note": "Up to 2^64 revisions in one part."},
 {"property": "C47", "status": "partial", "theorems": ["Docx.Props.C47_document_kept_partial", "Docx.Props.C47_items_kept"], "note": "C47_document_kept_partial without automatic tables of contents; C47_items_kept with them, for everything but paragraphs and tables of contents as such."},
 {"property": "C48", "status": "partial", "theorems": ["Docx.Props.C48_links_resolve_partial", "Docx.Props.C48_fails"], "note": "C48_links_resolve_partial for links in paragraphs and tables of the body; C48_fails for a link in a section."},
 {"property": "C49", "status": "proved", "theorems": ["Docx.Props.C49_parts_typed", "Docx.Props.C49_program"], "note": " C49_program: the same for programs in JavaScript."},
 {"property": "C50", "status": "proved", "theorems": ["Docx.Props.C50_writable_packs", "Docx.Props.C50_unsupported_panics"], "note": ""},
 {"property": "C51", "status": "partial", "theorems": ["Docx.Props.C51_read_back", "Docx.Props.C51_kept_partial", "Docx.Props.C51_fails_bidi", "Docx.Props.C51_fails_widow", "Docx.Props.C51_fails_indent"], "note": "C51_read_back gives the exact formatting read from the written form of any paragraph formatting; C51_kept_partial is the property for all combinations within explicit limits and any depth of recorded changes. Missing because the code does not keep them: right-to-left, switches set to off, indents with a side left out or in characters, frame spaces (C51_fails_*), and what C36 and C52 miss."},
 {"property": "C52", "status": "partial", "theorems": ["Docx.Props.C52_read_back", "Docx.Props.C52_kept_partial", "Docx.Props.C52_fails_orient", "Docx.Props.C52_fails_columns", "Docx.Props.C52_fails_direction", "Docx.Props.C52_fails_pitch"], "note": "C52_read_back gives the exact page set-up read back; C52_kept_partial is the property within explicit limits. Missing because the code does not keep them: orientation, columns and space, text direction, grid values above 2^24 (C52_fails_*)."},
 {"property": "C53", "status": "partial", "theorems": ["Docx.Props.C53_read_back_table", "Docx.Props.C53_read_back_cell", "Docx.Props.C53_read_back_row", "Docx.Props.C53_kept_table_partial", "Docx.Props.C53_kept_cell_partial", "Docx.Props.C53_kept_row_partial", "Docx.Props.C53_fails_layout", "Docx.Props.C53_fails_indent", "Docx.Props.C53_fails_space", "Docx.Props.C53_fails_row"], "note": "C53_read_back_table/_cell/_row give the exact formatting read back; the C53_kept_*_partial theorems are the property within explicit limits. Missing because the code does not keep them: table layout, space around borders, indents of zero or in another unit, rows that must not be split, cells left out around a row (C53_fails_*), and numbers from 2^31."},
 {"property": "C54", "status": "partial", "theorems": ["Docx.Props.C54_read", "Docx.Props.C54_same_partial", "Docx.Props.C54_package", "Docx.Props.C54_fails_kind", "Docx.Props.C54_fails_link", "Docx.Props.C54_fails_side", "Docx.Props.C54_fails_again"], "note": "C54_read and C54_package: what is read from the numbering part is exactly the standing definition and numbering followed by what was added, levels and overrides included, with any formatting that survives. C54_same_partial says exactly when it is what was added. Missing because the code does not keep them: the kind, the links, a side of an indent left open (C54_fails_kind, _link, _side); and reading then writing defines the number 1 twice (C54_fails_again)."},
 {"property": "C55", "status": "partial", "theorems": ["Docx.Props.C55_read", "Docx.Props.C55_same_partial", "Docx.Props.C55_package", "Docx.Props.C55_fails_next", "Docx.Props.C55_fails_qFormat", "Docx.Props.C55_fails_priority", "Docx.Props.C55_fails_hidden", "Docx.Props.C55_fails_again", "Docx.Props.C55_package_toc"], "note": "C55_read and C55_package: what is read from the style part is exactly the defaults and the standing style followed by what was added, with any formatting that survives. C55_same_partial says exactly when it is what was added. Missing because the code does not keep them: next, q_format(false), ui_priority, semi_hidden, unhide_when_used, an open side of an indent (C55_fails_*); and reading then writing defines Normal twice (C55_fails_again). C55_package_toc: with an automatic table of contents the preset styles are added to these and nothing is dropped."},
 {"property": "C56", "status": "partial", "theorems": ["Docx.Props.C56_file_name_partial", "Docx.Props.C56_fails_name", "Docx.Props.C56_main", "Docx.Props.C56_document", "Docx.Props.C56_parts_found_partial", "Docx.Props.C56_headers", "Docx.Props.C56_sources"], "note": "C56_main, C56_document, C56_headers: the relationships read are exactly those in the file, with ids, places and modes. C56_parts_found_partial: the parts are found when no header or footer slot is set twice (see C18_fails); targets in another folder (custom items) are never looked up. C56_file_name_partial holds for part names without a dot; C56_fails_name shows that others get the relationship file of another part. C56_sources: for any archive that is read, body, styles, lists and settings are those of the parts the relationships name."},
 {"property": "C57", "status": "partial", "theorems": ["Docx.Props.C57_comments", "Docx.Props.C57_package", "Docx.Props.C57_same_partial", "Docx.Props.C57_author", "Docx.Props.C57_fails_author", "Docx.Props.C57_fails_tables"], "note": "C57_comments: what is read from the comments part is every comment with id, date, formatting and texts. C57_package: with the extended part, the comments of the body of any packed file, each as often as it has paragraphs (see C25_fails), each answer with the comment it answers. C57_same_partial says exactly when they are the same. Missing because the code does not do it: authors that are not escaped by the caller (C57_fails_author), tables in comments (C57_fails_tables, for every text)."},
 {"property": "C58", "status": "partial", "theorems": ["Docx.Props.C58_settings", "Docx.Props.C58_same_partial", "Docx.Props.C58_fails_zoom", "Docx.Props.C58_fails_tab", "Docx.Props.C58_fails_variable"], "note": "C58_settings: what is read from the settings part of any packed file whose texts need no escaping. C58_same_partial says exactly when it is the same. Missing because the code does not do it: zoom (C58_fails_zoom), tab stops that no f32 holds (C58_fails_tab), variables with an ampersand, which make the file unreadable (C58_fails_variable)."},
 {"property": "C59", "status": "partial", "theorems": ["Docx.Props.C59_parts", "Docx.Props.C59_same_partial"], "note": "C59_parts: every header and footer of any packed file is read back item by item, up to paragraph ids. C59_same_partial says exactly when texts are the same too. Missing: content controls and pictures in headers are covered by reads_header up to what the reader keeps, but not by the item-level statement; texts with line ends or entity references (C37_fails_*)."},
 {"property": "C60", "status": "partial", "theorems": ["Docx.Props.C60_properties", "Docx.Props.C60_same_partial", "Docx.Props.C60_fails_reference"], "note": "C60_properties: exactly the properties set, with the values last given, for any order of the hash map. C60_same_partial says exactly when all come back. Missing because the code does not do it: blank values are lost, names and values are not escaped (C60_fails_reference)."},
 {"property": "C61", "status": "partial", "theorems": ["Docx.Props.C61_read_file", "Docx.Props.C61_comments_partial"], "note": "C61_read_file: readDocx on the entries of any packed file made of kept things returns a file with the body (C37), page set-up (C52), headers and footers in their places (C59), custom properties (C60), styles (C55), numberings (C54) and settings (C58). C61_comments_partial: for any readable body without tables of contents, comments and their threads are found (C57) and put where they start directly in a paragraph. Missing: comments that start in tracked changes or links, tables of contents, sections. Pictures are the subject of C62."},
 {"property": "C62", "status": "partial", "theorems": ["Docx.Props.C62_pictures", "Docx.Props.C62_pictures_comments", "Docx.Props.C62_changes", "Docx.Props.C62_unconverted", "Docx.Props.C62_listed"], "note": "C62_pictures and C62_pictures_comments: every picture of the body of any packed file (any readable body without tables of contents) comes back in its place with its size, distances, kind, and for floating ones cell layout, height, relative-from and non-negative offsets; under its id the file read lists exactly the bytes given for it (C62_listed), unless a preview was asked for and they cannot be converted, when the picture is dropped from the list (C62_unconverted). C62_changes proves what is not kept: rotation, alignment, simplePos (comes back as allowOverlap), negative offsets, one relative-from value, settings of inline pictures. Missing: pictures in headers and footers, pictures whose bytes begin with a byte order mark (the reader strips it)."},
 {"property": "C63", "status": "partial", "theorems": ["Docx.Props.C63_cut_property_runs_forever", "Docx.Props.C63_cut_numbering_runs_forever", "Docx.Props.C63_ends", "Docx.Props.C63_empty_rels_runs_forever", "Docx.Props.C63_cut_off_runs_forever", "Docx.Props.C63_other_root_runs_forever", "Docx.Props.C63_written"], "note": "C63_ends: for every archive meeting the conditions reading ends. C63_written: every written package (texts that are copied unescaped must be fit for XML) is read to an end. Missing because the code does not do it: archives that are cut off, with an empty relationship part or another root for styles are read for ever (C63_empty_rels_runs_forever, C63_cut_off_runs_forever, C63_other_root_runs_forever). C63_cut_property_runs_forever, C63_cut_numbering_runs_forever: custom properties and lists that are cut off within a tag are read for ever too."},
 {"property": "C64", "status": "partial", "theorems": ["Docx.Props.C64_no_panic", "Docx.Props.C64_panics", "Docx.Props.C64_written"], "note": "C64_no_panic: for every archive meeting the conditions reading does not panic; C64_written: every package written from strings that can be copied into XML meets them. Missing because the code does not do it: C64_panics."},
 {"property": "C65", "status": "partial", "theorems": ["Docx.Props.C65_javascript", "Docx.Props.C65_succeeds", "Docx.Props.C65_written", "Docx.Props.C65_errors"], "note": "C65_written: every package written from strings that can be copied into XML can be read. C65_succeeds: so can every archive meeting the conditions. C65_errors: errors without them. Numbers in the model have no bound, so that those written fit their Rust types is a hypothesis (NumbersFit). Missing because the code does not do it: strings that are not escaped (C45, C15) make packages that are not well-formed. C65_javascript: the same for content put together in JavaScript, in whatever state the id counters are."},
 {"property": "C66", "status": "partial", "theorems": ["Docx.Props.C66_steady_partial", "Docx.Props.C66_fails_text"], "note": "C66_steady_partial: for bodies of the items of C37 whose texts have nothing to escape. Missing because the code does not do it: texts with & or < (C66_fails_text)."},
 {"property": "C67", "status": "partial", "theorems": ["Docx.Props.C67_ids_partial", "Docx.Props.C67_types", "Docx.Props.C67_targets_partial", "Docx.Props.C67_overrides", "Docx.Props.C67_references_iff", "Docx.Props.C67_resolves_partial", "Docx.Props.C67_fails_numbering", "Docx.Props.C67_fails_link_id"], "note": "C67_types for all calls on all files read; C67_ids_partial and C67_targets_partial if pictures and links in the body have ids as this library makes them; C67_overrides, C67_references_iff, C67_resolves_partial for saving what was read. Missing because the code does not do it: C67_fails_numbering (for every file), C67_fails_link_id, and headers under other ids (C67_references_iff)."},
 {"property": "C68", "status": "partial", "theorems": ["Docx.Props.C68_as_read", "Docx.Props.C68_fails_pictures", "Docx.Props.C68_fails_links", "Docx.Props.C68_ids_partial"], "note": "C68_as_read: what a document that was read never holds. The property fails for every file: C68_fails_pictures, C68_fails_links. C68_ids_partial: the ids are distinct if those of pictures and links in the body are as this library makes them."},
 {"property": "C69", "status": "proved", "theorems": ["Docx.Props.C69_one_outcome", "Docx.Props.C69_any_steps", "Docx.Props.C69_never_ends_iff", "Docx.Props.C69_tidy", "Docx.Props.C69_written", "Docx.Props.C69_read_file", "Docx.Props.C69_panics"], "note": "C69_one_outcome, C69_any_steps, C69_never_ends_iff for all archives; C69_tidy, C69_written, C69_read_file and C69_panics restate C65, C61 and C64 with it."},
 {"property": "C70", "status": "partial", "theorems": ["Docx.Props.C70_main_found", "Docx.Props.C70_fails_parts", "Docx.Props.C70_fails_settings", "Docx.Props.C70_fails_links", "Docx.Props.C70_written_partial", "Docx.Props.C70_text", "Docx.Props.C70_one_outcome", "Docx.Props.C70_fails"], "note": "The property fails: C70_fails_parts, C70_fails_settings and C70_fails_links for all flat files with the usual names, C70_fails for a package this library writes. Proved in part: a written package put into a flat file is read without failing, with the same body, page set-up, styles and lists (C70_written_partial); a flat text is read as its parts (C70_text), with exactly one outcome (C70_one_outcome). Missing: the texts of written packages at text level (C33 needs that no part contains an end mark of its own), pictures. C70_main_found: the main document is found with or without slashes at the start of the names."},
 {"property": "C71", "status": "proved", "theorems": ["Docx.Props.C71_links", "Docx.Props.C71_links_comments", "Docx.Props.C71_listed"], "note": "C71_links and C71_links_comments for written files (bodies without and with comments), C71_listed for any archive. Links with one id and different addresses are excluded from the address clause (the writer keeps one address per id); links in headers and footers are not in the list at all."},
 {"property": "C72", "status": "partial", "theorems": ["Docx.Props.C72_saved_iff", "Docx.Props.C72_saved_partial", "Docx.Props.C72_fails", "Docx.Props.C72_fails_header"], "note": "C72_saved_iff: a file that was read is saved if and only if body, headers and footers have no text box, shape or drawing without a picture, and otherwise saving panics (what is in comments must be writable). C72_saved_partial: after any calls, if nothing unwritable is in it. C72_fails and C72_fails_header: files with a chart, a text box, an older shape are read and cannot be saved."},
 {"property": "C73", "status": "partial", "theorems": ["Docx.Props.C73_read_back", "Docx.Props.C73_sections", "Docx.Props.C73_references_iff", "Docx.Props.C73_fails_headers"], "note": "C73_read_back: what is read from any document part with sections. C73_sections: a whole file with sections, packed and read: content, order, page set-up, and the rest as in C61. C73_references_iff: after reading any archive and saving it, which references of inner sections have a relationship. C73_fails_headers: the header of an inner section is lost and its reference leads to a header of the last section; with a two-section archive as example. Missing, as the code violates it: headers and footers of inner sections survive. Tables of contents in sections are not covered."},
 {"property": "C74", "status": "partial", "theorems": ["Docx.Props.C74_read_back", "Docx.Props.C74_tables_partial", "Docx.Props.C74_never_a_table", "Docx.Props.C74_fails_alias", "Docx.Props.C74_fails_deleted"], "note": "C74_read_back: what is read from any document part with tables of contents. C74_tables_partial: a whole file with tables of contents, packed and read: what was before, the entries (text, level, link, page), what was behind, the instruction, the added styles, and the rest as in C61. C74_never_a_table, C74_fails_alias, C74_fails_deleted: what is lost. Missing, as the code violates it: the table comes back as a table of contents. Missing from the proof at package level: tables that are filled in while packing, and tables inside table cells."},
 {"property": "C75", "status": "partial", "theorems": ["Docx.Props.C75_valid", "Docx.Props.C75_determines_partial", "Docx.Props.C75_content_partial", "Docx.Props.C75_read_back", "Docx.Props.C75_fails_footnotes", "Docx.Props.C75_fails_escaped"], "note": "C75_valid: the text is valid JSON and holds the texts of the document. C75_determines_partial, C75_content_partial: equal JSON means equal content, up to footnote texts and to what the (unmodelled) JSON forms of formatting and other leaves do not say. C75_read_back: after packing and reading, the JSON shows the texts given. C75_fails_footnotes, C75_fails_escaped: what the code violates. Missing: the instances of formatting, pictures and field instructions, which are parameters."},
 {"property": "C76", "status": "partial", "theorems": ["Docx.Props.C76_unchanged_partial", "Docx.Props.C76_only_rels_partial", "Docx.Props.C76_comments", "Docx.Props.C76_answer", "Docx.Props.C76_fails_links", "Docx.Props.C76_fails_footnotes"], "note": "C76_unchanged_partial: without external links and without comments that have paragraphs, nothing changes. C76_only_rels_partial: with links, only document.xml.rels differs, entry for entry. C76_comments: with comments, the same comments and ranges are written. C76_answer: what comments_json answers. C76_fails_links, C76_fails_footnotes: for every file with an external link, or with a footnote, the written package is different. Missing: that paragraph ids in a file with comments come out the same."},
 {"property": "C77", "status": "partial", "theorems": ["Docx.Props.C77_content", "Docx.Props.C77_written", "Docx.Props.C77_comments_partial", "Docx.Props.C77_fails_reply", "Docx.Props.C77_fails_empty", "Docx.Props.C77_program", "Docx.Props.C77_program_written", "Docx.Props.C77_program_comments_partial"], "note": "C77_content and C77_written hold for every document. C77_comments_partial: comments arrive when no author or date is empty and none answers comment 0. C77_fails_reply, C77_fails_empty: otherwise the comments that are built are not those given. C77_program, C77_program_written, C77_program_comments_partial: the body of documents that also have headers, footers and a set-up, for any order of calls."},
 {"property": "C78", "status": "partial", "theorems": ["Docx.Props.C78_fonts_partial", "Docx.Props.C78_fails_theme", "Docx.Props.C78_run_partial", "Docx.Props.C78_fails_marks", "Docx.Props.C78_fails_strike", "Docx.Props.C78_fails_baseline", "Docx.Props.C78_fails_border", "Docx.Props.C78_fails_empty", "Docx.Props.C78_fails_offset", "Docx.Props.C78_offset_partial", "Docx.Props.C78_paragraph_partial", "Docx.Props.C78_fails_start", "Docx.Props.C78_fails_leader", "Docx.Props.C78_fails_off", "Docx.Props.C78_fails_size", "Docx.Props.C78_fails_hint", "Docx.Props.C78_table_partial", "Docx.Props.C78_fails_width", "Docx.Props.C78_fails_right", "Docx.Props.C78_row_partial", "Docx.Props.C78_fails_height", "Docx.Props.C78_cell_partial", "Docx.Props.C78_fails_inside", "Docx.Props.C78_fails_line"], "note": "C78_run_partial, C78_fonts_partial, C78_offset_partial, C78_paragraph_partial, C78_table_partial, C78_row_partial, C78_cell_partial: everything that is not excluded arrives. C78_fails_marks, C78_fails_strike, C78_fails_baseline, C78_fails_border, C78_fails_empty, C78_fails_theme, C78_fails_offset, C78_fails_start, C78_fails_leader, C78_fails_off, C78_fails_size, C78_fails_hint, C78_fails_width, C78_fails_right, C78_fails_height, C78_fails_inside, C78_fails_line: what is excluded does not, for every sequence of calls around it."},
 {"property": "C79", "status": "proved", "theorems": ["Docx.Props.C79_program_pictures", "Docx.Props.C79_program_links", "Docx.Props.C79_calls", "Docx.Props.C79_distinct", "Docx.Props.C79_links", "Docx.Props.C79_pictures", "Docx.Props.C79_unique"], "note": "C79_calls: refinement to the calls of the Rust library. C79_distinct: ids of links and of pictures, those in comments as well. C79_links: in order, each to its address. C79_pictures: each to its bytes. C79_unique: ids of the relationships. The number of ids is bounded by the counter. C79_program_links, C79_program_pictures: the same for documents that also have headers, footers and a set-up."},
 {"property": "C80", "status": "partial", "theorems": ["Docx.Props.C80_program_partial", "Docx.Props.C80_related_partial", "Docx.Props.C80_fails_after", "Docx.Props.C80_fails_comment", "Docx.Props.C80_fails_header", "Docx.Props.C80_fails_toc"], "note": "C80_related_partial: for content that is not changed after it was added, paragraphs of the document and of tables at any depth. C80_fails_after, C80_fails_comment, C80_fails_header: numbered paragraphs that are changed later, in comments, and in headers are not noticed. C80_fails_toc: nor are those before or behind a table of contents. C80_program_partial: the same for documents that also have headers, footers and a set-up."},
 {"property": "C81", "status": "proved", "theorems": ["Docx.Props.C81_found", "Docx.Props.C81_targets"], "note": "C81_found: both sides, all three kinds, content as given. C81_targets: every internal target is an entry of the package."},
 {"property": "C82", "status": "partial", "theorems": ["Docx.Props.C82_settings", "Docx.Props.C82_page", "Docx.Props.C82_kinds", "Docx.Props.C82_defaults_partial", "Docx.Props.C82_properties", "Docx.Props.C82_extensions_partial", "Docx.Props.C82_fails_extensions", "Docx.Props.C82_builds", "Docx.Props.C82_items", "Docx.Props.C82_lists_partial", "Docx.Props.C82_fails_level", "Docx.Props.C82_numberings_partial", "Docx.Props.C82_fails_override", "Docx.Props.C82_fails_size"], "note": "C82_settings, C82_page, C82_kinds, C82_properties, C82_items, C82_builds: without exception. C82_defaults_partial, C82_lists_partial, C82_numberings_partial, C82_extensions_partial: with what the code does not hand over left out. C82_fails_level, C82_fails_override, C82_fails_size, C82_fails_extensions: what is lost."},
 {"property": "C83", "status": "partial", "theorems": ["Docx.Props.C83_format_partial", "Docx.Props.C83_fails_leader", "Docx.Props.C83_style_partial", "Docx.Props.C83_fails_style", "Docx.Props.C83_fails_marks", "Docx.Props.C83_fails_base", "Docx.Props.C83_fails_off", "Docx.Props.C83_fails_disable", "Docx.Props.C83_fails_start", "Docx.Props.C83_fails_width", "Docx.Props.C83_styles", "Docx.Props.C83_read_partial"], "note": "C83_style_partial: all calls but those the code loses. C83_fails_style, C83_fails_marks, C83_fails_base, C83_fails_off, C83_fails_disable, C83_fails_start, C83_fails_width: what is lost. C83_styles: all styles, in order, without exception. C83_format_partial: the class ParagraphProperty, also used for tables of contents (C83_fails_leader: tabs led by underscores). C83_read_partial: the styles are found when the file is read, with the formatting of their own; missing there: table formatting and texts that need escaping (C55)."},
 {"property": "C84", "status": "partial", "theorems": ["Docx.Props.C84_entry_partial", "Docx.Props.C84_toc_partial", "Docx.Props.C84_contents", "Docx.Props.C84_seen", "Docx.Props.C84_made", "Docx.Props.C84_fails_level", "Docx.Props.C84_fails_empty"], "note": "C84_toc_partial, C84_entry_partial: all calls but those the code loses (C84_fails_level, C84_fails_empty). C84_contents, C84_seen: what stands before and behind, without exception. C84_made: the condition C79 and C80 put on tables of contents holds."},
 {"property": "C85", "status": "partial", "theorems": ["Docx.Props.C85_settings_partial", "Docx.Props.C85_fails_variable", "Docx.Props.C85_properties_partial", "Docx.Props.C85_lists_partial", "Docx.Props.C85_page_partial", "Docx.Props.C85_fails_orient"], "note": "C85_settings_partial, C85_properties_partial, C85_lists_partial: settings, custom properties and lists of any program, from the call to the reader. Missing: texts that need escaping (C85_fails_variable: then the settings cannot be read), blank values of properties, tab stops of more than 2^24, and what is lost before the file is written (C82). C85_page_partial: page size, margins, grid and title page are read as given last, stated of the written element (C52); missing: the orientation (C85_fails_orient) and numbers that do not fit."}
]}
