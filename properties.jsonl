{"id": "C01", "title": "Escaped text decodes to the original", "statement": "For any text handed to the escaping layer, an XML parser that decodes character references and predefined entities reads back exactly that text with carriage returns removed.", "quantifier": "every string (any length, any Unicode characters)", "why_tests_cant": "The space of strings is infinite; interactions such as '&' followed by text that looks like an entity only break for specific adjacent characters.", "anchors": ["docx-core/src/escape/mod.rs: escape"]}
{"id": "C02", "title": "Escaped text carries no markup", "statement": "The escaped form of any text contains no '<', '>', '\"', '\\'', line feed or carriage return, and every '&' in it begins one of the six references the escaper emits, so it can be put inside an element or a quoted attribute without changing the document structure.", "quantifier": "every string", "why_tests_cant": "A test can only show chosen strings are safe; safety is a statement about all positions of all strings.", "anchors": ["docx-core/src/escape/mod.rs: escape"]}
{"id": "C03", "title": "The no-allocation escaping path is equivalent", "statement": "Escaping an owned string through the fast path (return unchanged if no special byte is present) yields the same result as always escaping.", "quantifier": "every string", "why_tests_cant": "The fast path is taken only for strings outside the special set; agreement must hold for all of them.", "anchors": ["docx-core/src/escape/mod.rs: escape_owned"]}
{"id": "C04", "title": "Entity replacement inverts escaping on line-break-free text", "statement": "replace_escaped leaves text with no '&' unchanged, never lengthens its input, and applied to the escaped form of a text with no CR/LF gives the text back. (For text with a line feed it does not: the '&#xA;' reference is left undecoded.)", "quantifier": "every string", "why_tests_cant": "Left-to-right scanning with overlapping candidates (e.g. '&amp;lt;') has unboundedly many interleavings.", "anchors": ["docx-core/src/escape/mod.rs: replace_escaped"]}
{"id": "C05", "title": "The XML event writer balances tags and rejects unmatched ends", "statement": "For any sequence of start/text/end events the writer either reports an unbalanced end tag, exactly when some prefix closes more elements than it opened, or writes text whose tags nest properly with each end tag naming the element it closes; elements with no content are written self-closing.", "quantifier": "every sequence of writer events, of any length and nesting depth", "why_tests_cant": "Nesting depth and event order are unbounded; the writer keeps a shared name buffer whose truncation only misbehaves on particular nestings.", "anchors": ["docx-core/src/xml/writer.rs: EventWriter::write, flush_pending, EndElement"]}
{"id": "C06", "title": "Writer output parses back to the same element tree", "statement": "Writing any element tree whose names are XML names and whose text and attribute values are in escaped form, and then parsing the bytes, gives the same tree with decoded text and attribute values.", "quantifier": "every element tree", "why_tests_cant": "Trees are unbounded in depth and width, and the parser must resynchronise after every possible child.", "anchors": ["docx-core/src/xml/writer.rs: EventWriter", "docx-core/src/reader/xml_parser.rs: EventReader"]}
{"id": "C07", "title": "User text survives into the text node", "statement": "The string passed to add_text on a run is, after writing the run and parsing the XML, the content of one w:t element, with line feeds and carriage returns removed and nothing else changed.", "quantifier": "every string", "why_tests_cant": "All strings; escaping, newline stripping and parsing interact per character.", "anchors": ["docx-core/src/documents/elements/run.rs: Run::add_text", "docx-core/src/documents/elements/text.rs: Text"]}
{"id": "C08", "title": "User strings cannot inject markup through attributes", "statement": "Whatever string a user supplies for an attribute-valued field (revision author, hyperlink address, style ids, comment author, bookmark name, colour ...), the written element has exactly the attributes the API call sets, with that value. Holds for the escaped fields; the comment author and other raw fields violate it.", "quantifier": "every string value of each field", "why_tests_cant": "An adversarial value can be any string.", "anchors": ["docx-core/src/documents/elements/insert.rs: Insert::author", "docx-core/src/documents/elements/hyperlink.rs: Hyperlink::new", "docx-core/src/documents/elements/comment.rs: Comment::author", "docx-core/src/xml/writer.rs: attr"]}
{"id": "C09", "title": "Paragraph ids are unique and non-empty in the prepared document", "statement": "After the build preparation step, the ids of all paragraphs in the document body, headers, footers and comments that the preparation visits are non-empty and pairwise distinct.", "quantifier": "every document tree, with any ids (duplicated, empty, user-chosen) and any nesting of tables, content controls and revisions", "why_tests_cant": "Depends on the joint content of the whole tree and the global id counter; collisions between generated and user-chosen ids need specific combinations.", "anchors": ["docx-core/src/documents/mod.rs: Docx::refresh_duplicate_para_ids, ensure_unique_paragraph_id, next_unique_paragraph_id"]}
{"id": "C10", "title": "Preparation preserves ids it need not change", "statement": "A non-empty paragraph id that occurs once is kept, the first occurrence of a repeated non-empty id keeps it, and only later occurrences and empty ids get fresh values; nothing but ids changes; preparing again changes nothing.", "quantifier": "every document tree", "why_tests_cant": "Needs all trees and all duplicate patterns, and equality of everything outside the ids.", "anchors": ["docx-core/src/documents/mod.rs: Docx::refresh_duplicate_para_ids, ensure_unique_paragraph_id"]}
{"id": "C11", "title": "Generated ids are distinct", "statement": "Successive calls of an id generator (bookmark, footnote, hyperlink, picture, TOC key, paragraph, revision) on one thread return pairwise distinct ids until the counter's range is exhausted. With several threads sharing a counter two calls can return the same id.", "quantifier": "every number of calls; every interleaving of the threads' loads and stores", "why_tests_cant": "Interleavings are schedules: tests see a few, and the racy load-then-store needs a particular one.", "anchors": ["docx-core/src/documents/bookmark_id.rs", "docx-core/src/documents/footnote_id.rs", "docx-core/src/documents/hyperlink_id.rs", "docx-core/src/documents/pic_id.rs", "docx-core/src/documents/history_id.rs", "docx-core/src/documents/paragraph_id.rs", "docx-core/src/documents/toc_key.rs"]}
{"id": "C12", "title": "Paragraph ids stay unique in the written document.xml", "statement": "The paragraph ids written to document.xml are pairwise distinct. (Fails: ids generated while writing section breaks, empty cells and table-of-contents entries restart from the same counter and may repeat ids of body paragraphs.)", "quantifier": "every document", "why_tests_cant": "Needs ids assigned at build time to be compared with all ids already in the tree.", "anchors": ["docx-core/src/documents/elements/section.rs: Section::build_to", "docx-core/src/documents/mod.rs: Docx::reset", "docx-core/src/documents/elements/table_cell.rs: TableCell::build_to"]}
{"id": "C13", "title": "Every picture resolves to its own bytes", "statement": "After packaging, each picture with bytes carries a relationship id, that id has exactly one relationship in its part, and the media file the relationship targets contains precisely the picture's bytes.", "quantifier": "every sequence of pictures over document, headers and footers, with arbitrary ids, bytes and fingerprint collisions", "why_tests_cant": "Requires hash-collision and id-collision patterns that tests do not reach.", "anchors": ["docx-core/src/documents/image_collector.rs: MediaRegistry::register, PackagePartCollector::visit_picture"]}
{"id": "C14", "title": "Media files are stored once and named uniquely", "statement": "No two media entries have the same name, no two have the same bytes, and every stored byte string comes from some picture of the document.", "quantifier": "every sequence of pictures", "why_tests_cant": "Deduplication correctness depends on all pairs of pictures and on the suffix search.", "anchors": ["docx-core/src/documents/image_collector.rs: MediaRegistry::register, unique_media_id"]}
{"id": "C15", "title": "Image relationship ids are unique in each part", "statement": "Within the document part, and within each header and footer part, no two image relationships share an id.", "quantifier": "every sequence of pictures in a part", "why_tests_cant": "User-chosen ids may imitate the generated suffix form; needs all combinations.", "anchors": ["docx-core/src/documents/image_collector.rs: PackagePartCollector::unique_relationship_id"]}
{"id": "C16", "title": "Streaming and buffered output are the same package", "statement": "pack() on a document writes the same sequence of archive entries, with the same names and contents, as build() followed by pack().", "quantifier": "every document (any number of headers, footers, images, custom items, web extensions)", "why_tests_cant": "The two code paths index parts differently (sparse relationships versus padded vectors); agreement must hold for every sparsity pattern.", "anchors": ["docx-core/src/zipper/mod.rs: zip, zip_docx", "docx-core/src/documents/mod.rs: Docx::build, Docx::pack, build_sparse_relationships"]}
{"id": "C17", "title": "Archive entry names are unique", "statement": "No two entries of the written package have the same name.", "quantifier": "every document with unique media names", "why_tests_cant": "Ranges over arbitrarily many headers, footers, media, extensions and custom items.", "anchors": ["docx-core/src/zipper/mod.rs: zip, zip_docx"]}
{"id": "C18", "title": "Every internal relationship target exists", "statement": "Every internal target in word/_rels/document.xml.rels is an entry of the package. Holds for histories in which each header/footer slot is set at most once; setting a slot twice leaves a dangling relationship.", "quantifier": "every sequence of builder calls", "why_tests_cant": "Histories are unbounded and the counters only drift for specific repetitions.", "anchors": ["docx-core/src/documents/document_rels.rs: DocumentRels::build_to", "docx-core/src/documents/mod.rs: Docx::header, Docx::add_section", "docx-core/src/zipper/mod.rs: zip_docx"]}
{"id": "C19", "title": "A header or footer reference resolves to the content it was given", "statement": "The relationship id in a section's header/footer reference resolves, via document.xml.rels, to the part holding exactly the header/footer passed for that slot. Holds when the slots are filled in the order default, first, even, with the main section before added sections; other call orders swap parts.", "quantifier": "every sequence of header/footer/section calls", "why_tests_cant": "Numbering by call order versus numbering by slot order agree only for certain histories.", "anchors": ["docx-core/src/documents/mod.rs: Docx::header, first_header, even_header, add_section", "docx-core/src/documents/document.rs: Document::headers", "docx-core/src/documents/elements/section_property.rs: SectionProperty::headers"]}
{"id": "C20", "title": "Relationship ids in document.xml.rels are unique", "statement": "No two relationships of the main document share an id. Fails when a custom XML item is added to a document with footnotes.", "quantifier": "every document-relationship state", "why_tests_cant": "Depends on counts of unbounded collections.", "anchors": ["docx-core/src/documents/document_rels.rs: DocumentRels::build_to"]}
{"id": "C21", "title": "Content-type overrides name existing parts", "statement": "Every Override part name in [Content_Types].xml is an entry of the package and no part name is overridden twice.", "quantifier": "every sequence of builder calls", "why_tests_cant": "Counters for headers, footers, web extensions and custom items advance independently.", "anchors": ["docx-core/src/documents/content_types.rs: ContentTypes::add_header, add_footer, add_web_extensions, add_custom_xml", "docx-core/src/zipper/mod.rs: zip"]}
{"id": "C22", "title": "Custom XML items have matching properties, relationships and content types", "statement": "The n-th custom item added is written as customXml/item{n}.xml with the id given, with a relationship part pointing at its own properties part, and with a content-type override for that properties part.", "quantifier": "every sequence of add_custom_item and web_extension calls", "why_tests_cant": "The counters interact only for particular mixes of calls.", "anchors": ["docx-core/src/documents/mod.rs: Docx::add_custom_item", "docx-core/src/documents/content_types.rs: ContentTypes::add_custom_xml", "docx-core/src/documents/custom_item_rels.rs: CustomItemRels::add_item", "docx-core/src/zipper/mod.rs: zip"]}
{"id": "C23", "title": "Numbering is related to the document when it is used", "statement": "If a paragraph anywhere in the document, its headers or its footers uses numbering, document.xml.rels relates the numbering part. Holds for content added directly and through content controls and cells; fails for rows added to an existing table, content controls in cells, and a document replaced wholesale.", "quantifier": "every content tree and call history", "why_tests_cant": "Flags are propagated through each constructor; a missed link shows only for a specific path of nesting.", "anchors": ["docx-core/src/documents/document.rs: Document::add_paragraph", "docx-core/src/documents/elements/table.rs: Table::add_row", "docx-core/src/documents/elements/table_cell.rs: TableCell::add_structured_data_tag", "docx-core/src/documents/mod.rs: Docx::document"]}
{"id": "C24", "title": "Every anchored comment is written", "statement": "For every comment range start in a body paragraph or table, the comments part contains that comment. Fails for comments anchored inside sections and inside content controls at document level.", "quantifier": "every document tree", "why_tests_cant": "Collection walks the tree by hand-written cases; a missed case is a specific shape.", "anchors": ["docx-core/src/documents/mod.rs: Docx::update_dependencies, push_comment_and_comment_extended"]}
{"id": "C25", "title": "Comment replies link to their parents", "statement": "Each comment-extended record names the paragraph id of its comment's last paragraph and, for a reply, the id of its parent's last paragraph, whenever the parent is in the document.", "quantifier": "every set of comments and replies", "why_tests_cant": "Parent lookup passes through a map built from the whole document.", "anchors": ["docx-core/src/documents/mod.rs: insert_comment_to_map, push_comment_and_comment_extended"]}
{"id": "C26", "title": "Footnotes are all written in document order", "statement": "The footnotes part contains exactly the footnotes referenced from the document, in document order.", "quantifier": "every document tree", "why_tests_cant": "Needs all nestings of runs in hyperlinks, revisions, tables and content controls.", "anchors": ["docx-core/src/documents/image_collector.rs: collect_document_part", "docx-core/src/documents/document_tree.rs"]}
{"id": "C27", "title": "Automatic table of contents lists exactly the eligible headings", "statement": "Expanding an automatic table of contents produces one entry per top-level paragraph whose heading level is in the requested range or whose style is one of the listed custom styles, in document order, with the paragraph's text and level, and leaves all other content and its order unchanged.", "quantifier": "every list of document children, style table and TOC configuration", "why_tests_cant": "Range and style conditions over arbitrary documents.", "anchors": ["docx-core/src/documents/mod.rs: update_document_by_toc, Docx::expand_auto_tocs"]}
{"id": "C28", "title": "Table-of-contents entries point at real bookmarks", "statement": "Each generated entry's key is the name of a bookmark wrapped around exactly its heading, and keys are distinct.", "quantifier": "every document and TOC", "why_tests_cant": "Keys come from a global counter shared by all documents.", "anchors": ["docx-core/src/documents/mod.rs: update_document_by_toc", "docx-core/src/documents/elements/paragraph.rs: Paragraph::wrap_by_bookmark"]}
{"id": "C29", "title": "Complex fields are balanced in a written table of contents", "statement": "The field characters written for a table of contents form balanced begin/separate/end groups. Fails when the first element after the TOC is a table.", "quantifier": "every table of contents", "why_tests_cant": "Depends on unbounded item lists and before/after contents.", "anchors": ["docx-core/src/documents/elements/table_of_contents.rs: TableOfContents::build_to", "docx-core/src/documents/elements/table_of_contents_item.rs"]}
{"id": "C30", "title": "TOC instructions survive write and read", "statement": "The instruction text written for a TOC field parses back to the same switches. Holds for space-free arguments; a trailing \\f switch without argument is lost.", "quantifier": "every combination of the sixteen switches and argument values", "why_tests_cant": "2^16 switch subsets times infinitely many argument values.", "anchors": ["docx-core/src/documents/elements/instr_toc.rs: InstrToC::build_to, InstrToC::from_str"]}
{"id": "C31", "title": "Enumerated tokens survive write and read", "statement": "For each enumerated attribute (border type, alignment, break type, width type, ...) parsing the token written for a value gives the value, and distinct values have distinct tokens. Fails for one vertical anchor value and one character-spacing value.", "quantifier": "every value of every enumeration", "why_tests_cant": "Finite but spread over ~30 hand-written pairs of tables; unit tests cover a handful.", "anchors": ["docx-core/src/types/*.rs: Display, FromStr"]}
{"id": "C32", "title": "Custom XML survives parse and print", "statement": "Parsing the printed form of any XML document value gives the value back, and parsing rejects mismatched or missing end tags.", "quantifier": "every XML tree", "why_tests_cant": "Unbounded trees; recursion over an event stack.", "anchors": ["docx-core/src/xml_json/mod.rs: parse, XmlData::format, XmlDocument::from_str"]}
{"id": "C33", "title": "Package parts are extracted from flat OPC input", "statement": "Reading a flat-OPC XML package yields each pkg:part's name, content type and content, in order, whatever stands between the parts. (Fails for the doubled-quote form of the attributes, which loses the first character of the value, or panics; and for a document whose text holds such an attribute.)", "quantifier": "every flat-OPC text", "why_tests_cant": "Offsets are computed from literals and positions over arbitrary text.", "anchors": ["docx-core/src/reader/read_xml.rs: extract_xml_package_parts"]}
{"id": "C34", "title": "Content types written are the content types read", "statement": "Reading back a written [Content_Types].xml gives the same part-name to content-type map. (Fails: attributes are read positionally and the two are swapped.)", "quantifier": "every content-type table", "why_tests_cant": "Map equality over all tables.", "anchors": ["docx-core/src/documents/content_types.rs: ContentTypes::build_to, FromXML"]}
{"id": "C35", "title": "Skipping an unknown element consumes exactly that element", "statement": "When the reader skips an element it does not know, it consumes the events up to and including the matching end tag and nothing more, however deeply elements of the same name nest.", "quantifier": "every event stream that starts inside a balanced element", "why_tests_cant": "Nesting depth is unbounded.", "anchors": ["docx-core/src/reader/ignore.rs: ignore_element"]}
{"id": "C36", "title": "Run formatting survives write and read", "statement": "Reading the written form of a run's formatting gives the same formatting, for every combination of the supported properties.", "quantifier": "every run property value", "why_tests_cant": "Combinatorial: 25 optional fields with unbounded values.", "anchors": ["docx-core/src/documents/elements/run_property.rs: RunProperty::build_to", "docx-core/src/reader/run_property.rs"]}
{"id": "C37", "title": "Paragraph text content survives write and read", "statement": "Reading a written body of paragraphs, runs and tables gives back the same paragraphs, runs, texts and table structure in the same order.", "quantifier": "every document body of the supported elements", "why_tests_cant": "Unbounded trees.", "anchors": ["docx-core/src/documents/document.rs: Document::build_to", "docx-core/src/reader/document.rs", "docx-core/src/reader/paragraph.rs", "docx-core/src/reader/run.rs", "docx-core/src/reader/table.rs"]}
{"id": "C38", "title": "Paragraph raw_text is the concatenation of its visible runs", "statement": "raw_text of a paragraph is the concatenation, in order, of the text of its plain and inserted runs, with tabs and breaks as tab and newline characters, and nothing from deleted content.", "quantifier": "every paragraph", "why_tests_cant": "Unbounded child lists and nestings.", "anchors": ["docx-core/src/documents/elements/paragraph.rs: Paragraph::raw_text"]}
{"id": "C39", "title": "Every table cell written contains a paragraph", "statement": "Each written table cell has at least one block element and a cell made only of one nested table is followed by a paragraph; a cell ends in a paragraph (required by consumers) whenever it is empty, holds one table, or its last child is a paragraph. (A cell with several children ending in a table does not.)", "quantifier": "every table cell content", "why_tests_cant": "Unbounded child lists.", "anchors": ["docx-core/src/documents/elements/table_cell.rs: TableCell::build_to"]}
{"id": "C40", "title": "Run and paragraph property setters keep the documented exclusions and bounds", "statement": "After any sequence of formatting calls, strike and double strike are never both on, the complex-script size equals the size, complex-script bold equals bold, and the outline level is below ten; no sequence panics.", "quantifier": "every sequence of setter calls and argument values", "why_tests_cant": "Histories are unbounded.", "anchors": ["docx-core/src/documents/elements/run_property.rs: RunProperty::strike, dstrike, size, bold", "docx-core/src/documents/elements/paragraph_property.rs: outline_lvl", "docx-core/src/documents/elements/outline_lvl.rs: OutlineLvl::new"]}
{"id": "C41", "title": "Pixel/EMU conversion round-trips within range", "statement": "Converting a pixel length to EMU and back gives the length for all lengths up to the documented 32-bit bound, beyond which the multiplication overflows.", "quantifier": "every 32-bit length", "why_tests_cant": "2^32 values; the boundary is one of them.", "anchors": ["docx-core/src/types/emu.rs: from_px, to_px"]}
{"id": "C42", "title": "Header/footer relationship files line up with their parts", "statement": "word/_rels/header{n}.xml.rels is written exactly when header n embeds images, and lists exactly that header's images.", "quantifier": "every list of headers and sparse set of headers with images", "why_tests_cant": "Sparse indexes versus padded vectors; all sparsity patterns.", "anchors": ["docx-core/src/documents/mod.rs: collect_header_images, build_sparse_relationships", "docx-core/src/zipper/mod.rs: zip, zip_docx"]}
{"id": "C43", "title": "Image kind detection", "statement": "A media file is treated as EMF exactly when its path ends in .emf (any case) or it has at least 44 bytes with the EMF record type and signature at their offsets; no input panics.", "quantifier": "every path and byte string", "why_tests_cant": "Slicing at fixed offsets must be guarded for all lengths.", "anchors": ["docx-core/src/documents/mod.rs: is_emf"]}
{"id": "C44", "title": "Heading levels are parsed from style names", "statement": "A style is a heading exactly when its name is a heading name, and its level is the number in the name.", "quantifier": "every style name", "why_tests_cant": "All strings.", "anchors": ["docx-core/src/documents/elements/name.rs: Name::is_heading, get_heading_number", "docx-core/src/documents/styles.rs: create_heading_style_map"]}
{"id": "C45", "title": "Every written part is one well-formed XML element", "statement": "word/document.xml, every header, footer, the comments and the footnotes part are an XML declaration followed by exactly one properly nested element with the part's own root name, whatever the content and however deeply nested; writing panics exactly when the content to be written in that part holds a text box, a shape, an empty drawing or a HYPERLINK instruction, and the XML writer itself never reports an error.", "quantifier": "every document, header, footer, comment list and footnote list and every state of the id generators", "why_tests_cant": "Nesting is unbounded and every builder must balance its own tags on every branch.", "anchors": ["docx-core/src/documents/document.rs: Document::build_to", "docx-core/src/documents/header.rs: Header::build_to", "docx-core/src/documents/elements/*.rs: build_to"]}
{"id": "C46", "title": "Tracked change ids are distinct in a part", "statement": "The ids of the tracked insertions, deletions and moves in a written part are consecutive values of the revision id generator in document order, hence pairwise distinct; likewise the ids of tracked property changes. Insertions and property changes are numbered separately and can share an id.", "quantifier": "every document, header, footer, comment list and footnote list and every generator state", "why_tests_cant": "Ids are drawn by builders spread over the whole tree in writing order; content is unbounded.", "anchors": ["docx-core/src/documents/history_id.rs", "docx-core/src/documents/elements/insert.rs: build_to", "docx-core/src/documents/elements/delete.rs: build_to", "docx-core/src/documents/elements/paragraph_property_change.rs: build_to"]}
{"id": "C47", "title": "Writing keeps the document as it was built", "statement": "The main document part that is written is the text of the document as the calls built it: preparing a package for writing changes nothing in it but paragraph ids, picture ids and picture bytes, and, for an automatic table of contents, its entries and the bookmarks around headings.", "quantifier": "every document, environment and generator state", "why_tests_cant": "Preparation rewrites the whole tree several times; content is unbounded and nested.", "anchors": ["docx-core/src/documents/mod.rs: Docx::prepare_for_build, prepare_package, collect_images, refresh_duplicate_para_ids", "docx-core/src/documents/mod.rs: Docx::pack"]}
{"id": "C48", "title": "External links resolve", "statement": "The relationship id of every external hyperlink in the text of the document resolves, through document.xml.rels, to exactly one relationship, which is an external hyperlink with the address given. Holds for links in paragraphs and tables of the body; links in sections, insertions, content controls outside tables, headers and footnotes get no relationship.", "quantifier": "every document built by the API and every order in which the map of links is enumerated", "why_tests_cant": "The ids come from a hash map filled while walking unbounded nested content.", "anchors": ["docx-core/src/documents/mod.rs: Docx::update_dependencies", "docx-core/src/documents/document_rels.rs: DocumentRels::build_to", "docx-core/src/documents/elements/hyperlink.rs: Hyperlink::new"]}
{"id": "C49", "title": "Every part of a fixed kind has its content type", "statement": "Every XML part the package always has, every header and footer part, and the task pane parts have, in [Content_Types].xml, the content type of their kind.", "quantifier": "every sequence of builder calls", "why_tests_cant": "The table is filled call by call and keyed by numbers the calls count separately.", "anchors": ["docx-core/src/documents/content_types.rs: ContentTypes", "docx-core/src/documents/mod.rs: Docx::header, footer, add_section, taskpanes"]}
{"id": "C50", "title": "A document without unsupported content is always written", "statement": "Whatever sequence of calls built it, a document that has no text box, shape, empty drawing or HYPERLINK instruction anywhere is written without error or panic, by pack and by build followed by pack; if the body has such content, writing panics.", "quantifier": "every sequence of builder calls, environment and generator state", "why_tests_cant": "The builders that panic sit deep in the tree; the absence of any other panic is a statement about all trees.", "anchors": ["docx-core/src/documents/mod.rs: Docx::pack, Docx::build", "docx-core/src/zipper/mod.rs: zip_docx, zip", "docx-core/src/documents/elements/run.rs: build_to"]}
{"id": "C51", "title": "Paragraph formatting survives write and read", "statement": "Reading the written form of a paragraph's formatting gives the same formatting, for every combination of the supported properties and any depth of recorded formatting changes.", "quantifier": "every paragraph property value, including nested recorded changes", "why_tests_cant": "Combinatorial: more than twenty optional parts with unbounded values, and recorded changes nest.", "anchors": ["docx-core/src/documents/elements/paragraph_property.rs: ParagraphProperty::build_to", "docx-core/src/reader/paragraph_property.rs", "docx-core/src/reader/paragraph_property_change.rs"]}
{"id": "C52", "title": "Page set-up survives write and read", "statement": "Reading the written form of a section's page set-up gives the same page size, margins, grid, columns, references to headers and footers and page numbering.", "quantifier": "every section property value", "why_tests_cant": "Combinatorial: many optional parts with unbounded values.", "anchors": ["docx-core/src/documents/elements/section_property.rs: SectionProperty::build_to", "docx-core/src/reader/section_property.rs"]}
{"id": "C53", "title": "Table, row and cell formatting survives write and read", "statement": "Reading the written form of the formatting of a table, of a row or of a cell gives back the same widths, alignment, borders, margins, spans, merges, shading, heights, position and tracked changes.", "quantifier": "for every combination of table, row and cell formatting", "why_tests_cant": "The fields combine freely and the numbers and strings are unbounded; a test fixes a few of each.", "anchors": ["docx-core/src/documents/elements/table_property.rs: TableProperty", "docx-core/src/documents/elements/table_row_property.rs: TableRowProperty", "docx-core/src/documents/elements/table_cell_property.rs: TableCellProperty", "docx-core/src/reader/table_property.rs", "docx-core/src/reader/table_row.rs", "docx-core/src/reader/table_cell_property.rs"]}
{"id": "C54", "title": "Numbering definitions survive write and read", "statement": "Reading the numbering part of a written document gives back every numbering definition and every numbering that was added, in order, with all their levels and overrides, and each number is defined once.", "quantifier": "for every list of definitions and numberings with any number of levels and overrides", "why_tests_cant": "Levels, overrides and the paragraph and run formatting inside them combine freely and there is no limit to their number.", "anchors": ["docx-core/src/documents/numberings.rs: Numberings", "docx-core/src/documents/elements/abstract_numbering.rs", "docx-core/src/documents/elements/numbering.rs", "docx-core/src/documents/elements/level.rs", "docx-core/src/documents/elements/level_override.rs", "docx-core/src/reader/numberings.rs", "docx-core/src/reader/level.rs", "docx-core/src/reader/level_override.rs"]}
{"id": "C55", "title": "Styles survive write and read", "statement": "Reading the style part of a written document gives back the default formatting and every style that was added, in order, with its id, name, kind, formatting and everything else that was set on it, and each style is defined once.", "quantifier": "for every set of defaults and every list of styles with any formatting", "why_tests_cant": "A style combines run, paragraph, table and cell formatting with a dozen settings and there is no limit to the number of styles.", "anchors": ["docx-core/src/documents/styles.rs: Styles", "docx-core/src/documents/elements/style.rs: Style", "docx-core/src/documents/elements/doc_defaults.rs", "docx-core/src/reader/styles.rs", "docx-core/src/reader/style.rs", "docx-core/src/reader/doc_defaults.rs"]}
{"id": "C56", "title": "Relationships that are written are found when the file is read", "statement": "Reading a file the library wrote finds the main document through the package relationships, finds every relationship of the main document and of every header and footer with its id, place and mode and no others, and finds every part they lead to inside the package. And whatever archive is read, its body, styles, lists and settings are those of the parts that the first relationships of the fitting types name.", "quantifier": "every archive, and for the first sentence every document built through the API and packed (any number of headers, footers, pictures, links, custom items), every relationship type asked for, every part name", "why_tests_cant": "The lookup goes through path arithmetic and ordered sets over all relationships together; tests look at one small package.", "anchors": ["docx-core/src/reader/rels.rs: read_rels_xml, find_rels_filename, Rels::from_xml", "docx-core/src/reader/document_rels.rs: read_document_rels, find_target_path", "docx-core/src/reader/header_or_footer_rels.rs: read_header_or_footer_rels", "docx-core/src/reader/read_zip.rs: read_zip", "docx-core/src/documents/rels.rs: Rels::find_target"]}
{"id": "C57", "title": "Comments and their threads survive writing and reading", "statement": "Reading a file the library wrote gives every comment of the body with its id, author, date, text and formatting, and every answer knows the comment it answers.", "quantifier": "every document with any number of comments, answers at any depth, answers to comments that are missing, any paragraphs and formatting, any paragraph ids given by the caller (also repeated ones)", "why_tests_cant": "Threads go through paragraph ids that are renumbered on writing and two tables that are joined on reading; tests try one thread.", "anchors": ["docx-core/src/reader/comments.rs: Comments::from_xml", "docx-core/src/reader/comment.rs: Comment::read", "docx-core/src/reader/comments_extended.rs: CommentsExtended::from_xml", "docx-core/src/reader/comment_extended.rs: CommentExtended::read", "docx-core/src/reader/read_docx.rs: read_docx (comment threads)"]}
{"id": "C58", "title": "Settings survive writing and reading", "statement": "Reading a file the library wrote gives the settings it was written with: default tab stop, document id, document variables, even and odd headers, line height in tables and character spacing.", "quantifier": "every file that can be packed, any settings, any number of document variables with any names and values", "why_tests_cant": "Settings mix optional elements, nested compatibility elements and values with braces added and removed; tests check one setting at a time and never read back what was written.", "anchors": ["docx-core/src/reader/settings.rs: Settings::from_xml", "docx-core/src/reader/attributes/mod.rs: read_val", "docx-core/src/documents/settings.rs: Settings::build_to", "docx-core/src/documents/elements/doc_id.rs", "docx-core/src/documents/elements/doc_var.rs", "docx-core/src/reader/read_docx.rs: read_docx"]}
{"id": "C59", "title": "Headers and footers survive writing and reading", "statement": "Reading any header or footer of a file the library wrote gives the paragraphs, runs, tracked changes, bookmarks, links and tables it was given, with formatting, in order.", "quantifier": "every file that can be packed, every header and footer of the document and of every section in it, any nesting of tables, any texts", "why_tests_cant": "Headers are renumbered, their paragraphs get new ids and their pictures new names on the way out; tests have one header with one paragraph.", "anchors": ["docx-core/src/reader/header.rs: Header::from_xml", "docx-core/src/reader/footer.rs: Footer::from_xml", "docx-core/src/documents/header.rs: Header::build_to", "docx-core/src/documents/footer.rs: Footer::build_to", "docx-core/src/zipper/mod.rs: zip"]}
{"id": "C60", "title": "Custom properties survive writing and reading", "statement": "Reading a file the library wrote gives exactly the custom properties that were set, each with the value it was last given.", "quantifier": "every sequence of builder calls, any names and values, any order in which the hash map yields its entries", "why_tests_cant": "Properties are written in the arbitrary order of a hash map and read by two nested loops; tests set one property.", "anchors": ["docx-core/src/documents/doc_props/custom.rs: CustomProps", "docx-core/src/reader/custom_properties.rs: CustomProps::from_xml", "docx-core/src/documents/mod.rs: Docx::custom_property", "docx-core/src/reader/read_docx.rs: read_docx"]}
{"id": "C61", "title": "A written file can be read as a whole, and what is in it comes back", "statement": "Take a file made through the building interface out of paragraphs, tables, tracked changes, bookmarks and links, with headers, footers, custom properties, styles, numberings and settings of the kinds that are kept, and pack it. Reading the archive succeeds and yields a file with the same body, page set-up, headers and footers in their places (default, first page, even pages), the custom properties last set, the same styles, numberings (if they are used) and settings. If the body has comments, they are found with the comments they answer, and each place in a paragraph where a comment starts holds the comment itself.", "quantifier": "all lists of calls, all bodies, headers and footers of the item kinds, all orders in which hash maps are written, all archives packed from such a file, all fuel beyond a bound", "why_tests_cant": "the result depends on the interplay of every part's writer and reader with relationships, content types and ids, for every combination of parts", "anchors": ["docx-core/src/reader/read_docx.rs: read_docx, read_docx_with_options", "docx-core/src/documents/mod.rs: store_comments", "docx-core/src/reader/mod.rs", "docx-core/src/documents/build_xml.rs", "docx-core/src/zipper/mod.rs"]}
{"id": "C62", "title": "Pictures in the body survive writing and reading", "statement": "Take a file whose body has pictures, inline or floating, anywhere in it. After packing and reading, the body has as many pictures in the same order; each has the same size, kind, distances from the text and, if it floats, the same layout in cells, height, reference for its position and non-negative offsets. The file read lists, under the id of each picture, the bytes that were given for it, exactly once, or nothing if a preview was asked for and the bytes cannot be converted.", "quantifier": "all lists of calls, all readable bodies without tables of contents, all pictures whose numbers fit their types, all orders in which hash maps are written, all archives packed from such a file, with and without previews, any conversion function", "why_tests_cant": "ids are assigned while writing, bytes are stored under derived names and found again through relationships; that every picture gets its own bytes back depends on all pictures and links in the document together", "anchors": ["docx-core/src/reader/drawing.rs", "docx-core/src/reader/pic.rs", "docx-core/src/reader/wp_anchor.rs", "docx-core/src/documents/elements/pic.rs", "docx-core/src/documents/elements/drawing.rs", "docx-core/src/reader/read_docx.rs", "docx-core/src/documents/mod.rs: add_image_with_options"]}
{"id": "C63", "title": "Reading a file ends", "statement": "Reading an archive comes to an end, with a document, an error or a panic, however its parts are nested, if the texts in it are well-formed XML, its parts for relationships have Relationships as their root and its styles part styles. In particular reading ends for every archive that was written. Without these conditions it does not: an archive whose main document is cut off inside a paragraph, whose relationship part is empty, or whose styles part has another root is never read to an end.", "quantifier": "all archives, with any entries, any nesting, any number of steps", "why_tests_cant": "termination for every archive cannot be observed by running some; a test cannot tell a loop that never ends from one that is slow", "anchors": ["docx-core/src/reader/mod.rs read_docx", "docx-core/src/reader/document.rs", "docx-core/src/reader/rels.rs", "docx-core/src/reader/styles.rs", "docx-core/src/reader/ignore.rs", "docx-core/src/reader/xml_parser.rs EventReader::next_event"]}
{"id": "C64", "title": "Reading a file does not panic", "statement": "Reading an archive gives a document or an error, not a panic, if its texts are well-formed as in C63 and moreover every declaration of a content type has its two attributes, every element of the kinds whose value is taken without being looked for (w:jc, w:sz, w:u, w:highlight, w:pStyle, w:ilvl, ...) has an attribute, widths are numbers, and comments and their records have their ids. Each of these conditions is needed: reading panics at an alignment without a value, at a width that is not a number, at a comment without an id, and at a content type without attributes. A package that was written by this library meets the conditions, so reading it does not panic.", "quantifier": "all archives, with any entries, any nesting, any number of steps", "why_tests_cant": "the absence of panics ranges over all archives; fuzzing only samples them", "anchors": ["docx-core/src/reader/mod.rs read_docx", "docx-core/src/reader/paragraph_property.rs", "docx-core/src/reader/run_property.rs", "docx-core/src/reader/attributes/width.rs", "docx-core/src/reader/comments.rs", "docx-core/src/reader/content_types.rs"]}
{"id": "C65", "title": "A file that was written can be read", "statement": "Reading a package that this library wrote gives a document, not an error, whatever the document holds, if the strings that are not escaped can be put into XML and its custom items do not look like parts of a document. More generally reading any archive gives a document if it meets the conditions of C63 and C64, the content types, relationships, main document and the parts for styles, numbering and settings that it refers to are there, measures and ids are numbers where the readers do not go on without, and bookmarks have ids and names. Without these conditions there are errors: at a missing part, at a page width that is not a number, at a bookmark without a name.", "quantifier": "all lists of calls, all documents, all orders in which hash maps are written, all archives, any number of steps beyond a bound", "why_tests_cant": "that nothing the writers can produce makes any reader give up ranges over all documents; tests read back a few", "anchors": ["docx-core/src/reader/mod.rs read_docx", "docx-core/src/reader/document.rs", "docx-core/src/reader/comments.rs", "docx-core/src/reader/numberings.rs", "docx-core/src/reader/level.rs", "docx-core/src/reader/section_property.rs", "docx-core/src/reader/attributes/indent.rs", "docx-core/src/reader/bookmark_start.rs", "docx-core/src/zipper/mod.rs: zip"]}
{"id": "C66", "title": "Saving a body that was read changes nothing", "statement": "Write a body of paragraphs, tables, tracked changes, bookmarks, links to bookmarks and the like, read it, write what was read as it is, and read that: the second reading gives exactly the same document as the first, if no text is empty or holds characters that XML has to escape. With such characters it fails: what was read holds the texts without escapes, and writing does not escape them again, so that a paragraph with `a & b` or `a < b` is written, read, and written again to a part that is no XML and cannot be read.", "quantifier": "all bodies of the items, all states of the id generator, any number of steps beyond a bound", "why_tests_cant": "a fixed point of write and read over all bodies; tests compare a few files", "anchors": ["docx-core/src/reader/document.rs", "docx-core/src/reader/run.rs", "docx-core/src/documents/elements/text.rs Text::without_escape", "docx-core/src/documents/document.rs"]}
{"id": "C67", "title": "A file that was read can be changed and saved", "statement": "Read any archive, make any calls on what was read, and save it. The content types are right: none twice, each the right one, every part that needs one has one. The ids of relationships of the main document are distinct under the same condition as for a new document. If it is saved as it was read, every internal relationship leads to a part that is there, every content type is for a part that is there, and a header or footer is found under its reference if its id is the one this library gives to its place. It fails for files of others: references to headers and footers are written with the ids that were read while the parts are related under new ids, a link that was read under an id such as rId2 shares it with the font table, and the numbering part is never related.", "quantifier": "all archives, all lists of calls, all orders in which hash maps are written, any number of steps", "why_tests_cant": "all archives and all calls made on what was read; the tests read files but do not save them and look at the relationships", "anchors": ["docx-core/src/reader/read_docx.rs read_docx", "docx-core/src/documents/mod.rs Docx::document, Docx::build", "docx-core/src/documents/document_rels.rs", "docx-core/src/documents/content_types.rs", "docx-core/src/documents/elements/section_property.rs"]}
{"id": "C68", "title": "Reading a file and saving it keeps its links and pictures", "statement": "A user expects that a file that is read and saved still has its pictures and its links. It does not. Whatever the archive, in the document that read_docx gives no external link has an address and no picture has bytes, and there is no table of contents, footnote, reference to a footnote, or comment range inside a run. The addresses and the bytes are beside the document, in fields that writing does not use. So in the package that is saved every picture file is empty, and every relationship of a link is there but has an empty address. The ids of its relationships are distinct.", "quantifier": "all archives that can be read, all results of writing what was read, pictures in the body, the headers and the footers", "why_tests_cant": "what is lost depends on what is in the archive; a test has the pictures and links it was written with", "anchors": ["docx-core/src/reader/read_docx.rs: read_docx, add_images, add_hyperlinks", "docx-core/src/reader/hyperlink.rs", "docx-core/src/reader/pic.rs", "docx-core/src/documents/mod.rs: Docx::build, collect_images", "docx-core/src/zipper/mod.rs"]}
{"id": "C69", "title": "Reading an archive comes to exactly one outcome", "statement": "What read_docx does with an archive is determined by the archive, the options, and what the environment supplies: it comes to exactly one of a file, an error, a panic, or never an end. Each of the four occurs. For a package that was written it is a file, and the file is the one whose content C61 describes.", "quantifier": "all archives, all readers' environments, any number of steps", "why_tests_cant": "that the outcome is the same for every amount of work done is a statement about all runs, and an endless run cannot be observed", "anchors": ["docx-core/src/reader/read_docx.rs: read_docx", "docx-core/src/reader/*.rs: the loops over next_event"]}
{"id": "C70", "title": "A flat OPC file is read as the archive with the same parts", "statement": "Reading the parts of a package as one XML file (read_xml) gives the file that reading them as an archive gives: the same body, page set-up, styles, lists, headers and footers, comments, settings, custom properties and links. (The code violates this: with the part names word processors use, headers, footers and comments are never found, settings, web settings and custom properties are never found, and of the links only the first is noted, with the relationship type in place of its id.)", "quantifier": "all flat files and all archives that calls can make and their parts", "why_tests_cant": "each loss needs a particular path to be looked up among all names the parts can have; that none is ever found is a statement about all files", "anchors": ["docx-core/src/reader/read_xml.rs: read_xml, read_headers_from_xml, read_footers_from_xml, read_comments_from_xml, add_images_from_xml"]}
{"id": "C71", "title": "External links come back with their addresses", "statement": "When a file made with calls is written and read, the links of its body come back in the same order under the same ids, and under each id the address the caller gave is listed, once, as external; no other address is listed. Whatever archive is read, the addresses listed are exactly the relationships of the document part of the hyperlink type that have a mode, the themes are those of its theme parts that can be read, and the web settings those of the first such part.", "quantifier": "all files calls can make, without a table of contents in the body, with text the format can hold; all archives for the second part", "why_tests_cant": "the id in the body, the relationship written for it and the list made from the relationships read must agree for every number of links, for equal and for escaped addresses", "anchors": ["docx-core/src/reader/mod.rs: read_docx", "docx-core/src/reader/hyperlink.rs", "docx-core/src/reader/document_rels.rs", "docx-core/src/documents/document_rels.rs", "docx-core/src/documents/elements/hyperlink.rs"]}
{"id": "C72", "title": "A file that was read can be saved", "statement": "Whatever archive read_docx accepts, what it returns can be saved: pack and build followed by pack succeed and do not panic, also after any further calls. (The code violates this: text boxes, shapes and drawings that are not pictures are read and kept, and writing panics at each of them, in the body and in headers and footers.)", "quantifier": "all archives that are read, all calls made afterwards, all environments", "why_tests_cant": "which content the reader keeps and which the writer can write are decided in many places; that nothing else stops a save is a statement about all archives", "anchors": ["docx-core/src/reader/drawing.rs: Drawing::read", "docx-core/src/documents/elements/drawing.rs", "docx-core/src/documents/elements/run.rs: RunChild", "docx-core/src/zipper/mod.rs", "docx-core/src/documents/mod.rs: Docx::pack"]}
{"id": "C73", "title": "Sections survive a file", "statement": "A document with sections (add_section), saved and read: what was in the sections and between them comes back in the same order, and the page set-up of every section comes back with the paragraph that ends it; and when the file is saved again, every section still has its own headers and footers. (The code violates the last: read_docx keeps only the headers and footers of the last section. After saving, the reference of another section leads nowhere, or to a header of the last section.)", "quantifier": "all documents with any sections in any order, all archives that are read and saved, all environments", "why_tests_cant": "sections are flattened by the writer and never rebuilt by the reader; what is kept and lost depends on where a section stands and which ids are taken, for every document", "anchors": ["docx-core/src/documents/elements/section.rs: Section::build_to", "docx-core/src/documents/mod.rs: Docx::add_section", "docx-core/src/reader/document.rs: Document::from_xml", "docx-core/src/reader/mod.rs: read_docx", "docx-core/src/reader/section_property.rs"]}
{"id": "C74", "title": "Tables of contents survive a file", "statement": "A document with tables of contents (add_table_of_contents), saved and read: the table comes back where it was, with what was put before and after it, its entries in order with their text, level, link and page, and its instruction. (The code violates part of it: a table of contents is never read as one. It comes back as paragraphs and content controls from which the entries and the instruction can be read, its name is lost, and so is the instruction of a deleted one.)", "quantifier": "all documents with any tables of contents that are not to be filled in, with any entries and any content before and after, all environments", "why_tests_cant": "the writer spreads a table of contents over paragraphs, fields and a content control, and the reader knows none of it; what is kept depends on every combination of entries, links, levels and surroundings", "anchors": ["docx-core/src/documents/elements/table_of_contents.rs: TableOfContents::build_to", "docx-core/src/documents/mod.rs: Docx::add_table_of_contents", "docx-core/src/reader/structured_data_tag.rs", "docx-core/src/reader/document.rs: Document::from_xml"]}
{"id": "C75", "title": "The JSON form of a document says what is in it", "statement": "json() returns one valid JSON value. The texts in its document are the texts of the document, in order and character for character, and two files with the same JSON have the same content. After a file is read, the JSON shows the texts that were put into it. (The code violates part of it: the texts of footnotes are left out, and texts given to the building interface are found XML-escaped.)", "quantifier": "all documents of any content and depth, all texts including quotes, backslashes and control characters, all JSON forms of formatting and of the other fields", "why_tests_cant": "every kind of content has its own hand-written serializer with its own tag; a swapped tag, a dropped child or a character that is not escaped shows only for particular content, and no set of examples covers all nestings", "anchors": ["docx-core/src/documents/mod.rs: Docx::json", "docx-core/src/documents/elements/run.rs: RunChild (Serialize)", "docx-core/src/documents/elements/paragraph.rs: ParagraphChild (Serialize)", "docx-core/src/documents/document.rs: DocumentChild (Serialize)", "docx-core/src/documents/elements/footnote_reference.rs: Serialize"]}
{"id": "C76", "title": "Asking a file what is in it does not change what is written", "statement": "json_with_update_comments, comments_json and collect_footnotes give an answer about a file. Packing the file afterwards gives what packing it without asking gives. comments_json answers the comments that word/comments.xml will have. (The code violates part of it: after asking, every external link has its relationship twice, so the ids in document.xml.rels are not unique; after collect_footnotes every footnote is written twice.)", "quantifier": "all files of any content, with any links, comments and footnotes, all orders in which hash maps yield their entries, all states of the counters", "why_tests_cant": "the questions are asked by other callers than those who build, and the difference shows only in a package that is written afterwards and only for particular content", "anchors": ["docx-core/src/documents/mod.rs: Docx::json_with_update_comments, Docx::comments_json, Docx::collect_footnotes, Docx::update_dependencies", "docx-core/src/documents/footnotes.rs: Footnotes::add"]}
{"id": "C77", "title": "What a JavaScript program puts into a document arrives", "statement": "A document put together with the JavaScript interface (Docx, Paragraph, Run, Hyperlink, Insert, Delete, Table, TableRow, TableCell, TableOfContents, Comment, Image) has, once it is handed to the Rust library, exactly the texts, deleted texts, tabs, positional tabs, breaks, pictures (bytes, size, floating or not, rotation) and entries for a table of contents that were added, in order, inside links, insertions, deletions, cells and tables in cells; in the written package the texts are in word/document.xml in order. Every comment has its id, author, date, the comment it answers and its text. (The code violates part of it: an answer to the comment with id 0 does not answer anything, and an empty author or date is replaced by a default.)", "quantifier": "all documents a program can put together of any length and nesting, all states of the id counters, whatever the image library does", "why_tests_cant": "order and loss depend on the nesting and mix of children of each object; a test shows one document", "anchors": ["docx-wasm/js/builder.ts: buildParagraph, buildHyperlink, buildComment", "docx-wasm/js/run.ts: Run.build", "docx-wasm/js/table.ts: Table.build", "docx-wasm/js/table-cell.ts: TableCell.build", "docx-wasm/js/index.ts: Docx.createDocx", "docx-wasm/src/run.rs", "docx-wasm/src/paragraph.rs", "docx-wasm/src/comment.rs"]}
{"id": "C78", "title": "Formatting given by a JavaScript program arrives", "statement": "Calling formatting methods on a Run, RunFonts, Image, Paragraph, Table, TableRow or TableCell of the JavaScript interface, in any order and any number of times, gives what is built the formatting that the methods of the same name of the Rust library give. (The code violates parts of it: Run.insert and Run.delete mark nothing, strike after dstrike leaves the double line, vertAlign baseline, empty texts and kinds of text borders after the tenth are lost, RunFonts.eastAsiaTheme sets the font instead of the theme, and the vertical offset of an image becomes its horizontal offset. For paragraphs the alignment start, underscore tab leaders, flags turned off, the size 0 and themes and hints of fonts are lost. For tables the width is lost and the distance to the text on the right becomes that on the left; for rows the height 0 is lost; for cells borders between cells are lost and kinds of lines after the tenth become single lines.)", "quantifier": "all sequences of calls with all arguments, all content of the run, all states of the id counters", "why_tests_cant": "the result depends on the order and combination of calls; tests call each method once", "anchors": ["docx-wasm/js/run.ts: Run", "docx-wasm/js/run-property.ts: RunProperty, RunFonts, setRunProperty, convertBorderType", "docx-wasm/src/run.rs", "docx-wasm/src/pic.rs", "docx-wasm/js/paragraph.ts: Paragraph", "docx-wasm/js/paragraph-property.ts: setParagraphProperty", "docx-wasm/js/table.ts: Table, TablePosition, setTableProperty", "docx-wasm/js/table-row.ts: TableRow", "docx-wasm/js/table-cell.ts: TableCell"]}
{"id": "C79", "title": "Links and pictures of a document put together in JavaScript lead where they should", "statement": "A document put together in JavaScript is one a Rust program could have made with the methods of Docx. Every external link in its paragraphs and tables is written with an id of its own that leads in the package to the address given in JavaScript, also when two links share an address; every picture leads to its bytes; and no two relationships of the document share an id. Tables of contents are taken to have no links and pictures before and after their entries.", "quantifier": "all documents put together in JavaScript, all values of the id counters, all orders in which links are stored, all packages written", "why_tests_cant": "ids come from counters shared by all objects and the order of building decides which object gets which; tests build one document", "anchors": ["docx-wasm/js/index.ts: Docx.createDocx", "docx-wasm/js/builder.ts: buildHyperlink, buildParagraph", "docx-core/src/documents/hyperlink_id.rs", "docx-core/src/documents/pic_id.rs", "docx-core/src/documents/mod.rs: update_dependencies"]}
{"id": "C80", "title": "Numbering used in JavaScript is related", "statement": "A package written from a document put together in JavaScript relates the numbering part to the main document exactly when a paragraph is numbered. (The code violates parts of it: a paragraph numbered after it was added to the document, and numbered paragraphs in comments and before or behind a table of contents, are not noticed.)", "quantifier": "all sequences of method calls that make paragraphs, cells, rows, tables, nested tables and the document, all packages written", "why_tests_cant": "the flag is copied from object to object at every add, so it depends on the nesting and on the order of calls; tests number one paragraph", "anchors": ["docx-wasm/js/index.ts: addParagraph, addTable, build", "docx-wasm/js/paragraph.ts: numbering", "docx-wasm/js/table-cell.ts: addParagraph, addTable", "docx-wasm/js/table-row.ts: addCell", "docx-wasm/js/table.ts: addRow", "docx-wasm/src/doc.rs: build"]}
{"id": "C81", "title": "Headers and footers given in JavaScript arrive", "statement": "After any sequence of method calls on a document in JavaScript, the package refers to a header, and to a footer, for the default, for first pages and for even pages exactly when one was given, and the reference leads to a part with the content that was given last. No relationship of the main document to a part of the package is left without its part. Tables of contents are taken to have no links and pictures before and after their entries.", "quantifier": "all sequences of method calls on a document in JavaScript, all contents, all values of the id counters, all packages written", "why_tests_cant": "the parts are counted and named as they are handed over, and in the Rust library the count goes wrong when a method is called twice or out of order; tests set one header", "anchors": ["docx-wasm/js/index.ts: header, firstHeader, evenHeader, footer, firstFooter, evenFooter, build", "docx-wasm/js/header.ts: addParagraph, addTable", "docx-wasm/src/header.rs", "docx-wasm/src/footer.rs", "docx-core/src/documents/mod.rs: header, footer, build"]}
{"id": "C82", "title": "The set-up of a document given in JavaScript arrives", "statement": "After any sequence of method calls on a document in JavaScript, the document handed to the Rust library has the settings, the page set-up, the default formatting, the dates and the custom properties that were given last, and all document variables, lists, web extensions and custom items that were given, in order. It is built exactly if the custom items are XML that can be read. (The code violates parts of it: highlighting, underlining and hiding of a level, the properties of a level put in place of another, a default size or spacing of 0, themes of fonts, and web extensions without a pane are lost.)", "quantifier": "all sequences of method calls on a document in JavaScript, all values, all contents", "why_tests_cant": "every value is held in JavaScript and handed over by a call of its own, some of them behind a test for emptiness; tests set one or two values", "anchors": ["docx-wasm/js/index.ts: createDocx, buildLevel", "docx-wasm/js/settings.ts", "docx-wasm/js/section-property.ts", "docx-wasm/js/doc-props.ts", "docx-wasm/js/level.ts", "docx-wasm/src/doc.rs", "docx-core/src/documents/mod.rs"]}
{"id": "C83", "title": "Styles made in JavaScript arrive", "statement": "A style made in JavaScript arrives in the document with its id, kind, name, base, link, flags and priority and with the formatting of runs, paragraphs and tables its methods were asked for, as if the methods of the same names had been called on a style in Rust; and the styles of the document are those that were added, in order, whatever else was called. (The code violates parts of it: the style of runs, marks of insertions and deletions, the width of tables, the alignment start, an empty base or link and flags turned off are lost.)", "quantifier": "all sequences of method calls on a style and on a document in JavaScript, all values", "why_tests_cant": "every value is held in JavaScript and handed over by a call of its own, some behind a test for emptiness or for the kind of target; tests make one or two styles", "anchors": ["docx-wasm/js/style.ts: Style, buildWasmObject", "docx-wasm/js/run-property.ts: setRunProperty", "docx-wasm/js/paragraph-property.ts: createParagraphProperty", "docx-wasm/js/table.ts: setTableProperty", "docx-wasm/js/index.ts: addStyle, createDocx", "docx-wasm/src/style.rs", "docx-core/src/documents/elements/style.rs"]}
{"id": "C84", "title": "Tables of contents made in JavaScript arrive", "statement": "A table of contents made in JavaScript arrives with the instruction, the entries, the name, the flags, the text in place of pages, the mark of deletion and the formatting its methods were asked for, and with all that was put before it before it and all that was put behind it behind it, in order. (The code violates parts of it: an entry of level 0 arrives with level 1, an empty name and an empty text in place of pages are lost.)", "quantifier": "all sequences of method calls on a table of contents and on its entries in JavaScript, all values, all paragraphs and tables, all values of the id counters", "why_tests_cant": "every value is held in JavaScript and handed over by a call of its own, some behind a test for emptiness; tests make one table of contents and compare the file", "anchors": ["docx-wasm/js/table-of-contents.ts: TableOfContents, buildWasmObject", "docx-wasm/js/table-of-contents-item.ts", "docx-wasm/src/table_of_contents.rs", "docx-wasm/src/table_of_contents_item.rs", "docx-core/src/documents/elements/table_of_contents.rs", "docx-core/src/documents/elements/instr_toc.rs"]}
{"id": "C85", "title": "The set-up of a document made in JavaScript is found in the file", "statement": "When a document made in JavaScript is built and a file reader opens the result, the settings found are those last asked for with all variables in order, the page set-up is the one given last, a custom property is found exactly if it was given and with the value given last, and the lists found are the standing one and those added, in order, with the levels and numberings as given. (The code violates parts of it: texts of settings and lists are written unescaped, so a variable with an ampersand makes the settings unreadable; and an orientation is not read.)", "quantifier": "all programs of calls on a document in JavaScript, all values, all orders in which properties are held, all states of the id counters", "why_tests_cant": "three steps each with tests of their own stand between the call and the reader: what JavaScript hands over, what is written, what is read; tests compare one step for one document", "anchors": ["docx-wasm/js/index.ts: Docx, build", "docx-wasm/src/doc.rs", "docx-core/src/documents/settings.rs", "docx-core/src/documents/numberings.rs", "docx-core/src/documents/doc_props/custom.rs", "docx-core/src/reader/settings.rs", "docx-core/src/reader/numberings.rs", "docx-core/src/reader/custom_properties.rs"]}
