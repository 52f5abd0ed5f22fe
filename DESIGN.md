# A Lean 4 model of docx-rs

The code under study is `bokuweb/docx-rs` (Rust) at the commit in `/repo`. The model is in
`lean/Verif`. It was written by reading the source; the code was not run.

## Layout

* `Verif/Model/*.lean` — the model: one definition per modelled function, each with a comment that
  cites the file and lines it models and names any simplification.
* `Verif/Spec/*.lean` — small specifications that do not use the model's helpers (a conforming XML
  reader, "all ids distinct", balanced brackets, "target exists", ...).
* `Verif/Lemmas/*.lean` — auxiliary lemmas. Nothing here is claimed.
* `Verif/Props/*.lean` — the theorems named in `MANIFEST.json`, with examples that show that the
  hypotheses are met by concrete, non-trivial inputs.

## Modelling conventions

* A Rust `String` is a `List Char` (type `Str`); a `Vec<T>` is a `List T`; `usize`/`i32` are
  `Nat`/`Int` unless overflow matters, in which case the bound is explicit (`from_px`, id counters).
* `&mut self` and builder methods return the new value. A panic (`unwrap`, `expect`, index out of
  range, `todo!`) is an explicit error value.
* `HashMap`/`HashSet` are association lists; no theorem depends on their order, except where a
  theorem says that the order is unspecified.
* Process-global counters are explicit state.
* Loops become folds or structural recursion; searches that have no structural measure carry fuel,
  and a theorem shows that the fuel is enough.

## Plan per property

For each property: what is modelled, and how the theorem is proved.

| Id | Modelled | Proof |
|----|----------|-------|
| C01 | `escape`; a character-reference decoder as specification | induction on the string |
| C02 | `escape`; predicate "every `&` starts one of six references" | induction |
| C03 | `escape_owned` | case split; `escape` is the identity off the special set |
| C04 | `replace_escaped` as a scanner | induction on the string; counter-example with `\n` |
| C05 | `EventWriter` with its name buffer, offsets and pending flag | refinement to an abstract stack of names; invariant by induction on events |
| C06 | writer + a conforming XML reader on the written fragment | mutual induction on trees |
| C07 | `Run::add_text`, `Text`, writer, `pack` | composition of C01, C06 and the content of `word/document.xml` |
| C08 | builders for the fields, attribute writer, attribute reader | from C02; counter-example for the comment author |
| C09, C10 | document tree with ids, `collect_para_ids_*`, `refresh_para_ids_*`, `ensure_unique_paragraph_id`, `next_unique_paragraph_id` | traversal shown equal to a map over the list of ids; loop invariant on `used`/`seen` |
| C11 | counters as state; threads as interleavings of load and store | injectivity; a two-thread schedule as counter-example |
| C12 | build-time id generation | counter-example; partial theorem without build-time ids |
| C13–C15 | `MediaRegistry`, `PackagePartCollector` | invariant over the picture sequence; fuel of the suffix search by pigeonhole |
| C16, C17, C42 | `zip`, `zip_docx`, `build_sparse_relationships` as functions to entry lists | induction over the header/footer lists; injectivity of names |
| C18–C22 | builder state machine over `Docx` call histories, `DocumentRels`, `ContentTypes` | invariant by induction on the history; counter-examples for the failing histories |
| C23 | `has_numbering` propagation | induction over construction histories; counter-examples |
| C24–C26 | `update_dependencies`, collectors | induction on the tree; counter-examples |
| C27–C29 | `update_document_by_toc`, TOC `build_to` | induction; counter-examples |
| C30 | `InstrToC` printer and parser | case analysis per switch, induction on style list |
| C31 | all `Display`/`FromStr` tables | case analysis over the whole enumeration; counter-examples |
| C32 | `xml_json` parser and printer | induction on trees |
| C33 | `extract_xml_package_parts` | where a pattern can occur in the text, by induction on the text; counter-examples |
| C34 | content types reader | induction on the table; counter-example |
| C35 | `ignore_element` | induction on the event stream; counter-example for same-name nesting |
| C36, C51, C52, C53 | `build_to` and readers of run, paragraph, section, table, row and cell formatting | the reader is run symbolically on the written tree; exact result, then the conditions under which it is the same; counter-examples |
| C37 | readers of the body: paragraphs, runs, tracked changes, tables | mutual induction on the content |
| C38–C41, C43, C44 | the named functions | induction / case analysis |
| C45 | the whole writer of the document part | the written events form one element, for every document |
| C46 | revision and bookmark ids handed out while writing | the ids of a part are a range of the counter |
| C47–C50 | `pack` as a whole: content kept, links, parts, names | composition of the collectors' theorems |
| C54 | `Numberings::build_to` with everything in it; the readers of levels, overrides, definitions and numberings | the reader is run symbolically on the written tree; exact result, then the conditions under which it is the same; counter-examples |
| C55 | `Styles::build_to` with everything in it; the readers of styles and default formatting | the reader is run symbolically on the written tree; exact result, then the conditions under which it is the same; counter-examples |
| C56 | `read_rels_xml`, `Rels::from_xml`, `find_rels_filename` with the `std::path` functions, `read_zip`, the ordered sets of targets | the reader is run symbolically on the written tree; an invariant of the ordered map gives exactly the relationships; path lemmas; counter-example for names with a dot |
| C57 | the readers of `word/comments.xml` and `word/commentsExtended.xml` and the step that connects answers to comments | the reader is run symbolically on the written tree; ids of comment paragraphs are distinct after preparation (C09 and an invariant of the walk), so the two tables the reader builds are functions; an invariant of the reading loop for tables |
| C58 | the reader of `word/settings.xml` with every element it knows | the reader is run symbolically on the written tree, compatibility elements included; exact result, then the conditions under which it is the same; counter-examples, one of them an error of the parser carried through the loop |
| C59 | the readers of headers and footers | the written header is the given one up to ids (an invariant of preparation), the reader is run symbolically on it, and reading commutes with leaving ids out |
| C60 | `CustomProps::from_xml` and `VtXMLElement` for strings | the reader is run symbolically on the written tree; the calls give a table with distinct names (induction), its order is arbitrary, and membership in what is read is characterised |
| C61 | `read_docx` as a whole on the entries of an archive, `store_comments`, `find_*_targets`, assignment of headers and footers to their references, images, hyperlinks | every part of the package is looked up through the relationships read (C56) and read (C37, C52, C54, C55, C57-C60); ids of header relationships are unique, so each reference finds the part it was made for |
| C62 | `Drawing::read`, `Pic::read`, `read_anchor`, the list of images of `read_docx`, writing of `Pic` | the loop of the drawing reader is run on the nodes the writer gives (`returns_drawing`); pictures of the document read are the images of those written (walk over the whole tree); ids of relationships are unique, so the list filtered by an id has the bytes stored for it |
| C63 | `read_docx` and all the readers it calls, as loops over the events of the parser with a number of steps | a measure (events left) bounds every loop of every reader, by one induction over the depth of the readers; an invariant `Comes` (ends unless the archive is not tidy, panics only if it is not harmless) is carried through `read_docx`; written packages are shown to meet the conditions part by part |
| C64 | the places in the readers that index an attribute list or unwrap | the same invariant; every place that can panic is tied to an element without the attribute it takes; for written packages, every writer is shown to give these elements their attributes |
| C65 | the places in the readers that give up with an error, and where `read_docx` asks for a part | the invariant of C63 and C64 carries a third aim: an error comes only if the archive is not complete; for written packages every writer is shown to write numbers where the readers need them, and every part asked for is found |
| C66 | `Document::from_xml` and `Document::build` one after the other, twice | the reading of a body of `BodyItem`s is known (C37); it is shown to be a body the writer takes, whose reading is itself (`steadyDocument`); the failures are computed by the kernel |
| C67 | `read_docx` followed by the calls of `Docx` and `build` | an invariant on the books (counts, content types, ids, parts held) is shown for what `read_docx` gives, whatever the archive (`readDocx_books`), and kept by all calls; the theorems of C18 to C23 are then about any file whose books are right |
| C68 | all readers of `read_docx` followed by `build` | every reader is shown to give only items without addresses and bytes (`Gives`, by the loops of the readers and induction on the fuel); the binary entries of a package are exactly the pictures of the document (`C14_package_bytes`) |
| C69 | the loops of all readers, with the number of steps they are given | outcomes are ordered (still running below everything), and every reader is shown to be monotone in the number of steps, by its form and by induction on the nesting (`mono_readDocx`) |
| C70 | all of read_xml: the parts, the relationships, the paths it makes and looks up, headers, footers, comments, notes, lists, settings, pictures, links | the made paths contain two slashes or no leading one, so no usual name is found; the rest is read by the same readers as from an archive, so C61's lemmas apply |
| C71 | the links of the body, the relationships written and read, the lists of links, themes and web settings | the reread body has the links in order (induction over the body); the relationships read are those written (C48, C65 lemmas); the list is a filter over them with ids that do not repeat |
| C72 | what the reader keeps of drawings and shapes, what the writer does with it, all parts of the package | packing succeeds iff every part is written (lemmas of C16, C45, C50); a part is written iff what it has to write is supported; preparation changes neither; comments and footnotes of a read file are handled apart |
| C73 | sections as written (content and a closing paragraph), the document reader, relationships of a saved read file | writing a section is writing its content and a paragraph; the document is read as the one with its sections spread out (Spec/Spread.lean), up to drawn ids; preparation changes ids only; the relations to headers of a read file are counted by the last section |
| C74 | tables of contents as written (paragraphs, fields, content control), the document reader | writing a table of contents is writing the blocks it is spread over (Spec/TocSpread.lean); the document is read as the one with its tables spread out, up to drawn ids; Spec/TocRead.lean says what to look for in the result without the model |
| C75 | the Serialize instances of all body content, sections, headers and footers, and the pretty printer of serde_json; instances of formatting and other leaves are parameters | a reader of JSON (RFC 8259, Spec/Json.lean) reads back what the printer writes (Lemmas/JsonRead.lean); the instances are injective up to what they leave out (Lemmas/JsonSame.lean); a consumer that knows only tags and field names finds the texts (Lemmas/JsonTexts.lean) |
| C76 | json_with_update_comments, comments_json and collect_footnotes as functions from a file to an answer and a file (Model/Ask.lean) | the preparation and the steps of zip_docx are followed with different relationships of the main document; ids are compared in the written parts as a reader finds them |
| C77 | the JavaScript objects and their build methods, with the bridge of docx-wasm, as functions to the objects of the Rust library, threading the id counters (Model/Js.lean) | induction over the children of each object, in mutual recursion for paragraphs, links and comments and for tables, rows and cells; what is shown is read off the walk over the built document; C07 carries it into the package |
| C78 | the formatting methods of the JavaScript objects as functions on the objects, and setRunProperty, buildWasmObject and the bridge (Model/Js.lean, Model/JsCalls.lean, Model/JsTableCalls.lean) | closed forms of what is set; induction over the calls from the end, against the setters of the Rust library called in the same order |
| C79 | the id counters threaded through the build methods (Model/Js.lean, Model/Ids.lean) | the ids met on a walk over the built document are the numbers drawn one after the other, by induction over the builders; C11 makes them distinct; the calls of the Rust library that give the same file are exhibited, and C13, C20 and C48 applied to them |
| C80 | the add methods of JavaScript with their flags (Model/JsAdd.lean) | the flag of every object made with its methods is whether it has a numbered paragraph, by induction over how it was made; the built paragraphs have no flag; the relation is then that of C23 |
| C81 | the methods of a JavaScript document for its parts and its set-up, and their handing over (Model/JsFile.lean) | the slots after any calls are the last given, by induction over the calls; handing over calls each method of the Rust library at most once and in a fixed order, so the ids count up (C19 shows what goes wrong otherwise); the references are then followed in the package |
| C82 | the same model as C81, with levels and lists (Model/JsFile.lean) | each field of the document is followed through the calls that hand it over, which leaves it as a function of the JavaScript object; that object holds what was given last, by induction over the calls |
| C83 | styles of JavaScript and how they are handed over (Model/JsStyle.lean) | the style handed over has a closed form; by induction over the calls it is the one the setters of the Rust library give |
| C84 | tables of contents of JavaScript, their entries and how they are handed over (Model/JsToc.lean) | closed form of what is handed over, then induction over the calls; contents by the lemmas of C77 |
| C85 | programs of calls in JavaScript (Model/JsFile.lean), the package written and the readers of settings, lists and custom properties | C82 carries the calls into the document, C54, C58 and C60 carry the document through the file; the conditions of the latter are derived from conditions on the calls |

## Trusted base

* **Lean's kernel** (Lean 4.33.0), which checks every proof. No `sorry`, no `native_decide`, no `bv_decide`, no
  axioms of our own.
* **Axioms.** The theorems depend on at most `propext`, `Classical.choice` and `Quot.sound`, Lean's standard
  three; many depend on fewer. `decide +kernel` is used for closed facts about literals (and for finite tables
  as a whole); it is evaluated by the kernel and adds no axiom.
* **The model is faithful.** Each definition in `Verif/Model` cites the lines it models. That it says what those lines
  do is checked by reading only.
* **The Rust standard library**, in the parts used: integer formatting and parsing, `str::replace`, `trim`, `find`, `HashMap`,
  `BTreeMap`, sorting. Their models are in `Model/Base`, `Model/Numbers`, `Model/XmlJson` and `Model/FlatOpc`.
* **External crates.** `quick_xml`'s tokenizer is modelled in `Model/XmlParser.lean` as far as the written documents need it
  (tags, attributes, text, references, CDATA, comments); that model is trusted. `zip` is a map from names to bytes.
  `image` decoding is an arbitrary function (`ReadEnv`, `PackEnv` fields): the theorems hold for any.
  Float parsing and printing (`f32`/`f64` `from_str`, `Display`) are arbitrary functions of which only what each theorem
  states as a hypothesis is used; the concrete examples use exact conversions.

### What is modelled

* The XML layer: `xml/writer`, `xml_builder/*`, `escape`, the reader's event layer (`reader/xml_parser.rs`).
* The document tree with all element types that `Document` can hold, their constructors and setters, and the `build_to` of each.
* Packing: `Docx::build`, `XMLDocx::pack`, `zipper`, relationships, content types, media registry, comments,
  footnotes, headers and footers, numbering usage, table-of-contents generation, paragraph ids.
* Reading: elements of the body, their formatting, tracked changes, bookmarks, hyperlinks, content controls; content types;
  flat OPC texts; `xml_json`; relationships and the lookup of parts; numbering, styles, comments and their threads, settings,
  headers, footers, custom properties, themes, web settings; `read_docx` as a whole, from the entries of the archive to the file,
  with the place each comment starts; `read_xml` as a whole; drawings (pictures with their place and size, text boxes) and the list of images.

### What is not modelled

* ZIP compression and file I/O; timing; memory use (except that ids fit their counters where a theorem says so).
* The `serde` instances of formatting, pictures, shapes, field instructions and of the parts other than the document (those of the body content and the
  printer of `serde_json` are modelled in `Model/Json`), the TypeScript and WASM bindings
  other than those for content and formatting (`Model/Js`: runs, paragraphs, links, comments, tables, images),
  for documents with their parts and set-up (`Model/JsFile`), for styles (`Model/JsStyle`) and for tables of contents
  (`Model/JsToc`).
* Image decoding and PNG preview generation; base 64 (a function the theorems quantify over).
* The place of a text box (`distT` and the like) in what is read; VML shapes (`shape`, `pict`) beyond what `ReadEnv` says of them.
* What the parser reports after its first error: the model has no events after one. No theorem depends on such events: where
  an error is part of a statement, the reader in question returns at once.
* Parts written from constants (theme, font table) are modelled only as their text.

## How the theorems were tested

Realistic bugs were put into a copy of the model and the library rebuilt; `seeded/LOG.jsonl` records each
edit, the claim it breaks, the theorems that failed and the theorems that were tightened because they
did not.

## Where the code and a property disagree

Each line names a theorem that proves the failure for a concrete case, or for a whole family of cases, in
the model. The property is then proved under the conditions that exclude these cases, in a theorem whose
name ends in `_partial` where the property itself is not fully proved.

* `C04_line_feed_not_restored` — The claim "`replace_escaped` inverts `escape`" is false for text with a line feed.
* `C09_footnote_text_not_visited` — The footnotes that are still attached to their references are not visited: there two paragraphs keep the same id.
* `C11_distinct_without_overlap` — C11, several threads: if the calls of all threads happen one after the other (in any order and by any threads), the ids are pairwise distinct. For overlapping calls the claim is false, see the next theorems.
* `C12_fails` — Fails: two paragraphs of one `word/document.xml` get the same id.
* `C16_fails` — Fails for the contents as such: with a tracked change in the body and another in a header, `pack` gives the first revision id to the body and `build` gives it to the header.
* `C18_fails` — Fails when a header is set twice: there is a relationship to `header2.xml` and no such entry.
* `C19_fails` — Fails when the header of the first page is given before the default header: the reference to the default header leads to the part that holds the header of the first page, and the other way round.
* `C20_fails` — Fails for a document with a footnote and a custom item: two relationships have the id `rId8`.
* `C21_fails_item` — Fails for a custom item added after a web extension: the `Override` is for `itemProps2.xml`, which does not exist.
* `C21_fails_taskpanes` — Fails for a web extension without `taskpanes`: it has an `Override` and is not written.
* `C22_fails` — Fails for the second of two custom items: its relationship is to the properties of the first, and its properties have no content type.
* `C23_fails_cell` — Fails for a content control in a cell, although everything is made with the methods of its type.
* `C23_fails_document` — Fails for a body given as a whole.
* `C23_fails_row` — Fails for a row added to a table that exists.
* `C24_fails` — Fails for comments in sections and in structured data at document level: the ranges are written, the comments are not.
* `C25_fails` — Fails for a comment of two paragraphs: it is written twice, with a record for its first paragraph too.
* `C27_fails_escaped_style` — A listed style is not found if its id contains a character that is escaped.
* `C27_fails_out_of_range` — A listed style whose level is outside the range of heading levels is left out.
* `C27_fails_twice` — A heading whose style is also listed by name is listed twice.
* `C27_fails_without_range` — An instruction that lists styles but gives no range lists nothing, although a paragraph with a listed style is expected to be listed.
* `C28_user_bookmark_collides` — A key can be the name of a bookmark the user made: keys do not avoid the names in the document.
* `C29_fails` — The condition is needed: the field of a table of contents without entries that is followed by a table is begun and never ended.
* `C30_fails_comma` — The condition on commas is needed: the name of a style is cut off, and what follows is lost.
* `C30_fails_lone_f` — A lone `\f` is lost.
* `C30_fails_space` — The condition on spaces is needed: an argument with a space is cut off, and the rest is read as a switch.
* `C32_fails_ampersand` — Fails for a text with an ampersand: parsing the printed form panics.
* `C32_fails_markup` — Fails for a text with markup: it comes back as an element.
* `C32_fails_reference` — Fails for a text that looks like a reference: it comes back as the character.
* `C32_fails_space` — Fails for a text with white space around it.
* `C33_fails_doubled` — The form with doubled quotes, which the reader looks for first, loses the first character of the name and of the content type.
* `C33_fails_panic` — With doubled quotes and a name that does not begin with an ASCII character, reading panics.
* `C33_fails_text` — The text of a document can take the place of the name of its part: the quotes of `pkg:name=""` are legal in XML text.
* `C34_fails` — Fails for every written package: `/word/document.xml` has a content type in it, and none in the table that is read.
* `C35_nested_fails` — The property fails for every element with an element of the same name inside: the skip ends at the inner end tag, and the rest of the content is read as if it stood behind the element.
* `C36_fails_border_space` — Fails for the space of a text border.
* `C36_fails_ptab` — Fails for what a positional tab is relative to.
* `C36_fails_size` — Fails for sizes that no float holds: the first is `2 ^ 53 + 1`.
* `C36_fails_stretch` — Fails for character scaling: whatever else is set, it is never read back.
* `C36_fails_strike` — Fails when double strike is on and single strike is disabled: that it was disabled is lost.
* `C36_fails_tab` — Fails for a tab in a style id: it is read back as a space.
* `C37_fails_empty` — Fails for an empty text, which is left out.
* `C37_fails_entity` — Fails: the reader decodes the text a second time, so `&lt;` comes back as `<`.
* `C38_fails` — Text with a character that is escaped in XML comes back escaped, although the document shows it as given.
* `C38_moved_and_linked` — Tabs and breaks in moved-to content are left out, and so is text in hyperlinks.
* `C40_chars_dropped` — The characters of a hanging or first-line indent are dropped without notice if no indent has been set before, whatever else has.
* `C48_fails` — Fails for a link in a section: no relationship has its id.
* `C51_fails_bidi` — Fails for right-to-left paragraphs: whatever else is set, the setting is not read back.
* `C51_fails_indent` — Fails for an indent that leaves out a side: it is read back as `0`.
* `C51_fails_widow` — Fails for widow control set to off: that it is off is lost.
* `C52_fails_columns` — Fails for the number of columns and the space between them.
* `C52_fails_direction` — Fails for the text direction.
* `C52_fails_orient` — Fails for a page orientation: whatever else is set, it is not read.
* `C52_fails_pitch` — Fails for a line pitch of `2 ^ 24 + 1`: it is read as `2 ^ 24`.
* `C53_fails_indent` — Fails for an indent of a table that is zero or not in twentieths of a point.
* `C53_fails_layout` — Fails for the layout of a table: whatever else is set, it is not read.
* `C53_fails_row` — Fails for rows that must not be split and for cells left out before or after the row.
* `C53_fails_space` — Fails for the space around a border.
* `C54_fails_again` — Fails when what was read is written again: the part then defines the number 1 twice, as a definition and as a numbering, and once more each time it is read and written.
* `C54_fails_kind` — Fails for the kind of a definition (`multi_level_type`), which is written and not read.
* `C54_fails_link` — Fails for the links of a definition (`style_link`, `num_style_link`), which are read and not written.
* `C54_fails_side` — Fails for a level whose indent has no end: it comes back with the end `0`.
* `C55_fails_again` — Fails when what was read is written again: the part then defines the style `Normal` twice, and once more each time it is read and written.
* `C55_fails_hidden` — Fails for a hidden style (`semi_hidden`): it comes back as one that is shown.
* `C55_fails_next` — Fails for the style of the next paragraph (`next`), which is written and not read.
* `C55_fails_priority` — Fails for the priority of a style (`ui_priority`), which is written and not read.
* `C55_fails_qFormat` — Fails for a style that is left out of the gallery (`q_format(false)`): it comes back as one that is in it.
* `C56_fails_name` — **C56** fails for names with a dot: the relationships of `word/document.v2.xml` are looked for in the file of `document.xml`.
* `C57_fails_author` — Fails for an author with an apostrophe that is not escaped: it comes back as an entity reference.
* `C57_fails_tables` — Fails for tables: whatever the text of a comments part, the comments that are read from it hold paragraphs only, and no comment says which one it answers.
* `C58_fails_tab` — Fails for a default tab stop of `2 ^ 24 + 1`, which is read as `2 ^ 24`.
* `C58_fails_variable` — Fails for a variable whose value has an ampersand: it is written as it is, and then the settings cannot be read at all, nor can the file (reader/read_docx.rs:389-391 passes the error on).
* `C58_fails_zoom` — Fails for the zoom: whatever it is, it is written and read as 100.
* `C60_fails_reference` — Fails for values that show a reference: they are written as they are, so `&lt;` is read as `<`.
* `C66_fails_text` — Fails for a text with `&` or `<`: the paragraph is written and read as it should be, but what was read holds the text without its escapes, so that writing it again gives a part that is no XML and that cannot be read.
* `C67_fails_link_id` — Fails for the ids of links: if a link that was read has one of the ids this library uses for its own parts, there are two relationships with that id.
* `C67_fails_numbering` — Fails for the numbering: whatever was read, if it is saved as it is, the main document does not relate the numbering part.
* `C68_fails_links` — Fails for links: read any archive and save what was read. Every link outside in the body has a relationship, but none of these has an address.
* `C68_fails_pictures` — Fails for pictures: read any archive and save what was read. Whatever pictures were in it, every picture file that is written is empty.
* `C70_fails` — Fails for a package that this library writes: read as an archive, it has a header, a tab stop and a custom property; its parts in one XML file are read without them.
* `C70_fails_links` — **C70 fails for links**: at most one link is noted, and its id is the type of the relationship, not its id.
* `C70_fails_parts` — **C70 fails for headers, footers and comments**, whatever the file: if no part has two slashes together in its name, and the main document is `document.xml` in some folder, no header, no footer and no comment is read, and the document is the text of its part alone.
* `C70_fails_settings` — **C70 fails for settings and custom properties**: with the names word processors give, they are not found.
* `C72_fails` — Fails for a file with a chart, a file with a text box, and a file with a shape in the older notation.
* `C72_fails_header` — Fails also if only a header has a chart.
* `C73_fails_headers` — Fails for headers: if two sections were written with the first ids for headers, the headers of the first are not kept, and its reference leads to a header of the last section instead.
* `C74_fails_alias` — The name of the content control of a table of contents is lost.
* `C74_fails_deleted` — The instruction of a deleted table of contents is lost.
* `C75_fails_escaped` — Fails for what is built: a text that is given to the building interface is found escaped.
* `C75_fails_footnotes` — Fails for footnotes: two documents whose footnotes differ have the same JSON form.
* `C76_fails_footnotes` — Fails for every file with a footnote: packed after `collect_footnotes`, its footnotes part has the footnotes of the body twice.
* `C76_fails_links` — Fails for every file with an external link in a place that is searched: packed after asking, it has more than one relationship with the id of the link, and so a package whose ids are not unique.
* `C77_fails_empty` — Fails for every document with a comment whose author is the empty text: it gets a name.
* `C77_fails_reply` — Fails for every document with an answer to the comment whose id is 0: it does not answer anything.
* `C78_fails_baseline` — Fails for text that goes back to the line: that is not passed on.
* `C78_fails_border` — Fails for every kind of line around text but the ten that are known: a single line arrives.
* `C78_fails_empty` — Fails for a colour that is replaced by the empty text: none is left. The same goes for a style, a highlight and an underline.
* `C78_fails_height` — Fails for the height 0 of a row: none arrives.
* `C78_fails_hint` — Fails for themes and the hint among the fonts of a paragraph mark: none arrives, whatever the fonts are.
* `C78_fails_inside` — Fails for the lines between cells: a border set, or cleared, there changes nothing.
* `C78_fails_leader` — Fails for tabs led by underscores: they arrive without a leader.
* `C78_fails_line` — Fails for every other kind of line: a single line is drawn.
* `C78_fails_marks` — Fails for marks of insertions and deletions on a run: none arrives, whatever is called.
* `C78_fails_off` — Fails for turning off what a style turns on: the same goes for `keepLines`, `pageBreakBefore` and `widowControl`.
* `C78_fails_offset` — Fails for the place of a picture: the horizontal offset is the vertical one that was given, and the vertical one is always 0.
* `C78_fails_right` — Fails for the distance to the text on the right: it becomes the distance on the left.
* `C78_fails_size` — Fails for the size 0 of a paragraph mark: none arrives.
* `C78_fails_start` — Fails for the alignment `start`: none arrives.
* `C78_fails_strike` — Fails for a single line through the text after a double one: the double line stays.
* `C78_fails_theme` — Fails for the theme of East Asian text: whatever is called, no such theme arrives, and one that is given takes the place of the East Asian font.
* `C78_fails_width` — Fails for the width of a table: whatever is called, the width is that of a table no width was given to.
* `C80_fails_after` — Fails for every document without numbering, when a paragraph that has been added is numbered afterwards.
* `C80_fails_comment` — Fails for the paragraphs of a comment: the part is not related although a paragraph of the package is numbered.
* `C80_fails_header` — Fails for headers and footers: however many paragraphs in them are numbered, the numbering part is related only if one in the body is.
* `C80_fails_toc` — Fails for the paragraphs before and behind a table of contents: the part is not related although a paragraph of the package is numbered.
* `C82_fails_extensions` — Fails otherwise: without the pane every web extension is lost.
* `C82_fails_level` — Fails for highlighting, underlining and hiding the number of a list: no level of the document has any.
* `C82_fails_override` — Fails for a level put in place of another: its indent, its formatting and what follows the number are lost.
* `C82_fails_size` — Fails for a default size of 0 given after another: neither is there.
* `C83_fails_base` — Fails for an empty base or link: it does not replace the one given before by an empty one, it removes it.
* `C83_fails_disable` — Bold, italic and struck text that a style is to switch off is not mentioned in the style that arrives, so that a style based on a bold one is bold too.
* `C83_fails_leader` — Fails for tabs led by underscores: they are led by nothing.
* `C83_fails_marks` — Fails for marks of insertions and deletions: none arrives, whatever is called.
* `C83_fails_off` — Fails for flags turned off: the style says nothing about them, so it cannot undo what its base says.
* `C83_fails_start` — Fails for the alignment `start`: it takes away the one given before.
* `C83_fails_style` — Fails for the style of runs: whatever is called, none arrives.
* `C83_fails_width` — Fails for the width of tables: whatever is called, it is that of a table no width was given to.
* `C84_fails_empty` — Fails for an empty text in place of pages and for an empty name: none arrives.
* `C84_fails_level` — Fails for an entry of level 0: it arrives as an entry of level 1.
* `C85_fails_orient` — Fails for the orientation: whatever else a program asks for, an orientation is not found.
* `C85_fails_variable` — Fails for a variable whose text needs escaping: the settings of the file cannot be read at all.
