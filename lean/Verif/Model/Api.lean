import Verif.Model.Types
import Verif.Model.Build
import Verif.Model.Ids

/-!
# The builder methods of the content types (`docx-core/src/documents/elements/*.rs`)

`self`-consuming builder methods are functions. A method named like a field gets the prefix `set`.
`impl Into<String>` parameters are strings. `i32`, `isize` are `Int`, `usize`, `u32` are `Nat`.
-/

namespace Docx

/-! ## Colour, fonts -/

/-- `Color::new`. elements/color.rs:40-47. -/
def Color.new (v : Str) : Color := { val := v }
/-- `Color::theme_color`. elements/color.rs:50-56. -/
def Color.setThemeColor (c : Color) (t : ThemeColor) : Color := { c with themeColor := some t.toStr }
/-- `Color::theme_shade`. elements/color.rs:59-62. -/
def Color.setThemeShade (c : Color) (t : Str) : Color := { c with themeShade := some t }
/-- `Color::theme_tint`. elements/color.rs:65-68. -/
def Color.setThemeTint (c : Color) (t : Str) : Color := { c with themeTint := some t }

/-- `RunFonts::ascii`. elements/run_fonts.rs:44-47. -/
def RunFonts.setAscii (f : RunFonts) (s : Str) : RunFonts := { f with ascii := some (escapeOwned s) }
/-- `RunFonts::hi_ansi`. elements/run_fonts.rs:49-52. -/
def RunFonts.setHiAnsi (f : RunFonts) (s : Str) : RunFonts := { f with hiAnsi := some (escapeOwned s) }
/-- `RunFonts::east_asia`. elements/run_fonts.rs:54-57. -/
def RunFonts.setEastAsia (f : RunFonts) (s : Str) : RunFonts := { f with eastAsia := some (escapeOwned s) }
/-- `RunFonts::cs`. elements/run_fonts.rs:59-62. -/
def RunFonts.setCs (f : RunFonts) (s : Str) : RunFonts := { f with cs := some (escapeOwned s) }
/-- `RunFonts::ascii_theme`. elements/run_fonts.rs:64-67. -/
def RunFonts.setAsciiTheme (f : RunFonts) (s : Str) : RunFonts := { f with asciiTheme := some (escapeOwned s) }
/-- `RunFonts::hi_ansi_theme`. elements/run_fonts.rs:69-72. -/
def RunFonts.setHiAnsiTheme (f : RunFonts) (s : Str) : RunFonts := { f with hiAnsiTheme := some (escapeOwned s) }
/-- `RunFonts::east_asia_theme`. elements/run_fonts.rs:74-77. -/
def RunFonts.setEastAsiaTheme (f : RunFonts) (s : Str) : RunFonts := { f with eastAsiaTheme := some (escapeOwned s) }
/-- `RunFonts::cs_theme`. elements/run_fonts.rs:79-82. -/
def RunFonts.setCsTheme (f : RunFonts) (s : Str) : RunFonts := { f with csTheme := some (escapeOwned s) }
/-- `RunFonts::hint`. elements/run_fonts.rs:84-87. -/
def RunFonts.setHint (f : RunFonts) (s : Str) : RunFonts := { f with hint := some (escapeOwned s) }

/-! ## Run properties -/

/-- `RunProperty::style`. elements/run_property.rs:69-72; `RunStyle::new` escapes, elements/run_style.rs. -/
def RunProperty.setStyle (p : RunProperty) (s : Str) : RunProperty := { p with style := some (escapeOwned s) }
/-- `RunProperty::size`. elements/run_property.rs:74-78. -/
def RunProperty.setSize (p : RunProperty) (n : Nat) : RunProperty := { p with sz := some n, szCs := some n }
/-- `RunProperty::spacing`. elements/run_property.rs:80-83. -/
def RunProperty.setSpacing (p : RunProperty) (n : Int) : RunProperty := { p with characterSpacing := some n }
/-- `RunProperty::color`. elements/run_property.rs:85-88. -/
def RunProperty.setColor (p : RunProperty) (c : Str) : RunProperty := { p with color := some (.new c) }
/-- `RunProperty::theme_color`. elements/run_property.rs:94-98. -/
def RunProperty.setThemeColor (p : RunProperty) (t : ThemeColor) : RunProperty :=
  { p with color := some ((p.color.getD (.new c!"auto")).setThemeColor t) }
/-- `RunProperty::theme_shade`. elements/run_property.rs:101-105. -/
def RunProperty.setThemeShade (p : RunProperty) (t : Str) : RunProperty :=
  { p with color := some ((p.color.getD (.new c!"auto")).setThemeShade t) }
/-- `RunProperty::theme_tint`. elements/run_property.rs:108-112. -/
def RunProperty.setThemeTint (p : RunProperty) (t : Str) : RunProperty :=
  { p with color := some ((p.color.getD (.new c!"auto")).setThemeTint t) }
/-- `RunProperty::highlight`. elements/run_property.rs:114-117. -/
def RunProperty.setHighlight (p : RunProperty) (c : Str) : RunProperty := { p with highlight := some c }
/-- `RunProperty::vert_align`. elements/run_property.rs:119-122. -/
def RunProperty.setVertAlign (p : RunProperty) (a : VertAlignType) : RunProperty := { p with vertAlign := some a }
/-- `RunProperty::bold`. elements/run_property.rs:124-128. -/
def RunProperty.setBold (p : RunProperty) : RunProperty := { p with bold := some true, boldCs := some true }
/-- `RunProperty::disable_bold`. elements/run_property.rs:130-134. -/
def RunProperty.disableBold (p : RunProperty) : RunProperty := { p with bold := some false, boldCs := some false }
/-- `RunProperty::caps`. elements/run_property.rs:136-139. -/
def RunProperty.setCaps (p : RunProperty) : RunProperty := { p with caps := some true }
/-- `RunProperty::italic`. elements/run_property.rs:141-145. -/
def RunProperty.setItalic (p : RunProperty) : RunProperty := { p with italic := some true, italicCs := some true }
/-- `RunProperty::strike`. elements/run_property.rs:147-151. -/
def RunProperty.setStrike (p : RunProperty) : RunProperty := { p with strike := some true, dstrike := none }
/-- `RunProperty::disable_strike`. elements/run_property.rs:153-156. -/
def RunProperty.disableStrike (p : RunProperty) : RunProperty := { p with strike := some false }
/-- `RunProperty::dstrike`. elements/run_property.rs:158-162. -/
def RunProperty.setDstrike (p : RunProperty) : RunProperty := { p with dstrike := some true, strike := none }
/-- `RunProperty::disable_dstrike`. elements/run_property.rs:164-167. -/
def RunProperty.disableDstrike (p : RunProperty) : RunProperty := { p with dstrike := some false }
/-- `RunProperty::disable_italic`. elements/run_property.rs:169-173. -/
def RunProperty.disableItalic (p : RunProperty) : RunProperty :=
  { p with italic := some false, italicCs := some false }
/-- `RunProperty::underline`. elements/run_property.rs:175-178. -/
def RunProperty.setUnderline (p : RunProperty) (t : Str) : RunProperty := { p with underline := some t }
/-- `RunProperty::vanish`. elements/run_property.rs:180-183. -/
def RunProperty.setVanish (p : RunProperty) : RunProperty := { p with vanish := some () }
/-- `RunProperty::spec_vanish`. elements/run_property.rs:185-188. -/
def RunProperty.setSpecVanish (p : RunProperty) : RunProperty := { p with specVanish := some () }
/-- `RunProperty::fonts`. elements/run_property.rs:190-193. -/
def RunProperty.setFonts (p : RunProperty) (f : RunFonts) : RunProperty := { p with fonts := some f }
/-- `RunProperty::character_spacing`. elements/run_property.rs:195-198. -/
def RunProperty.setCharacterSpacing (p : RunProperty) (n : Int) : RunProperty :=
  { p with characterSpacing := some n }
/-- `RunProperty::stretch`. elements/run_property.rs:200-203. -/
def RunProperty.setStretch (p : RunProperty) (n : Int) : RunProperty := { p with stretch := some n }
/-- `RunProperty::fit_text`. elements/run_property.rs:205-212. -/
def RunProperty.setFitText (p : RunProperty) (n : Nat) (id : Option Nat) : RunProperty :=
  { p with fitText := some ⟨n, id⟩ }
/-- `RunProperty::text_border`. elements/run_property.rs:214-217. -/
def RunProperty.setTextBorder (p : RunProperty) (b : TextBorder) : RunProperty := { p with textBorder := some b }
/-- `RunProperty::delete`. elements/run_property.rs:219-222. Simplification: see `Mark`. -/
def RunProperty.setDelete (p : RunProperty) (m : Mark) : RunProperty := { p with del := some m }
/-- `RunProperty::insert`. elements/run_property.rs:224-227. Simplification: see `Mark`. -/
def RunProperty.setInsert (p : RunProperty) (m : Mark) : RunProperty := { p with ins := some m }
/-- `RunProperty::ptab`. elements/run_property.rs:229-232. -/
def RunProperty.setPtab (p : RunProperty) (t : PositionalTab) : RunProperty := { p with positionalTab := some t }
/-- `RunProperty::shading`. elements/run_property.rs:234-237. -/
def RunProperty.setShading (p : RunProperty) (s : Shading) : RunProperty := { p with shading := some s }

/-- The author and date of `Delete::new().author(a).date(d)` and `Insert::new_with_empty().author(a).date(d)`:
the author is escaped, the date is not. elements/delete.rs:87-95, elements/insert.rs:133-141. -/
def Mark.new (author date : Str) : Mark := ⟨escapeOwned author, date⟩

/-! ## Runs -/

/-- `str::replace('\n', "")`. -/
def dropLineFeeds (s : Str) : Str := s.filter (· ≠ '\n')

/-- `Run::add_text`. elements/run.rs:166-170; `Text::new` elements/text.rs:17-22. -/
def Run.addText (r : Run) (s : Str) : Run := { r with children := r.children ++ [.text (escapeOwned (dropLineFeeds s))] }
/-- `Run::add_text_without_escape`. elements/run.rs:172-177. -/
def Run.addTextWithoutEscape (r : Run) (s : Str) : Run := { r with children := r.children ++ [.text (dropLineFeeds s)] }
/-- `Run::add_delete_text`. elements/run.rs:179-184; `DeleteText::new` elements/delete_text.rs:16-21. -/
def Run.addDeleteText (r : Run) (s : Str) : Run :=
  { r with children := r.children ++ [.deleteText (escapeOwned (dropLineFeeds s))] }
/-- `Run::add_field_char`. elements/run.rs:194-201. -/
def Run.addFieldChar (r : Run) (t : FieldCharType) (dirty : Bool) : Run :=
  { r with children := r.children ++ [.fieldChar t dirty] }
/-- `Run::add_instr_text`. elements/run.rs:210-213. -/
def Run.addInstrText (r : Run) (i : InstrText) : Run := { r with children := r.children ++ [.instrText i] }
/-- `Run::add_tc`. elements/run.rs:203-208. -/
def Run.addTc (r : Run) (t : InstrTC) : Run :=
  ((r.addFieldChar .begin false).addInstrText (.tc t)).addFieldChar .end_ false
/-- `Run::add_delete_instr_text`. elements/run.rs:215-218. -/
def Run.addDeleteInstrText (r : Run) (i : DeleteInstrText) : Run :=
  { r with children := r.children ++ [.deleteInstrText i] }
/-- `Run::add_tab`. elements/run.rs:220-223. -/
def Run.addTab (r : Run) : Run := { r with children := r.children ++ [.tab] }
/-- `Run::add_ptab`. elements/run.rs:225-228. -/
def Run.addPtab (r : Run) (t : PositionalTab) : Run := { r with children := r.children ++ [.ptab t] }
/-- `Run::add_image`. elements/run.rs:230-234. -/
def Run.addImage (r : Run) (p : Pic) : Run := { r with children := r.children ++ [.picture p] }
/-- `Run::add_break`. elements/run.rs:247-250. -/
def Run.addBreak (r : Run) (t : BreakType) : Run := { r with children := r.children ++ [.brk t] }
/-- `Run::add_carriage_return`. elements/run.rs:252-256. -/
def Run.addCarriageReturn (r : Run) : Run := { r with children := r.children ++ [.carriageReturn] }
/-- `Run::add_sym`. elements/run.rs:258-261. -/
def Run.addSym (r : Run) (font char : Str) : Run := { r with children := r.children ++ [.sym font char] }
/-- `Run::add_footnote_reference`. elements/run.rs:366-371; the conversion elements/footnote_reference.rs:28-36. -/
def Run.addFootnoteReference (r : Run) (f : Footnote) : Run :=
  ⟨RunProperty.setStyle {} c!"FootnoteReference",
    r.children ++ [.footnoteReference f.id c!"FootnoteReference" f.content]⟩
/-- The remaining methods of `Run` apply one `RunProperty` setter. elements/run.rs:263-359, 373-376. -/
def Run.format (r : Run) (f : RunProperty → RunProperty) : Run := { r with property := f r.property }

/-! ## Revisions -/

/-- `Insert::new`. elements/insert.rs:84-89. -/
def Insert.new (r : Run) : Insert := { children := [.run r] }
/-- `Insert::new_with_del`. elements/insert.rs:97-102. -/
def Insert.newWithDel (d : Delete) : Insert := { children := [.delete d] }
/-- `Insert::add_run`. elements/insert.rs:104-107. -/
def Insert.addRun (i : Insert) (r : Run) : Insert := { i with children := i.children ++ [.run r] }
/-- `Insert::add_delete`. elements/insert.rs:109-112. -/
def Insert.addDelete (i : Insert) (d : Delete) : Insert := { i with children := i.children ++ [.delete d] }
/-- `Insert::add_child`. elements/insert.rs:114-117. -/
def Insert.addChild (i : Insert) (c : InsertChild) : Insert := { i with children := i.children ++ [c] }
/-- `Insert::add_comment_start`. elements/insert.rs:119-125. -/
def Insert.addCommentStart (i : Insert) (c : Comment) : Insert :=
  { i with children := i.children ++ [.commentStart c.id c] }
/-- `Insert::add_comment_end`. elements/insert.rs:127-131. -/
def Insert.addCommentEnd (i : Insert) (id : Nat) : Insert := { i with children := i.children ++ [.commentEnd id] }
/-- `Insert::author`. elements/insert.rs:133-136. -/
def Insert.setAuthor (i : Insert) (s : Str) : Insert := { i with author := escapeOwned s }
/-- `Insert::date`. elements/insert.rs:138-141. -/
def Insert.setDate (i : Insert) (s : Str) : Insert := { i with date := s }

/-- `Delete::add_run`. elements/delete.rs:68-71. -/
def Delete.addRun (d : Delete) (r : Run) : Delete := { d with children := d.children ++ [.run r] }
/-- `Delete::add_comment_start`. elements/delete.rs:73-79. -/
def Delete.addCommentStart (d : Delete) (c : Comment) : Delete :=
  { d with children := d.children ++ [.commentStart c.id c] }
/-- `Delete::add_comment_end`. elements/delete.rs:81-85. -/
def Delete.addCommentEnd (d : Delete) (id : Nat) : Delete := { d with children := d.children ++ [.commentEnd id] }
/-- `Delete::author`. elements/delete.rs:87-90. -/
def Delete.setAuthor (d : Delete) (s : Str) : Delete := { d with author := escapeOwned s }
/-- `Delete::date`. elements/delete.rs:92-95. -/
def Delete.setDate (d : Delete) (s : Str) : Delete := { d with date := s }

/-! ## Hyperlinks -/

/-- `Hyperlink::new`, given the id the generator returns. elements/hyperlink.rs:35-52. -/
def Hyperlink.new (id : Nat) (value : Str) : HyperlinkType → Hyperlink
  | .external => { link := .external (createHyperlinkRid id) (escapeOwned value) }
  | .anchor => { link := .anchor value }
/-- `Hyperlink::add_run` and the other `add_` methods push one child. elements/hyperlink.rs:54-98. -/
def Hyperlink.addChild (h : Hyperlink) (c : ParagraphChild) : Hyperlink := { h with children := h.children ++ [c] }

/-! ## Paragraph properties -/

/-- `ParagraphBorders::set`. elements/paragraph_borders.rs:146-156. -/
def ParagraphBorders.set (b : ParagraphBorders) (x : ParagraphBorder) : ParagraphBorders :=
  match x.position with
  | .top => { b with top := some x }
  | .left => { b with left := some x }
  | .bottom => { b with bottom := some x }
  | .right => { b with right := some x }
  | .between => { b with between := some x }
  | .bar => { b with bar := some x }

/-- `ParagraphBorders::clear`. elements/paragraph_borders.rs:158-169. -/
def ParagraphBorders.clear (b : ParagraphBorders) (p : ParagraphBorderPosition) : ParagraphBorders :=
  b.set { position := p, val := .nil }

/-- `ParagraphBorders::clear_all`. elements/paragraph_borders.rs:171-182. -/
def ParagraphBorders.clearAll (_ : ParagraphBorders) : ParagraphBorders :=
  { left := some { position := .left, val := .nil }, right := some { position := .right, val := .nil },
    top := some { position := .top, val := .nil }, bottom := some { position := .bottom, val := .nil },
    between := some { position := .between, val := .nil }, bar := some { position := .bar, val := .nil } }

/-- Apply a change to the scalar fields. -/
def ParagraphProperty.upd (p : ParagraphProperty) (f : ParagraphBase → ParagraphBase) : ParagraphProperty :=
  { p with base := f p.base }

/-- `ParagraphProperty::align`. elements/paragraph_property.rs:68-71. -/
def ParagraphProperty.setAlign (p : ParagraphProperty) (a : AlignmentType) : ParagraphProperty :=
  p.upd fun b => { b with alignment := some a.toStr }
/-- `ParagraphProperty::style`. elements/paragraph_property.rs:73-76; `ParagraphStyle::new` escapes,
elements/paragraph_style.rs. -/
def ParagraphProperty.setStyle (p : ParagraphProperty) (s : Str) : ParagraphProperty :=
  p.upd fun b => { b with style := some (escapeOwned s) }
/-- `ParagraphProperty::indent`. elements/paragraph_property.rs:78-87; `Indent::new` elements/indent.rs:21-36. -/
def ParagraphProperty.setIndent (p : ParagraphProperty) (left : Option Int) (special : Option SpecialIndentType)
    (end_ startChars : Option Int) : ParagraphProperty :=
  p.upd fun b => { b with indent := some { start := left, end_ := end_, special := special, startChars := startChars } }
/-- `ParagraphProperty::numbering`. elements/paragraph_property.rs:89-92. -/
def ParagraphProperty.setNumbering (p : ParagraphProperty) (id level : Nat) : ParagraphProperty :=
  p.upd fun b => { b with numberingProperty := some ⟨some id, some level⟩ }
/-- `ParagraphProperty::numbering_property`. elements/paragraph_property.rs:94-97. -/
def ParagraphProperty.setNumberingProperty (p : ParagraphProperty) (n : NumberingProperty) : ParagraphProperty :=
  p.upd fun b => { b with numberingProperty := some n }
/-- `ParagraphProperty::line_spacing`. elements/paragraph_property.rs:99-102. -/
def ParagraphProperty.setLineSpacing (p : ParagraphProperty) (s : LineSpacing) : ParagraphProperty :=
  p.upd fun b => { b with lineSpacing := some s }
/-- `ParagraphProperty::character_spacing`. elements/paragraph_property.rs:104-107. -/
def ParagraphProperty.setCharacterSpacing (p : ParagraphProperty) (n : Int) : ParagraphProperty :=
  p.upd fun b => { b with runProperty := b.runProperty.setCharacterSpacing n }
/-- `ParagraphProperty::snap_to_grid`. elements/paragraph_property.rs:109-112. -/
def ParagraphProperty.setSnapToGrid (p : ParagraphProperty) (v : Bool) : ParagraphProperty :=
  p.upd fun b => { b with snapToGrid := some v }
/-- `ParagraphProperty::shading`. elements/paragraph_property.rs:114-117. -/
def ParagraphProperty.setShading (p : ParagraphProperty) (s : Shading) : ParagraphProperty :=
  p.upd fun b => { b with shading := some s }
/-- `ParagraphProperty::keep_next`. elements/paragraph_property.rs:119-122. -/
def ParagraphProperty.setKeepNext (p : ParagraphProperty) (v : Bool) : ParagraphProperty :=
  p.upd fun b => { b with keepNext := some v }
/-- `ParagraphProperty::keep_lines`. elements/paragraph_property.rs:124-127. -/
def ParagraphProperty.setKeepLines (p : ParagraphProperty) (v : Bool) : ParagraphProperty :=
  p.upd fun b => { b with keepLines := some v }
/-- `ParagraphProperty::outline_lvl`. elements/paragraph_property.rs:129-137. -/
def ParagraphProperty.setOutlineLvl (p : ParagraphProperty) (v : Nat) : ParagraphProperty :=
  p.upd fun b => if v ≥ 10 then { b with outlineLvl := some 9 } else { b with outlineLvl := some v }
/-- `ParagraphProperty::page_break_before`. elements/paragraph_property.rs:139-142. -/
def ParagraphProperty.setPageBreakBefore (p : ParagraphProperty) (v : Bool) : ParagraphProperty :=
  p.upd fun b => { b with pageBreakBefore := some v }
/-- `ParagraphProperty::bidi`. elements/paragraph_property.rs:143-146. -/
def ParagraphProperty.setBidi (p : ParagraphProperty) (v : Bool) : ParagraphProperty :=
  p.upd fun b => { b with bidi := some v }
/-- `ParagraphProperty::widow_control`. elements/paragraph_property.rs:147-150. -/
def ParagraphProperty.setWidowControl (p : ParagraphProperty) (v : Bool) : ParagraphProperty :=
  p.upd fun b => { b with widowControl := some v }
/-- `ParagraphProperty::add_tab`. elements/paragraph_property.rs:152-155. -/
def ParagraphProperty.addTab (p : ParagraphProperty) (t : Tab) : ParagraphProperty :=
  p.upd fun b => { b with tabs := b.tabs ++ [t] }
/-- `ParagraphProperty::section_property`. elements/paragraph_property.rs:157-160. -/
def ParagraphProperty.setSectionProperty (p : ParagraphProperty) (s : SectionBase) : ParagraphProperty :=
  p.upd fun b => { b with sectionProperty := some s }
/-- `ParagraphProperty::paragraph_property_change`. elements/paragraph_property.rs:162-165. -/
def ParagraphProperty.setChange (p : ParagraphProperty) (c : ParagraphPropertyChange) : ParagraphProperty :=
  { p with change := some c }
/-- `ParagraphProperty::frame_property`. elements/paragraph_property.rs:167-170. -/
def ParagraphProperty.setFrameProperty (p : ParagraphProperty) (f : FrameProperty) : ParagraphProperty :=
  p.upd fun b => { b with frameProperty := some f }
/-- `ParagraphProperty::run_property`. elements/paragraph_property.rs:172-175. -/
def ParagraphProperty.setRunProperty (p : ParagraphProperty) (r : RunProperty) : ParagraphProperty :=
  p.upd fun b => { b with runProperty := r }
/-- `ParagraphProperty::text_alignment`. elements/paragraph_property.rs:177-180. -/
def ParagraphProperty.setTextAlignment (p : ParagraphProperty) (t : TextAlignmentType) : ParagraphProperty :=
  p.upd fun b => { b with textAlignment := some t }
/-- `ParagraphProperty::adjust_right_ind`. elements/paragraph_property.rs:182-185. -/
def ParagraphProperty.setAdjustRightInd (p : ParagraphProperty) (n : Int) : ParagraphProperty :=
  p.upd fun b => { b with adjustRightInd := some n }
/-- `ParagraphProperty::hanging_chars`. elements/paragraph_property.rs:187-192. -/
def ParagraphProperty.setHangingChars (p : ParagraphProperty) (n : Int) : ParagraphProperty :=
  p.upd fun b => { b with indent := b.indent.map fun i => { i with hangingChars := some n } }
/-- `ParagraphProperty::first_line_chars`. elements/paragraph_property.rs:194-199. -/
def ParagraphProperty.setFirstLineChars (p : ParagraphProperty) (n : Int) : ParagraphProperty :=
  p.upd fun b => { b with indent := b.indent.map fun i => { i with firstLineChars := some n } }
/-- `ParagraphProperty::set_borders`. elements/paragraph_property.rs:201-204. -/
def ParagraphProperty.setBorders (p : ParagraphProperty) (x : ParagraphBorders) : ParagraphProperty :=
  p.upd fun b => { b with borders := some x }
/-- `ParagraphProperty::set_border`. elements/paragraph_property.rs:206-209. -/
def ParagraphProperty.setBorder (p : ParagraphProperty) (x : ParagraphBorder) : ParagraphProperty :=
  p.upd fun b => { b with borders := some ((b.borders.getD {}).set x) }
/-- `ParagraphProperty::clear_border`. elements/paragraph_property.rs:211-214. -/
def ParagraphProperty.clearBorder (p : ParagraphProperty) (x : ParagraphBorderPosition) : ParagraphProperty :=
  p.upd fun b => { b with borders := some ((b.borders.getD {}).clear x) }
/-- `ParagraphProperty::clear_all_borders`. elements/paragraph_property.rs:216-219. -/
def ParagraphProperty.clearAllBorders (p : ParagraphProperty) : ParagraphProperty :=
  p.upd fun b => { b with borders := some (b.borders.getD {}).clearAll }

/-- `ParagraphPropertyChange::new().author(a).date(d).property(p)`.
elements/paragraph_property_change.rs:27-46. -/
def ParagraphPropertyChange.new (author date : Str) (p : ParagraphProperty) : ParagraphPropertyChange :=
  ⟨escapeOwned author, date, p⟩

/-! ## Paragraphs -/

/-- `Paragraph::new`, given the id the generator returns. elements/paragraph.rs:19-28, 159-161. -/
def Paragraph.new (id : Str) : Paragraph := { id := id }
/-- `Paragraph::id`. elements/paragraph.rs:163-166. -/
def Paragraph.setId (p : Paragraph) (id : Str) : Paragraph := { p with id := id }
/-- Push a child: `add_run`, `add_hyperlink`, `add_structured_data_tag`, `add_insert`, `add_delete`,
`add_move_from`, `add_move_to`, `add_bookmark_start`, `add_bookmark_end`, `add_comment_end`,
`add_page_num`, `add_num_pages`. elements/paragraph.rs:172-175, 195-236, 245-249, 470-478. -/
def Paragraph.addChild (p : Paragraph) (c : ParagraphChild) : Paragraph := { p with children := p.children ++ [c] }
/-- `Paragraph::add_run`. elements/paragraph.rs:172-175. -/
def Paragraph.addRun (p : Paragraph) (r : Run) : Paragraph := p.addChild (.run r)
/-- `Paragraph::unshift_run`. elements/paragraph.rs:177-180. -/
def Paragraph.unshiftRun (p : Paragraph) (r : Run) : Paragraph := { p with children := .run r :: p.children }
/-- `Paragraph::wrap_by_bookmark`. elements/paragraph.rs:186-193. -/
def Paragraph.wrapByBookmark (p : Paragraph) (id : Nat) (name : Str) : Paragraph :=
  { p with children := .bookmarkStart id name :: p.children ++ [.bookmarkEnd id] }
/-- `Paragraph::add_comment_start`. elements/paragraph.rs:238-243. -/
def Paragraph.addCommentStart (p : Paragraph) (c : Comment) : Paragraph := p.addChild (.commentStart c.id c)
/-- The formatting methods apply one `ParagraphProperty` setter. elements/paragraph.rs:251-327, 335-373, 385-388. -/
def Paragraph.format (p : Paragraph) (f : ParagraphProperty → ParagraphProperty) : Paragraph :=
  { p with property := f p.property }
/-- `Paragraph::numbering`. elements/paragraph.rs:329-333. -/
def Paragraph.numbering (p : Paragraph) (id level : Nat) : Paragraph :=
  { p with property := p.property.setNumbering id level, hasNumbering := true }
/-- `Paragraph::delete`. elements/paragraph.rs:375-378. -/
def Paragraph.delete (p : Paragraph) (author date : Str) : Paragraph :=
  p.format (·.upd fun b => { b with runProperty := b.runProperty.setDelete (.new author date) })
/-- `Paragraph::insert`. elements/paragraph.rs:380-383. -/
def Paragraph.insert (p : Paragraph) (author date : Str) : Paragraph :=
  p.format (·.upd fun b => { b with runProperty := b.runProperty.setInsert (.new author date) })

/-- What `raw_text` takes from a run. elements/paragraph.rs:405-424, 429-448. -/
def RunChild.rawText : RunChild → Str
  | .text t => t
  | .tab => ['\t']
  | .ptab _ => ['\t']
  | .brk _ => ['\n']
  | .carriageReturn => ['\n']
  | _ => []

/-- What `raw_text` takes from a run in moved-to content. elements/paragraph.rs:453-457. -/
def RunChild.movedText : RunChild → Str
  | .text t => t
  | _ => []

/-- elements/paragraph.rs:401-465. -/
def ParagraphChild.rawText : ParagraphChild → Str
  | .insert i => i.children.flatMap fun
    | .run r => r.children.flatMap RunChild.rawText
    | _ => []
  | .run r => r.children.flatMap RunChild.rawText
  | .moveTo i => i.children.flatMap fun
    | .run r => r.children.flatMap RunChild.movedText
    | _ => []
  | _ => []

/-- `Paragraph::raw_text`. elements/paragraph.rs:396-468. -/
def Paragraph.rawText (p : Paragraph) : Str := p.children.flatMap ParagraphChild.rawText

/-! ## Content controls, tables -/

/-- `StructuredDataTag::add_run`. elements/structured_data_tag.rs:121-125. -/
def Sdt.addRun (s : Sdt) (r : Run) : Sdt := { s with children := s.children ++ [.run r] }
/-- `StructuredDataTag::add_paragraph`. elements/structured_data_tag.rs:127-134. -/
def Sdt.addParagraph (s : Sdt) (p : Paragraph) : Sdt :=
  { s with children := s.children ++ [.paragraph p], hasNumbering := s.hasNumbering || p.hasNumbering }
/-- `StructuredDataTag::add_table`. elements/structured_data_tag.rs:136-143. -/
def Sdt.addTable (s : Sdt) (t : Table) : Sdt :=
  { s with children := s.children ++ [.table t], hasNumbering := s.hasNumbering || t.hasNumbering }
/-- `StructuredDataTag::data_binding`. elements/structured_data_tag.rs:145-148. -/
def Sdt.setDataBinding (s : Sdt) (d : DataBinding) : Sdt :=
  { s with property := { s.property with dataBinding := some d } }
/-- `StructuredDataTag::alias`. elements/structured_data_tag.rs:150-153. -/
def Sdt.setAlias (s : Sdt) (v : Str) : Sdt := { s with property := { s.property with alias := some v } }

/-- `TableCell::add_paragraph`. elements/table_cell.rs:65-71. -/
def Cell.addParagraph (c : Cell) (p : Paragraph) : Cell :=
  { c with children := c.children ++ [.paragraph p], hasNumbering := c.hasNumbering || p.hasNumbering }
/-- `TableCell::add_table_of_contents`. elements/table_cell.rs:73-77. -/
def Cell.addToc (c : Cell) (t : Toc) : Cell := { c with children := c.children ++ [.toc t] }
/-- `TableCell::add_structured_data_tag`. elements/table_cell.rs:79-83. -/
def Cell.addSdt (c : Cell) (s : Sdt) : Cell := { c with children := c.children ++ [.sdt s] }
/-- `TableCell::add_table`. elements/table_cell.rs:85-91. -/
def Cell.addTable (c : Cell) (t : Table) : Cell :=
  { c with children := c.children ++ [.table t], hasNumbering := c.hasNumbering || t.hasNumbering }

/-- `TableRow::new`. elements/table_row.rs:34-43. -/
def Row.new (cells : List Cell) : Row := { cells := cells, hasNumbering := cells.any Cell.hasNumbering }

/-- `Table::new`. elements/table.rs:36-47. -/
def Table.new (rows : List Row) : Table := { rows := rows, hasNumbering := rows.any Row.hasNumbering }
/-- `Table::without_borders`. elements/table.rs:49-60; `TableProperty::without_borders`
elements/table_property.rs. -/
def Table.withoutBorders (rows : List Row) : Table :=
  { rows := rows, hasNumbering := rows.any Row.hasNumbering,
    property := { borders := ⟨none, none, none, none, none, none⟩ } }
/-- `Table::add_row`. elements/table.rs:62-65. -/
def Table.addRow (t : Table) (r : Row) : Table := { t with rows := t.rows ++ [r] }

/-! ## Comments, footnotes -/

/-- `Comment::new`. elements/comment.rs:59-64. -/
def Comment.new (id : Nat) : Comment := { id := id }
/-- `Comment::author`. elements/comment.rs:66-69. -/
def Comment.setAuthor (c : Comment) (s : Str) : Comment := { c with author := s }
/-- `Comment::date`. elements/comment.rs:71-74. -/
def Comment.setDate (c : Comment) (s : Str) : Comment := { c with date := s }
/-- `Comment::add_paragraph`. elements/comment.rs:76-79. -/
def Comment.addParagraph (c : Comment) (p : Paragraph) : Comment := { c with children := c.children ++ [.paragraph p] }
/-- `Comment::add_table`. elements/comment.rs:81-84. -/
def Comment.addTable (c : Comment) (t : Table) : Comment := { c with children := c.children ++ [.table t] }
/-- `Comment::parent_comment_id`. elements/comment.rs:86-89. -/
def Comment.setParent (c : Comment) (i : Nat) : Comment := { c with parent := some i }

/-- `Footnote::add_content`. elements/footnote.rs:36-39. -/
def Footnote.addContent (f : Footnote) (p : Paragraph) : Footnote := { f with content := f.content ++ [p] }

/-! ## Tables of contents, instructions -/

/-- `InstrTC::new`. elements/instr_tc.rs:21-26. -/
def InstrTC.new (s : Str) : InstrTC := { text := escapeOwned s }

/-- `TableOfContents::delete`. elements/table_of_contents.rs:106-112. -/
def Toc.setDelete (t : Toc) (author date : Str) : Toc := { t with delete := some ⟨escapeOwned author, date⟩ }

/-! ## Headers, sections, documents -/

/-- `Header::add_paragraph`, `Footer::add_paragraph`. documents/header.rs:21-27, documents/footer.rs:21-27. -/
def Header.addParagraph (h : Header) (p : Paragraph) : Header :=
  { h with children := h.children ++ [.paragraph p], hasNumbering := h.hasNumbering || p.hasNumbering }
/-- `Header::add_table`, `Footer::add_table`. documents/header.rs:29-35, documents/footer.rs:29-35. -/
def Header.addTable (h : Header) (t : Table) : Header :=
  { h with children := h.children ++ [.table t], hasNumbering := h.hasNumbering || t.hasNumbering }
/-- `Header::add_structured_data_tag`, `Footer::add_structured_data_tag`. documents/header.rs:38-45,
documents/footer.rs:38-45. -/
def Header.addSdt (h : Header) (s : Sdt) : Header :=
  { h with children := h.children ++ [.sdt s], hasNumbering := h.hasNumbering || s.hasNumbering }

/-- `Document::add_paragraph`. documents/document.rs:109-115. -/
def Document.addParagraph (d : Document) (p : Paragraph) : Document :=
  { d with children := d.children ++ [.paragraph p], hasNumbering := d.hasNumbering || p.hasNumbering }
/-- `Document::add_table`. documents/document.rs:117-123. -/
def Document.addTable (d : Document) (t : Table) : Document :=
  { d with children := d.children ++ [.table t], hasNumbering := d.hasNumbering || t.hasNumbering }
/-- `Document::add_bookmark_start`. documents/document.rs:125-129. -/
def Document.addBookmarkStart (d : Document) (id : Nat) (name : Str) : Document :=
  { d with children := d.children ++ [.bookmarkStart id name] }
/-- `Document::add_bookmark_end`. documents/document.rs:131-135. -/
def Document.addBookmarkEnd (d : Document) (id : Nat) : Document :=
  { d with children := d.children ++ [.bookmarkEnd id] }
/-- `Document::add_comment_start`. documents/document.rs:137-142. -/
def Document.addCommentStart (d : Document) (c : Comment) : Document :=
  { d with children := d.children ++ [.commentStart c.id c] }
/-- `Document::add_comment_end`. documents/document.rs:144-148. -/
def Document.addCommentEnd (d : Document) (id : Nat) : Document :=
  { d with children := d.children ++ [.commentEnd id] }
/-- `Document::add_section`. documents/document.rs:150-153. -/
def Document.addSection (d : Document) (s : Section) : Document := { d with children := d.children ++ [.section s] }
/-- `Document::add_structured_data_tag`. documents/document.rs:225-232. -/
def Document.addSdt (d : Document) (s : Sdt) : Document :=
  { d with children := d.children ++ [.sdt s], hasNumbering := d.hasNumbering || s.hasNumbering }
/-- `Document::add_table_of_contents`. documents/document.rs:234-238. -/
def Document.addToc (d : Document) (t : Toc) : Document := { d with children := d.children ++ [.toc t] }

end Docx
