import Verif.Model.Api

/-!
# The methods of `Section`
-/

namespace Docx

/-- `Section::add_paragraph`. elements/section.rs:142-148. -/
def Section.addParagraph (s : Section) (p : Paragraph) : Section :=
  { s with children := s.children ++ [.paragraph p], hasNumbering := s.hasNumbering || p.hasNumbering }
/-- `Section::add_table`. elements/section.rs:150-156. -/
def Section.addTable (s : Section) (t : Table) : Section :=
  { s with children := s.children ++ [.table t], hasNumbering := s.hasNumbering || t.hasNumbering }
/-- `Section::add_bookmark_start`. elements/section.rs:158-162. -/
def Section.addBookmarkStart (s : Section) (id : Nat) (name : Str) : Section :=
  { s with children := s.children ++ [.bookmarkStart id name] }
/-- `Section::add_bookmark_end`. elements/section.rs:164-168. -/
def Section.addBookmarkEnd (s : Section) (id : Nat) : Section := { s with children := s.children ++ [.bookmarkEnd id] }
/-- `Section::add_comment_start`. elements/section.rs:170-175. -/
def Section.addCommentStart (s : Section) (c : Comment) : Section := { s with children := s.children ++ [.commentStart c.id c] }
/-- `Section::add_comment_end`. elements/section.rs:177-181. -/
def Section.addCommentEnd (s : Section) (id : Nat) : Section := { s with children := s.children ++ [.commentEnd id] }
/-- `Section::header`. elements/section.rs:183-186. -/
def Section.setHeader (s : Section) (h : Header) : Section := { s with tempHeader := some h }
/-- `Section::first_header`. elements/section.rs:188-191. -/
def Section.setFirstHeader (s : Section) (h : Header) : Section := { s with tempFirstHeader := some h }
/-- `Section::even_header`. elements/section.rs:193-196. -/
def Section.setEvenHeader (s : Section) (h : Header) : Section := { s with tempEvenHeader := some h }
/-- `Section::footer`. elements/section.rs:198-201. -/
def Section.setFooter (s : Section) (h : Header) : Section := { s with tempFooter := some h }
/-- `Section::first_footer`. elements/section.rs:203-206. -/
def Section.setFirstFooter (s : Section) (h : Header) : Section := { s with tempFirstFooter := some h }
/-- `Section::even_footer`. elements/section.rs:208-211. -/
def Section.setEvenFooter (s : Section) (h : Header) : Section := { s with tempEvenFooter := some h }
/-- The layout methods change the scalars of the section property. elements/section.rs:123-140. -/
def Section.layout (s : Section) (f : SectionBase → SectionBase) : Section :=
  { s with property := { s.property with base := f s.property.base } }

end Docx
