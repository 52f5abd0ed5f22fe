import Verif.Spec.Reading
import Verif.Props.C16_C17_Package

/-!
# Specification: relationships and content types, as a reader finds them in a package
-/

namespace Docx.Spec

open Docx Docx.Xml

/-- A `Relationship` element. -/
structure Relation where
  id : Str
  type : Str
  target : Str
  mode : Option Str := none
deriving DecidableEq

/-- The value of an attribute without prefix. -/
def attrOf (name : Str) (as : List (QName × Str)) : Option Str :=
  (as.find? fun a => decide (a.1 = ⟨none, name⟩)).map Prod.snd

/-- The relationship an element stands for. -/
def relationOf (x : QName × List (QName × Str)) : Option Relation :=
  if x.1 = ⟨none, c!"Relationship"⟩ then
    match attrOf c!"Id" x.2, attrOf c!"Type" x.2, attrOf c!"Target" x.2 with
    | some i, some t, some g => some ⟨i, t, g, attrOf c!"TargetMode" x.2⟩
    | _, _, _ => none
  else none

/-- The relationships of a part, in document order. -/
def relationsIn (l : List REvent) : List Relation := (eventStarts l).filterMap relationOf

/-- The part name and content type an element gives. -/
def overrideOf (x : QName × List (QName × Str)) : Option (Str × Str) :=
  if x.1 = ⟨none, c!"Override"⟩ then
    match attrOf c!"PartName" x.2, attrOf c!"ContentType" x.2 with
    | some n, some t => some (n, t)
    | _, _ => none
  else none

/-- The part names with the content types given to them, in document order. -/
def overridesIn (l : List REvent) : List (Str × Str) := (eventStarts l).filterMap overrideOf

/-- The archive entry that a target of a part in the folder `word` names. -/
def targetEntry (target : Str) : Str :=
  if c!"../" <+: target then target.drop 3 else c!"word/" ++ target

/-- `es` are the entries one of the two ways of writing `d` gives. -/
def Packed (env : Env) (d : DocxFile) (w : World) (es : List Entry) : Prop :=
  (∃ w', d.pack env w = some (.ok es, w')) ∨ ∃ w', Props.buildThenPack env d w = some (es, w')

/-- The relationships a reader finds in the entry with the given name. -/
def HasRelations (es : List Entry) (name : Str) (rs : List Relation) : Prop :=
  ∃ s, ⟨name, .text s⟩ ∈ es ∧ relationsIn (readEvents s) = rs

/-- There is an entry with the given name that is not a directory. -/
def HasFile (es : List Entry) (name : Str) : Prop := ∃ c, ⟨name, c⟩ ∈ es ∧ c ≠ .directory

end Docx.Spec
