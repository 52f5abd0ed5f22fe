import Verif.Model.ReadBase
import Verif.Model.Docx

/-!
# Reading relationships and looking up zip entries

Models of `reader/rels.rs`, `reader/document_rels.rs`, `reader/header_or_footer_rels.rs` and `reader/read_zip.rs`, with the
functions of `std::path` they use.
-/

namespace Docx

open Docx.Xml

/-! ## Paths (`std::path` on Unix) -/

/-- `Path::join`: an absolute path replaces the first one. -/
def pathJoin (dir p : Str) : Str :=
  if p.head? = some '/' then p
  else if dir = [] ∨ dir.getLast? = some '/' then dir ++ p
  else dir ++ '/' :: p

/-- A text without the slashes at its end. -/
def trimSlashes (p : Str) : Str := (p.reverse.dropWhile (· = '/')).reverse

/-- The text up to and with the last slash, and the text behind it. -/
def splitLast (p : Str) : Str × Str :=
  ((p.reverse.dropWhile (· ≠ '/')).reverse, (p.reverse.takeWhile (· ≠ '/')).reverse)

/-- `Path::parent`: none for the empty path and for the root. Simplification: a last component `.` is not passed over. -/
def pathParent (p : Str) : Option Str :=
  let p := trimSlashes p
  if p = [] then none
  else
    let d := (splitLast p).1
    if trimSlashes d = [] then some (d.take 1) else some (trimSlashes d)

/-- `Path::file_name`. The same simplification. -/
def fileName (p : Str) : Option Str :=
  let n := (splitLast (trimSlashes p)).2
  if n = [] ∨ n = c!".." then none else some n

/-- The part of a file name before its last dot, if there is a dot behind the first character. -/
def stemOf (n : Str) : Str :=
  let r := (n.reverse.dropWhile (· ≠ '.')).reverse.dropLast
  if r = [] then n else r

/-- `Path::file_stem`. -/
def fileStem (p : Str) : Option Str := (fileName p).map stemOf

/-- `Path::with_extension`, for a path whose last component is not followed by a slash. -/
def withExtension (p ext : Str) : Str :=
  match fileName p with
  | none => p
  | some n => (splitLast p).1 ++ stemOf n ++ '.' :: ext

/-- `find_rels_filename`. reader/rels.rs:46-59. -/
def relsFileName (p : Str) : Option Str := do
  let dir ← pathParent p
  let base ← fileStem p
  some (withExtension (pathJoin (pathJoin dir c!"_rels") base) c!"xml.rels")

/-- A component of a path, ordered as `std::path::Component` is: the root, `.` at the start, `..`, a name. -/
inductive PathPart where
  | root
  | here
  | up
  | name (s : Str)
deriving DecidableEq

/-- The text between slashes. -/
def splitSlash : Str → List Str
  | [] => [[]]
  | c :: s =>
    if c = '/' then [] :: splitSlash s
    else
      match splitSlash s with
      | [] => [[c]]
      | a :: l => (c :: a) :: l

/-- `Path::components`: empty pieces are passed over, and `.` except at the start. -/
def pathParts (p : Str) : List PathPart :=
  (if p.head? = some '/' then [.root] else if (splitSlash p).head? = some c!"." then [.here] else [])
  ++ ((splitSlash p).filter fun s => s ≠ [] ∧ s ≠ c!".").map fun s => if s = c!".." then .up else .name s

/-- `Ord` of `String`: by code points (the order of the UTF-8 bytes is the same). -/
def compareStr : Str → Str → Ordering
  | [], [] => .eq
  | [], _ :: _ => .lt
  | _ :: _, [] => .gt
  | a :: s, b :: t => if a.toNat < b.toNat then .lt else if b.toNat < a.toNat then .gt else compareStr s t

/-- `Ord` of `Component`. -/
def comparePart : PathPart → PathPart → Ordering
  | .root, .root => .eq
  | .root, _ => .lt
  | _, .root => .gt
  | .here, .here => .eq
  | .here, _ => .lt
  | _, .here => .gt
  | .up, .up => .eq
  | .up, _ => .lt
  | _, .up => .gt
  | .name s, .name t => compareStr s t

/-- Components one after the other. -/
def compareParts : List PathPart → List PathPart → Ordering
  | [], [] => .eq
  | [], _ :: _ => .lt
  | _ :: _, [] => .gt
  | a :: s, b :: t => (comparePart a b).then (compareParts s t)

/-- `Ord` of `PathBuf`. -/
def comparePath (p q : Str) : Ordering := compareParts (pathParts p) (pathParts q)

/-- `Ord` of `Option<String>`. -/
def compareMode : Option Str → Option Str → Ordering
  | none, none => .eq
  | none, some _ => .lt
  | some _, none => .gt
  | some s, some t => compareStr s t

/-! ## Relationships -/

/-- `(RId, PathBuf, Option<String>)`. reader/rels.rs:9. -/
structure Target where
  rid : Str
  path : Str
  mode : Option Str := none
deriving DecidableEq

/-- `Ord` of a target: a tuple. -/
def compareTarget (a b : Target) : Ordering :=
  ((compareStr a.rid b.rid).then (comparePath a.path b.path)).then (compareMode a.mode b.mode)

/-- `BTreeSet::insert`: an equal element stays. -/
def insertTarget (t : Target) : List Target → List Target
  | [] => [t]
  | u :: us =>
    match compareTarget t u with
    | .lt => t :: u :: us
    | .eq => u :: us
    | .gt => u :: insertTarget t us

/-- `ReadRels`, the map from types to targets. reader/rels.rs:9. The map is only asked for the value of a key, so it is kept in
the order in which the keys came. -/
abbrev ReadRels := List (Str × List Target)

/-- `rels.entry(type).or_default().insert(…)`. reader/rels.rs:96-98. -/
def insertRel (ty : Str) (t : Target) : ReadRels → ReadRels
  | [] => [(ty, [t])]
  | (k, ts) :: m => if k = ty then (k, insertTarget t ts) :: m else (k, ts) :: insertRel ty t m

/-- `target_paths`. reader/document_rels.rs:27-33, reader/header_or_footer_rels.rs:27-33. -/
def ReadRels.targets (m : ReadRels) (ty : Str) : Option (List Target) := (m.find? fun e => e.1 = ty).map Prod.snd

/-- The values of a `Relationship` element. reader/rels.rs:73-88. -/
structure RelAttrs where
  type : Str := []
  rid : Str := []
  mode : Option Str := none
  target : Str := []

/-- One attribute of a `Relationship` element. reader/rels.rs:77-88. -/
def RelAttrs.add (r : RelAttrs) (a : QName × Str) : RelAttrs :=
  if a.1.loc = c!"Type" then { r with type := a.2 }
  else if a.1.loc = c!"Target" then { r with target := a.2 }
  else if a.1.loc = c!"Id" then { r with rid := a.2 }
  else if a.1.loc = c!"TargetMode" then { r with mode := some a.2 }
  else r

/-- The target of a relationship. reader/rels.rs:90-98. -/
def RelAttrs.toTarget (r : RelAttrs) (dir : Str) : Target where
  rid := r.rid
  path := if c!"hyperlink".isSuffixOf r.type then r.target else pathJoin dir r.target
  mode := r.mode

/-- The loop of `read_rels_xml`. reader/rels.rs:66-112. -/
def relsLoop (dir : Str) : Loop ReadRels where
  start m q as es :=
    if elementOf q.loc = .relationship then
      let r := as.foldl RelAttrs.add {}
      .ok (insertRel r.type (r.toTarget dir) m) es
    else .ok m es
  close := closesAt .relationships

/-- `read_rels_xml`. reader/rels.rs:62-114. -/
def readRelsXml (n : Nat) (dir text : Str) : Read ReadRels := (relsLoop dir).run n [] (readEvents text)

/-- The loop of `Rels::from_xml`: the depth and the relationships so far. reader/rels.rs:14-43. `for e in parser` ends at the
end of the document. -/
def packageRelsLoop : Loop (Int × List (Str × Str × Str)) where
  start s _ as es :=
    if s.1 = 1 then
      let r := as.foldl RelAttrs.add {}
      .ok (s.1 + 1, s.2 ++ [(r.type, r.rid, r.target)]) es
    else .ok (s.1 + 1, s.2) es
  close s _ := some (s.1 - 1, s.2)
  atEnd := true

/-- `Rels::from_xml`. reader/rels.rs:11-44. -/
def readPackageRels (n : Nat) (text : Str) : Read Rels :=
  (packageRelsLoop.run n (0, []) (readEvents text)).map fun s => ⟨s.2⟩

/-- `Rels::find_target`. documents/rels.rs:56-58. -/
def Rels.findTarget (r : Rels) (ty : Str) : Option (Str × Str × Str) := r.rels.find? fun x => x.1 = ty

/-! ## The archive -/

/-- The name under which an entry is looked for. reader/read_zip.rs:10-16. -/
def entryName (name : Str) : Str := (name.map fun c => if c = '\\' then '/' else c).dropWhile (· = '/')

/-- The text of an entry without a byte order mark. reader/read_zip.rs:22-25. -/
def dropBom : Str → Str
  | [] => []
  | c :: s => if c.toNat = 0xfeff then s else c :: s

/-- The same for bytes. -/
def dropBomBytes (b : Bytes) : Bytes := if [0xef, 0xbb, 0xbf].isPrefixOf b then b.drop 3 else b

/-- The contents of an entry. -/
def Content.withoutBom : Content → Content
  | .directory => .bytes []
  | .text s => .text (dropBom s)
  | .bytes b => .bytes (dropBomBytes b)

/-- `read_zip`. reader/read_zip.rs:5-27. `ZipArchive::by_name` gives the last entry with the name. -/
def readZip (es : List Entry) (name : Str) : Option Content :=
  ((es.filter fun e => e.name = entryName name).getLast?).map fun e => e.content.withoutBom

/-- The text of an entry. Simplification: entries made of bytes (pictures) are never asked for as text. -/
def readText (es : List Entry) (name : Str) : Option Str :=
  match readZip es name with
  | some (.text s) => some s
  | _ => none

/-- How a function that reads a file ends: with a value, an error, a panic, or not within the given number of steps. -/
inductive Got (α : Type) where
  | ok (a : α)
  | err
  | panic
  | running

/-- `?`. -/
def Got.bind {α β : Type} : Got α → (α → Got β) → Got β
  | .ok a, f => f a
  | .err, _ => .err
  | .panic, _ => .panic
  | .running, _ => .running

/-- `if let Ok(x) = …` and `unwrap_or_default`: an error gives another value. -/
def Got.orElse {α : Type} (b : α) : Got α → Got α
  | .err => .ok b
  | r => r

/-- The value a reader of events gives. -/
def Read.got {α : Type} : Read α → Got α
  | .ok a _ => .ok a
  | .err _ => .err
  | .panic => .panic
  | .running => .running

/-- `ok_or(…)?` and `?` on the lookup of an entry. -/
def Got.ofOption {α : Type} : Option α → Got α
  | some a => .ok a
  | none => .err

/-- `read_document_rels` and `read_header_or_footer_rels`: the relationships of the part with the given path.
reader/document_rels.rs:36-49, reader/header_or_footer_rels.rs:36-51. -/
def readPartRels (n : Nat) (es : List Entry) (part : Str) : Got ReadRels :=
  (Got.ofOption (pathParent part)).bind fun dir =>
  (Got.ofOption (relsFileName part)).bind fun p =>
  (Got.ofOption (readText es p)).bind fun s => (readRelsXml n dir s).got

end Docx
