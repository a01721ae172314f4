import Verif.Spec.Markdown

/-!
# What a Markdown requirement document says, completely

A document is a preamble and sections.  A section is a requirement heading and a body: perhaps prose, then attributes.
An attribute is a text that goes on up to the next attribute, or a list of references that ends with a blank line.
Everything here is about lists of lines; there are no states.  The body of a section may be cut off: by a heading that
is no requirement heading, or by a line that should be something else.
-/

namespace Reqtrace.Spec

/-- The place of a line. -/
def lineOf (path : Path) (n : Nat) : Location := ⟨path, some (.line n)⟩

/-- The value of an attribute. -/
inductive Value where
  | text (s : Str)
  | refs (rs : List Reference)

/-- An attribute of a section, with the number of its first line. -/
structure Attr where
  line : Nat
  name : Str
  value : Value

/-- How the body of a section ends: at the end of the section, at another heading, or at a line that is wrong. -/
inductive Cut where
  | no
  | heading
  | wrong (line : Nat) (what : Str)

/-- `ps` are the parts of `s` between the commas. -/
inductive Parts : Str → List Str → Prop
  | one (p) : ',' ∉ p → Parts p [p]
  | more (p) {s ps} : ',' ∉ p → Parts s ps → Parts (p ++ ',' :: s) (p :: ps)

/-- The ids among the parts: those that are not blank, trimmed. -/
inductive PartIds : List Str → List Str → Prop
  | nil : PartIds [] []
  | blank {p ps ids} : Blank p → PartIds ps ids → PartIds (p :: ps) ids
  | id {p ps id ids} : TrimsTo p id → id ≠ [] → PartIds ps ids → PartIds (p :: ps) (id :: ids)

/-- The references of the items of a list, one per line. -/
inductive RefItems (U : Unicode) (path : Path) : Nat → List Str → List Reference → Prop
  | nil (n) : RefItems U path n [] []
  | cons {n l ls id title refs} : l.head? ≠ some '#' → RefLine U l id title → RefItems U path (n + 1) ls refs →
      RefItems U path n (l :: ls) (⟨id, title, lineOf path n⟩ :: refs)

/-- `start` and `items` are a list of references: `Covers:` or `Depends:`, perhaps with ids separated by commas, and a
reference in each of the lines below. -/
def RefList (U : Unicode) (path : Path) (n : Nat) (start : Str) (items : List Str) (name : Str)
    (refs : List Reference) : Prop :=
  ∃ v t ps ids more, AttrLine start name v ∧ (name = c!"Covers" ∨ name = c!"Depends") ∧
    TrimsTo v t ∧ Parts t ps ∧ PartIds ps ids ∧ RefItems U path (n + 1) items more ∧
    refs = ids.map (fun id => ⟨id, none, lineOf path n⟩) ++ more

/-- No lines follow, or a heading. -/
def AtEnd (ls : List Str) : Prop := ls = [] ∨ ∃ l t, ls = l :: t ∧ l.head? = some '#'

/-- An attribute follows. -/
def AtAttr (ls : List Str) : Prop := ∃ l t a v, ls = l :: t ∧ AttrLine l a v

/-- The attributes of lines that should have nothing else; the first line has number `n`. -/
inductive Attrs (U : Unicode) (path : Path) : Nat → List Str → List Attr → Cut → Prop
  | nil (n) : Attrs U path n [] [] .no
  | heading (n l ls) : l.head? = some '#' → Attrs U path n (l :: ls) [] .heading
  | skip {n ls as cut} : Attrs U path (n + 1) ls as cut → Attrs U path n (['\n'] :: ls) as cut
  | wrong (n l ls) : l ≠ ['\n'] → l.head? ≠ some '#' → (∀ a v, ¬ AttrLine l a v) →
      Attrs U path n (l :: ls) [] (.wrong n c!"Expected an Attribute line like `Comment:`")
  | text {n l a v more rest as cut} : AttrLine l a v → a ≠ c!"Covers" → a ≠ c!"Depends" →
      (∀ m ∈ more, m.head? ≠ some '#' ∧ ∀ a v, ¬ AttrLine m a v) → (AtEnd rest ∨ AtAttr rest) →
      Attrs U path (n + 1 + more.length) rest as cut →
      Attrs U path n (l :: (more ++ rest)) (⟨n, a, .text (v ++ more.flatten)⟩ :: as) cut
  | refs {n l a items refs rest as cut} : RefList U path n l items a refs → AtEnd rest →
      Attrs U path (n + 1 + items.length) rest as cut →
      Attrs U path n (l :: (items ++ rest)) (⟨n, a, .refs refs⟩ :: as) cut
  | refsBlank {n l a items refs b rest as cut} : RefList U path n l items a refs → Blank b →
      Attrs U path (n + 1 + items.length + 1) rest as cut →
      Attrs U path n (l :: (items ++ b :: rest)) (⟨n, a, .refs refs⟩ :: as) cut
  | refsWrong {n l a items refs b rest} : RefList U path n l items a refs → ¬ Blank b → b.head? ≠ some '#' →
      (∀ id t, ¬ RefLine U b id t) →
      Attrs U path n (l :: (items ++ b :: rest)) [⟨n, a, .refs refs⟩]
        (.wrong (n + 1 + items.length) c!"Expected a Reference like `* REQ_ID: Title`")

/-- The attributes of the body of a section.  Prose at the start is the attribute `Description`; it goes on up to a
heading or up to an attribute below an empty line. -/
inductive Body (U : Unicode) (path : Path) : Nat → List Str → List Attr → Cut → Prop
  | skip {n ls as cut} : Body U path (n + 1) ls as cut → Body U path n (['\n'] :: ls) as cut
  | attrs {n ls as cut} : AtEnd ls ∨ AtAttr ls → Attrs U path n ls as cut → Body U path n ls as cut
  | prose {n l more rest as cut} : l ≠ ['\n'] → l.head? ≠ some '#' → (∀ a v, ¬ AttrLine l a v) →
      (∀ m ∈ more, m.head? ≠ some '#') → NoAttrPara false more →
      (AtEnd rest ∨ AtAttr rest ∧ more.getLast? = some ['\n']) →
      Attrs U path (n + 1 + more.length) rest as cut →
      Body U path n (l :: (more ++ rest)) (⟨n, c!"Description", .text (l ++ descFrom l more)⟩ :: as) cut

/-- A section: line number, id and title of the heading, and the body. -/
structure Section where
  line : Nat
  id : Str
  title : Str
  attrs : List Attr
  cut : Cut

/-- The sections of lines that start with a requirement heading (or of no lines). -/
inductive Sections (U : Unicode) (path : Path) : Nat → List Str → List Section → Prop
  | nil (n) : Sections U path n [] []
  | cons {n h level id title body rest as cut ss} : ReqHeading U h level id title →
      (∀ l ∈ body, NoHeading U l) → Ends U rest → Body U path (n + 1) body as cut →
      Sections U path (n + 1 + body.length) rest ss →
      Sections U path n (h :: (body ++ rest)) (⟨n, id, title, as, cut⟩ :: ss)

/-- The sections of a document. -/
def Document (U : Unicode) (path : Path) (ls : List Str) (ss : List Section) : Prop :=
  ∃ pre rest, ls = pre ++ rest ∧ (∀ l ∈ pre, NoHeading U l) ∧ Ends U rest ∧
    Sections U path (pre.length + 1) rest ss

/-- The value of an attribute: the last one given counts. -/
def lastOf (as : List Attr) (name : Str) : Option Value :=
  (as.filter (fun a => a.name = name)).getLast?.map Attr.value

/-- An attribute has been given, with at least one reference if it is a list. -/
def alreadyGiven (as : List Attr) (name : Str) : Bool :=
  match lastOf as name with
  | none => false
  | some (.text _) => true
  | some (.refs rs) => !rs.isEmpty

/-- The requirement is the one of the section. -/
structure IsRequirement (path : Path) (s : Section) (r : Requirement) : Prop where
  id : r.id = s.id
  title : r.title = some s.title
  location : r.location = lineOf path s.line
  covers : r.covers = match lastOf s.attrs c!"Covers" with
    | some (.refs rs) => rs
    | _ => []
  depends : r.depends = match lastOf s.attrs c!"Depends" with
    | some (.refs rs) => rs
    | _ => []
  tags : r.tags = []
  attributes : ∀ a, r.attributes.get a = match lastOf s.attrs a with
    | some (.text v) => some v
    | _ => none

/-- The errors for attributes that are repeated; `before` are those above. -/
def repeated (path : Path) (id : Str) : List Attr → List Attr → List Error
  | _, [] => []
  | before, a :: as =>
    (if alreadyGiven before a.name then [.duplicateAttribute (lineOf path a.line) a.name id] else []) ++
      repeated path id (before ++ [a]) as

/-- The error for the line at which the body of a section is cut off. -/
def cutError (path : Path) : Cut → List Error
  | .wrong n what => [.format (lineOf path n) what]
  | _ => []

/-- The errors of a section. -/
def Section.errors (path : Path) (s : Section) : List Error :=
  repeated path s.id [] s.attrs ++ cutError path s.cut

/-- The sections that have a requirement in the result: all, but the last one only if the text could be read to its
end and the body is not cut off. -/
def kept (failure : Option Str) : List Section → List Section
  | [] => []
  | [s] => match failure, s.cut with
    | none, .no => [s]
    | _, _ => []
  | s :: t :: ss => s :: kept failure (t :: ss)

/-- One requirement per section. -/
inductive AreRequirements (path : Path) : List Section → List Requirement → Prop
  | nil : AreRequirements path [] []
  | cons {s r ss rs} : IsRequirement path s r → AreRequirements path ss rs →
      AreRequirements path (s :: ss) (r :: rs)

/-- All errors of a document. -/
def documentErrors (path : Path) (failure : Option Str) (ss : List Section) : List Error :=
  ss.flatMap (Section.errors path) ++ match failure with
    | some e => [.io path e]
    | none => []

end Reqtrace.Spec
