import Verif.Json
import Verif.Formatters
import Verif.Spec.Report
import Verif.Spec.Controller

/-!
# The texts of the reports, to the last character

What the model leaves open are, as everywhere, the functions of `FmtEnv`: lower case, `Debug` texts and the order of
errors with equal texts.
-/

namespace Reqtrace.Spec

/-! ## Small texts -/

/-- A place: the file, and the line, line and column or name in it. -/
def placeText (loc : Location) : Str :=
  loc.file ++ match loc.locationInFile with
    | none => []
    | some (.line n) => c!":" ++ natStr n
    | some (.lineAndColumn n k) => c!":" ++ natStr n ++ c!":" ++ natStr k
    | some (.string s) => c!":" ++ s

/-- The title or a replacement. -/
def titleOr (other : Str) (r : Requirement) : Str :=
  match r.title with
  | some t => t
  | none => other

/-- The message of an error, by which errors are sorted in the JSON export. -/
def message : Error → Str
  | .format loc err => c!"Invalid Format " ++ placeText loc ++ c!": " ++ err
  | .duplicateRequirement a b => c!"Duplicate Requirements: " ++ a.id ++ c!" " ++ b.id
  | .duplicateAttribute loc attr req => c!"Duplicate Attribute " ++ attr ++ c!" when parsing " ++ req ++ c!" at " ++ placeText loc
  | .io path err => c!"IO Error: " ++ err ++ c!" in " ++ path
  | .config err => c!"Configuration Error  " ++ err
  | .duplicateArtefact a => c!"Artefact added twice: " ++ a
  | .unknownArtefact a => c!"Unknown Artefact: " ++ a
  | .coveredWithWrongTitle upper lower t loc =>
    c!"Requirement Covered with Wrong Title " ++ upper.id ++ c!" <- " ++ lower.id ++ c!" with " ++ t ++ c!" at " ++ placeText loc
  | .dependWithWrongTitle upper lower t loc =>
    c!"Requirement Depended with Wrong Title " ++ upper.id ++ c!" -> " ++ lower.id ++ c!" with " ++ t ++ c!" at " ++ placeText loc
  | .referencedWithoutTitle r loc => c!"Requirement referenced without title " ++ r.id ++ c!" at " ++ placeText loc
  | .requirementWithoutTitle r => c!"Requirement " ++ r.id ++ c!" must have a title"
  | .dependOnUnknownRequirement r id loc =>
    c!"Requirement " ++ r.id ++ c!" depends on unknown Requirement " ++ id ++ c!" at " ++ placeText loc
  | .coversUnknownRequirement r id loc =>
    c!"Requirement " ++ r.id ++ c!" covers unknown Requirement " ++ id ++ c!" at " ++ placeText loc
  | .emptyGraph => c!"Empty Tracing Graph"
  | .unusedRelation rel => c!"No requirements covered by relation " ++ relationText rel

/-- `l'` is `l`, sorted by a text; elements with the same text keep their order. -/
def SortedBy {α : Type} (key : α → Str) (l l' : List α) : Prop :=
  l'.Perm l ∧ l'.Pairwise (fun a b => compare (key a) (key b) ≠ .gt) ∧
    ∀ k, l'.filter (fun a => key a = k) = l.filter (fun a => key a = k)

/-- A character in a quoted text: escaped, as it is, or by its number. -/
def quotedChar (plain : Char → Bool) (c : Char) : Str :=
  match [('"', c!"\\\""), ('\\', c!"\\\\"), ('\n', c!"\\n"), ('\r', c!"\\r"), ('\t', c!"\\t"), ('\x00', c!"\\0")].lookup c with
  | some t => t
  | none => if plain c then [c] else c!"\\u{" ++ Nat.toDigits 16 c.toNat ++ c!"}"

/-- A quoted text. -/
def quoted (env : FmtEnv) (s : Str) : Str := c!"\"" ++ s.flatMap (quotedChar env.plain) ++ c!"\""

/-- The name of an artefact in a message. -/
def quotedId (env : FmtEnv) (a : ArtefactId) : Str := c!"ArtefactId(" ++ quoted env a ++ c!")"

/-! ## The list for ctags -/

def TagsText (g : Graph) (text : Str) : Prop :=
  ∃ unsorted sorted : List Str, TagLines (requirementsOf g.artefacts) unsorted ∧ SortedBy (fun s => s) unsorted sorted ∧
    text = c!"!_TAG_FILE_SORTED\t1\t/0=unsorted, 1=sorted, 2=foldcase/\n" ++ c!"!_TAG_PROGRAM_NAME\treqtrace/\n" ++
      c!"!_TAG_PROGRAM_URL\thttps://github.com/wonkodv/reqtrace/\n" ++ c!"!_TAG_PROGRAM_VERSION\t0\t//\n" ++ sorted.flatten

/-! ## The report in the form of compiler errors -/

/-- What a line is about, and what it says. -/
abbrev GnuLine := Str × Str

/-- The lines for an error. -/
def gnuLines (env : FmtEnv) : Error → List GnuLine
  | .format loc err => [(placeText loc, err)]
  | .duplicateRequirement first again =>
    [(placeText again.location, c!"Duplicate Requirement: " ++ first.id), (placeText first.location, c!"note: previously seen here")]
  | .duplicateAttribute loc attr req => [(placeText loc, req ++ c!" has duplicate Attribute: " ++ attr)]
  | .io path err => [(path, c!"IO Error: " ++ err)]
  | .coveredWithWrongTitle upper _ t loc =>
    [(placeText loc, upper.id ++ c!" covered with wrong title. Expected " ++ quoted env (titleOr c!"<no title>" upper) ++
      c!", actual " ++ quoted env t), (placeText upper.location, c!"note: Defined here")]
  | .dependWithWrongTitle _ lower t loc =>
    [(placeText loc, lower.id ++ c!" depended with wrong title. Expected " ++ quoted env (titleOr c!"<no title>" lower) ++
      c!", actual " ++ quoted env t), (placeText lower.location, c!"note: Defined here")]
  | .referencedWithoutTitle r loc =>
    [(placeText loc, c!"should reference " ++ r.id ++ c!" with title " ++ quoted env (titleOr c!"<no title>" r))]
  | .requirementWithoutTitle r =>
    [(placeText r.location, c!"requirement " ++ r.id ++ c!" without title in artefact that requires referencing with title")]
  | .dependOnUnknownRequirement r id loc => [(placeText loc, r.id ++ c!" Depends on unknown requirement " ++ id)]
  | .coversUnknownRequirement r id loc => [(placeText loc, r.id ++ c!" Covers unknown requirement " ++ id)]
  | .config t => [(c!"Error in config file", c!"Config(" ++ quoted env t ++ c!")")]
  | .duplicateArtefact a => [(c!"Error in config file", c!"DuplicateArtefact(" ++ quoted env a ++ c!")")]
  | .unknownArtefact a => [(c!"Error in config file", c!"UnknownArtefact(" ++ quotedId env a ++ c!")")]
  | .emptyGraph => [(c!"Error in config file", c!"EmptyGraph")]
  | .unusedRelation rel => [(c!"Error in config file", c!"UnusedRelation(Relation { upper: " ++ quotedId env rel.upper ++
      c!", lower: [" ++ List.intercalate c!", " (rel.lower.map (quotedId env)) ++ c!"] })")]

def gnuText (lines : List GnuLine) : Str := lines.flatMap fun l => l.1 ++ c!": " ++ l.2 ++ c!"\n"

/-- Lines about requirements of an artefact. -/
def gnuAbout (g : Graph) (a : ArtefactId) (what : Str) (ids : List RequirementId) : List GnuLine :=
  ids.flatMap fun id => (g.artefacts.get a).toList.flatMap fun art => (art.requirements.get id).toList.map fun r =>
    (placeText r.location, id ++ what)

def gnuReport (env : FmtEnv) (g : Graph) : Str :=
  c!"# Parsing Errors\n" ++ gnuText ((errorsOf g.artefacts).flatMap (gnuLines env)) ++
  c!"# Tracing Errors\n" ++ gnuText ((traced g).errors.flatMap (gnuLines env)) ++
  c!"# Uncovered Requirement\n" ++ g.relations.flatMap (fun rel =>
    c!"## " ++ relationText rel ++ c!"\n" ++ gnuText (gnuAbout g rel.upper c!" Uncovered" (uncovered g rel))) ++
  c!"Derived Requirement\n" ++ g.artefacts.entries.flatMap (fun e =>
    c!"## " ++ e.1 ++ c!"\n" ++ gnuText (gnuAbout g e.1 c!" Derived" (derived g e.1 e.2)))

/-! ## The Markdown reports -/

/-- The anchor for a text in lower case: blanks become `-`, what may not stand in an anchor is left out. -/
inductive Anchor : Str → Str → Prop
  | nil : Anchor [] []
  | blank {s t} : Anchor s t → Anchor (' ' :: s) ('-' :: t)
  | kept {c s t} : AnchorChar c → Anchor s t → Anchor (c :: s) (c :: t)
  | dropped {c s t} : c ≠ ' ' → ¬ AnchorChar c → Anchor s t → Anchor (c :: s) t

/-- The link to a requirement. -/
inductive Link (env : FmtEnv) (r : Requirement) : Str → Prop
  | titled {t a} : r.title = some t → Anchor (env.lower (r.id ++ c!"-" ++ t)) a →
      Link env r (c!"[" ++ r.id ++ c!"](#" ++ a ++ c!" \"" ++ t ++ c!"\")")
  | untitled {a} : r.title = none → Anchor (env.lower r.id) a → Link env r (c!"[" ++ r.id ++ c!"](#" ++ a ++ c!")")

/-- An item of the list of errors; `link` gives the links to requirements. -/
def markdownError (link : Requirement → Str) : Error → Str
  | .format loc err => c!"*   Format Error: " ++ err ++ c!"\n    in " ++ placeLink loc ++ c!"\n"
  | .duplicateRequirement a b => c!"*   Duplicate Requirement: " ++ a.id ++ c!"\n    first seen in " ++ placeLink b.location ++
      c!"\n    then again in " ++ placeLink a.location ++ c!"\n"
  | .duplicateAttribute loc attr req =>
    c!"*   Duplicate Attribute: " ++ attr ++ c!" when parsing " ++ req ++ c!"\n    " ++ placeLink loc ++ c!"\n"
  | .io path err => c!"*   IO Error: " ++ err ++ c!"\n   " ++ path ++ c!"\n"
  | .config err => c!"*   Config Error: " ++ err ++ c!"\n"
  | .duplicateArtefact a => c!"*   Duplicate Artefact: " ++ a ++ c!"\n"
  | .unknownArtefact a => c!"*    Unknown Artefact: " ++ a ++ c!"\n"
  | .coveredWithWrongTitle upper lower t loc =>
    c!"*   Requirement covered with wrong title:\n" ++
    c!"    *   Upper Requirement " ++ link upper ++ c!"\n" ++
    c!"    *   Lower Requirement " ++ link lower ++ c!"\n" ++
    c!"    *   Title of Upper Requirement:\n" ++
    c!"        *    ````" ++ titleOr [] upper ++ c!"````\n" ++
    c!"    *   Title used to cover it:\n" ++
    c!"        *    ````" ++ t ++ c!"````\n" ++
    c!"    *  At: " ++ placeText loc ++ c!"\n"
  | .dependWithWrongTitle upper lower t loc =>
    c!"*   Requirement depended on with wrong title:\n" ++
    c!"    *   Upper Requirement " ++ link upper ++ c!"\n" ++
    c!"    *   Lower Requirement " ++ link lower ++ c!"\n" ++
    c!"    *   Title of Lower Requirement:\n" ++
    c!"        *    ````" ++ titleOr [] lower ++ c!"````\n" ++
    c!"    *   Title used to cover it:\n" ++
    c!"        *    ````" ++ t ++ c!"````\n" ++
    c!"    *  At: " ++ placeText loc ++ c!"\n"
  | .dependOnUnknownRequirement r id loc =>
    c!"*   " ++ link r ++ c!" depends on unknown Requirement " ++ id ++ c!"\n    " ++ placeLink loc ++ c!"\n"
  | .coversUnknownRequirement r id loc =>
    c!"*   " ++ link r ++ c!" covers unknown Requirement " ++ id ++ c!"\n    " ++ placeLink loc ++ c!"\n"
  | .emptyGraph => c!"Tracing Graph is empty\n"
  | .unusedRelation rel =>
    c!"*   No requirement was traced along the relation " ++ relationText rel ++ c!". (Configuration error?)\n"
  | .referencedWithoutTitle r loc => c!"*   " ++ link r ++ c!" covered without title\n    " ++ placeText loc ++ c!"\n"
  | .requirementWithoutTitle r =>
    c!"*   Requirement " ++ link r ++ c!" without title in artefact that requires referencing with title\n"

/-- The section about errors of the input. -/
def inputErrorsText (link : Requirement → Str) (g : Graph) : Str :=
  problemSection c!"Input Errors" ((g.artefacts.entries.filter (fun e => e.2.errors ≠ [])).map fun e =>
    (e.2.id, e.2.errors.flatMap (markdownError link)))

/-- The Markdown list of requirements. -/
def MarkdownList (env : FmtEnv) (g : Graph) (text : Str) : Prop :=
  ∃ (link entry : Requirement → Str) (reqs : List Requirement), (∀ r, Link env r (link r)) ∧
    (∀ r, RequirementEntry r (entry r)) ∧ SortedBy Requirement.id (requirementsOf g.artefacts) reqs ∧
    text = inputErrorsText link g ++ reqs.flatMap entry

/-- Each text once, at its first place. -/
def firsts : List Str → List Str
  | [] => []
  | t :: l => t :: (firsts l).filter (· ≠ t)

/-- The section about errors of tracing. -/
def tracingErrorsText (link : Requirement → Str) (g : Graph) : Str :=
  if (traced g).errors = [] then []
  else c!"\n\n# Tracing Errors\n\n" ++ (firsts ((traced g).errors.map (markdownError link))).flatten

/-- The requirement that the report shows for an id: that of the last artefact that has one, with the id of the
artefact. -/
def shown (g : Graph) (id : RequirementId) : Option (ArtefactId × Requirement) :=
  (g.artefacts.entries.filterMap fun e => (e.2.requirements.get id).map fun r => (e.1, r)).getLast?

/-- An item with the link to the requirement that is shown for an id. -/
def shownItem (link : Requirement → Str) (g : Graph) (id : RequirementId) : Str :=
  (shown g id).toList.flatMap fun s => c!"*   " ++ link s.2 ++ c!"\n"

/-- What is shown as covering the id along a relation, with the places of the references. -/
def shownBelow (g : Graph) (rel : Relation) (id : RequirementId) : List (Requirement × Location) :=
  (g.relations.filter (· = rel)).flatMap fun rel =>
    ((relEvents g rel).filter (fun e => e.upper.id = id)).flatMap fun e =>
      (shown g e.lower.id).toList.map fun s => (s.2, e.ref.location)

/-- What is shown as covered by the id. -/
def shownAbove (g : Graph) (rel : Relation) (id : RequirementId) : List (Requirement × Location) :=
  (g.relations.filter (· = rel)).flatMap fun rel =>
    ((relEvents g rel).filter (fun e => e.lower.id = id)).flatMap fun e =>
      (shown g e.upper.id).toList.map fun s => (s.2, e.ref.location)

/-- Artefact `a` has a requirement with the id. -/
def HasId (g : Graph) (a : ArtefactId) (id : RequirementId) : Prop := ∃ r, Defines g a r ∧ r.id = id

/-- The section that is shown for an id: requirement `r` of artefact `a`. -/
def ShownSection (link : Requirement → Str) (g : Graph) (a : ArtefactId) (r : Requirement) (text : Str) : Prop :=
  ∃ above below attrs, RelationsWith g (fun rel => ∃ b ∈ rel.lower, HasId g b r.id) above ∧
    RelationsWith g (fun rel => HasId g rel.upper r.id) below ∧ OtherAttributes r.attributes.entries attrs ∧
    text = c!"\n### " ++ headingText r ++ c!"\n\n" ++
      c!"Origin: " ++ a ++ c!", " ++ placeLink r.location ++ c!"\n" ++ descriptionText r ++ attrs ++
      c!"\nUpwards Tracing:\n" ++
      above.flatMap (fun rel => c!"*   " ++ relationText rel ++ c!"\n" ++ (shownAbove g rel r.id).flatMap (coverageText link)) ++
      (if ∀ rel ∈ above, shownAbove g rel r.id = [] then c!"    *   Derived\n" else []) ++
      c!"\nDownwards Tracing:\n" ++
      below.flatMap (fun rel => c!"*   " ++ relationText rel ++ c!"\n" ++
        if shownBelow g rel r.id = [] then c!"    *    UNCOVERED\n" else (shownBelow g rel r.id).flatMap (coverageText link))

/-- The Markdown report of a trace. -/
def MarkdownTrace (env : FmtEnv) (g : Graph) (text : Str) : Prop :=
  ∃ (link : Requirement → Str) (body : RequirementId → Str), (∀ r, Link env r (link r)) ∧
    (∀ id a r, shown g id = some (a, r) → ShownSection link g a r (body id)) ∧
    text = inputErrorsText link g ++ tracingErrorsText link g ++
      problemSection c!"Uncovered Requirements" ((g.relations.filter (fun rel => uncovered g rel ≠ [])).map fun rel =>
        (relationText rel, (uncovered g rel).flatMap (shownItem link g))) ++
      problemSection c!"Derived Requirements" ((g.artefacts.entries.filter (fun e => derived g e.1 e.2 ≠ [])).map fun e =>
        (e.1, (derived g e.1 e.2).flatMap (shownItem link g))) ++
      c!"\n\n# Requirements\n\n" ++ g.artefacts.entries.flatMap (fun e =>
        c!"## " ++ e.2.id ++ c!"\n" ++ e.2.requirements.entries.flatMap (fun r => body r.1))

/-! ## JSON -/

namespace JsonOut

/-- How a character is written inside a string. -/
inductive Escaped : Char → Str → Prop
  | quote : Escaped '"' c!"\\\""
  | backslash : Escaped '\\' c!"\\\\"
  | b : Escaped (Char.ofNat 8) c!"\\b"
  | t : Escaped '\t' c!"\\t"
  | n : Escaped '\n' c!"\\n"
  | f : Escaped (Char.ofNat 12) c!"\\f"
  | r : Escaped '\r' c!"\\r"
  | control {c x y} : c.toNat < 32 → c.toNat ∉ [8, 9, 10, 12, 13] → c.toNat = 16 * x + y → y < 16 →
      Escaped c (c!"\\u00" ++ [Nat.digitChar x, Nat.digitChar y])
  | plain {c} : 32 ≤ c.toNat → c ≠ '"' → c ≠ '\\' → Escaped c [c]

/-- The inside of a string. -/
inductive Inside : Str → Str → Prop
  | nil : Inside [] []
  | cons {c s t u} : Escaped c t → Inside s u → Inside (c :: s) (t ++ u)

def blanks (n : Nat) : Str := List.replicate n ' '

mutual
/-- The text of a value whose first line is indented by `n` blanks. -/
inductive Shows : Nat → Json → Str → Prop
  | null {n} : Shows n .null c!"null"
  | true {n} : Shows n (.bool .true) c!"true"
  | false {n} : Shows n (.bool .false) c!"false"
  | num {n k} : Shows n (.num k) (natStr k)
  | real {n t} : Shows n (.real t) t
  | str {n s t} : Inside s t → Shows n (.str s) (c!"\"" ++ t ++ c!"\"")
  | noItems {n} : Shows n (.arr []) c!"[]"
  | items {n vs ts} : vs ≠ [] → ShowsItems (n + 2) vs ts →
      Shows n (.arr vs) (c!"[\n" ++ List.intercalate c!",\n" ts ++ c!"\n" ++ blanks n ++ c!"]")
  | noMembers {n} : Shows n (.obj []) c!"{}"
  | members {n ms ts} : ms ≠ [] → ShowsMembers (n + 2) ms ts →
      Shows n (.obj ms) (c!"{\n" ++ List.intercalate c!",\n" ts ++ c!"\n" ++ blanks n ++ c!"}")
/-- The items, each beginning on a line of its own. -/
inductive ShowsItems : Nat → List Json → List Str → Prop
  | nil {n} : ShowsItems n [] []
  | cons {n v vs t ts} : Shows n v t → ShowsItems n vs ts → ShowsItems n (v :: vs) ((blanks n ++ t) :: ts)
/-- The members, each beginning on a line of its own. -/
inductive ShowsMembers : Nat → List (Str × Json) → List Str → Prop
  | nil {n} : ShowsMembers n [] []
  | cons {n k v ms s t ts} : Inside k s → Shows n v t → ShowsMembers n ms ts →
      ShowsMembers n ((k, v) :: ms) ((blanks n ++ c!"\"" ++ s ++ c!"\": " ++ t) :: ts)
end

/-! What the values are made of. -/

abbrev Schema := Json → Prop

def Text (s : Str) : Schema := fun j => j = .str s
def Number (n : Nat) : Schema := fun j => j = .num n
def Truth (b : Bool) : Schema := fun j => j = .bool b

/-- The members of an object. -/
inductive Fields : List (Str × Schema) → List (Str × Json) → Prop
  | nil : Fields [] []
  | cons {k P ps j js} : P j → Fields ps js → Fields ((k, P) :: ps) ((k, j) :: js)

/-- The items of an array. -/
inductive Items : List Schema → List Json → Prop
  | nil : Items [] []
  | cons {P ps j js} : P j → Items ps js → Items (P :: ps) (j :: js)

def Object (ps : List (Str × Schema)) : Schema := fun j => ∃ ms, j = .obj ms ∧ Fields ps ms
def Tuple (ps : List Schema) : Schema := fun j => ∃ js, j = .arr js ∧ Items ps js
def ListOf {α : Type} (P : α → Schema) (l : List α) : Schema := Tuple (l.map P)
def MapOf {α : Type} (P : α → Schema) (m : BMap Str α) : Schema := Object (m.entries.map fun e => (e.1, P e.2))
def Maybe {α : Type} (P : α → Schema) : Option α → Schema
  | none => fun j => j = .null
  | some a => P a
/-- An alternative with its content. -/
def Variant (name : Str) (P : Schema) : Schema := Object [(name, P)]

def Position : LocationInFile → Schema
  | .line n => Variant c!"Line" (Number n)
  | .lineAndColumn n k => Variant c!"LineAndColumn" (Tuple [Number n, Number k])
  | .string s => Variant c!"String" (Text s)

def Place (loc : Location) : Schema :=
  Object [(c!"file", Text loc.file), (c!"location_in_file", Maybe Position loc.locationInFile)]

def Ref (r : Reference) : Schema :=
  Object [(c!"id", Text r.id), (c!"title", Maybe Text r.title), (c!"location", Place r.location)]

def Req (r : Requirement) : Schema :=
  Object [(c!"id", Text r.id), (c!"title", Maybe Text r.title), (c!"location", Place r.location),
    (c!"covers", ListOf Ref r.covers), (c!"depends", ListOf Ref r.depends), (c!"tags", ListOf Text r.tags),
    (c!"attributes", MapOf Text r.attributes)]

def relationFields (r : Relation) : List (Str × Schema) := [(c!"upper", Text r.upper), (c!"lower", ListOf Text r.lower)]

def Err : Error → Schema
  | .format loc t => Variant c!"Format" (Tuple [Place loc, Text t])
  | .duplicateRequirement a b => Variant c!"DuplicateRequirement" (Tuple [Req a, Req b])
  | .duplicateAttribute loc a id => Variant c!"DuplicateAttribute" (Tuple [Place loc, Text a, Text id])
  | .io path t => Variant c!"Io" (Tuple [Text path, Text t])
  | .config t => Variant c!"Config" (Text t)
  | .duplicateArtefact a => Variant c!"DuplicateArtefact" (Text a)
  | .unknownArtefact a => Variant c!"UnknownArtefact" (Text a)
  | .coveredWithWrongTitle u l t loc => Variant c!"CoveredWithWrongTitle"
      (Object [(c!"upper", Req u), (c!"lower", Req l), (c!"wrong_title", Text t), (c!"location", Place loc)])
  | .dependWithWrongTitle u l t loc => Variant c!"DependWithWrongTitle"
      (Object [(c!"upper", Req u), (c!"lower", Req l), (c!"wrong_title", Text t), (c!"location", Place loc)])
  | .referencedWithoutTitle r loc =>
    Variant c!"ReferencedWithoutTitle" (Object [(c!"referenced", Req r), (c!"location", Place loc)])
  | .requirementWithoutTitle r => Variant c!"RequirementWithoutTitle" (Req r)
  | .dependOnUnknownRequirement r id loc => Variant c!"DependOnUnknownRequirement" (Tuple [Req r, Text id, Place loc])
  | .coversUnknownRequirement r id loc => Variant c!"CoversUnknownRequirement" (Tuple [Req r, Text id, Place loc])
  | .emptyGraph => Text c!"EmptyGraph"
  | .unusedRelation rel => Variant c!"UnusedRelation" (Object (relationFields rel))

def Art (a : Artefact) : Schema :=
  Object [(c!"id", Text a.id), (c!"files", ListOf Text a.files),
    (c!"ignore_derived_requirements", Truth a.ignoreDerivedRequirements), (c!"reference_with_title", Truth a.referenceWithTitle),
    (c!"requirements", MapOf Req a.requirements), (c!"errors", ListOf Err a.errors)]

def Direction : CoverageDirection → Schema
  | .upwards => Text c!"Upwards"
  | .downwards => Text c!"Downwards"

def Covering (e : Event) : Schema :=
  Object [(c!"upper", Text e.upper.id), (c!"lower", Text e.lower.id), (c!"location", Place e.ref.location),
    (c!"direction", Direction e.dir)]

def Rel (g : Graph) (rel : Relation) : Schema :=
  Object (relationFields rel ++ [(c!"covered", ListOf Covering (relEvents g rel)), (c!"uncovered", ListOf Text (uncovered g rel))])

/-- The result of a trace. -/
def Trace (g : Graph) : Schema :=
  Object [(c!"version", Number 0), (c!"trace", Object [(c!"artefacts", MapOf Art g.artefacts),
    (c!"traced_relations", ListOf (Rel g) g.relations),
    (c!"derived", Object (g.artefacts.entries.map fun e => (e.1, ListOf Text (derived g e.1 e.2)))),
    (c!"errors", ListOf Err (traced g).errors)])]

/-- The export of requirements. -/
def Export (env : FmtEnv) (g : Graph) : Schema := fun j =>
  ∃ reqs, SortedBy Requirement.id (requirementsOf g.artefacts) reqs ∧
    Object [(c!"version", Number 0), (c!"requirements", ListOf Req reqs),
      (c!"errors", ListOf Err (env.sortErrors message (errorsOf g.artefacts)))] j

end JsonOut

/-! ## All reports -/

/-- The text of a report, if there is one in that format. -/
inductive Report (env : FmtEnv) (g : Graph) : Query → Format → Str → Prop
  | tags {t} : TagsText g t → Report env g .parse .tags t
  | list {t} : MarkdownList env g t → Report env g .parse .markdown t
  | export {j t} : JsonOut.Export env g j → JsonOut.Shows 0 j t → Report env g .parse .json t
  | gnu : Report env g .trace .gnuError (gnuReport env g)
  | markdown {t} : MarkdownTrace env g t → Report env g .trace .markdown t
  | json {j t} : JsonOut.Trace g j → JsonOut.Shows 0 j t → Report env g .trace .json t

end Reqtrace.Spec
