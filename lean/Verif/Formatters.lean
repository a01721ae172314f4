import Verif.Aggregator
import Verif.Json
import Verif.Regex

/-!
# `src/formatters/`

A formatter writes text and may panic in between; what has been written up to then stays written.
-/

namespace Reqtrace

/-- What a formatter writes to a writer that accepts everything, and the panic that ends it, if any. -/
structure Out where
  text : Str
  panic : Option Panic
  deriving DecidableEq, Repr

namespace Out

/-- `write_all`, `writeln!` without the newline -/
def put (s : Str) : Out := ⟨s, none⟩

/-- `writeln!` -/
def line (s : Str) : Out := ⟨s ++ c!"\n", none⟩

/-- One after the other -/
def seq (a b : Out) : Out :=
  match a.panic with
  | some _ => a
  | none => ⟨a.text ++ b.text, b.panic⟩

/-- All in order -/
def all : List Out → Out
  | [] => put []
  | o :: os => seq o (all os)

/-- Use of a value that may panic -/
def bind {α : Type} (v : PanicM α) (f : α → Out) : Out :=
  match v with
  | .ok a => f a
  | .error p => ⟨[], some p⟩

/-- `if` without `else` -/
def when (b : Bool) (o : Out) : Out := if b then o else put []

end Out

open Out

/-- Insertion before the first element with a greater or equal key -/
def insertByKey {α : Type} (key : α → Str) (a : α) : List α → List α
  | [] => [a]
  | b :: l => if compare (key a) (key b) = .gt then b :: insertByKey key a l else a :: b :: l

/-- `slice::sort_by_key`: a stable sort.  All stable sorts have the same result; the standard library's algorithm
is not modelled. -/
def sortByKey {α : Type} (key : α → Str) (l : List α) : List α := l.foldr (insertByKey key) []

/-- What the formatters take from libraries and the model leaves open: `str::to_lowercase`
(which replaces ASCII letters by the lower case ones wherever they are), the characters that `Debug` of a string shows as
they are (printable and not `Grapheme_Extend`), and `sort_unstable_by_key` on errors, which may order equal texts in any
way. -/
structure FmtEnv where
  lower : Str → Str
  lower_ascii : ∀ s, (∀ c ∈ s, c.toNat < 128) → lower s = s.map Char.toLower
  lower_ascii_prefix : ∀ a b, (∀ c ∈ a, c.toNat < 128) → ∃ b', lower (a ++ b) = a.map Char.toLower ++ b'
  plain : Char → Bool
  plain_ascii : ∀ c, c.toNat < 128 → plain c = (32 ≤ c.toNat && c.toNat < 127)
  sortErrors : (Error → Str) → List Error → List Error
  sortErrors_perm : ∀ key l, (sortErrors key l).Perm l
  sortErrors_sorted : ∀ key l, (sortErrors key l).Pairwise (fun a b => compare (key a) (key b) ≠ .gt)

/-- `char::escape_debug_ext` as `Debug` of `str` uses it -/
def FmtEnv.escapeDebug (env : FmtEnv) (c : Char) : Str :=
  if c = Char.ofNat 0 then c!"\\0"
  else if c = '\t' then c!"\\t"
  else if c = '\r' then c!"\\r"
  else if c = '\n' then c!"\\n"
  else if c = '"' then c!"\\\""
  else if c = '\\' then c!"\\\\"
  else if env.plain c then [c]
  else c!"\\u{" ++ Nat.toDigits 16 c.toNat ++ c!"}"

/-- `{:?}` of a string -/
def FmtEnv.debugStr (env : FmtEnv) (s : Str) : Str := c!"\"" ++ s.flatMap env.escapeDebug ++ c!"\""

/-- `{:?}` of an artefact id: `#[derive(Debug)]`, `models.rs:15-16` -/
def FmtEnv.debugId (env : FmtEnv) (id : ArtefactId) : Str := c!"ArtefactId(" ++ env.debugStr id ++ c!")"

/-- `{:?}` of a relation: `#[derive(Debug)]`, `models.rs:361-368` -/
def FmtEnv.debugRelation (env : FmtEnv) (r : Relation) : Str :=
  c!"Relation { upper: " ++ env.debugId r.upper ++ c!", lower: [" ++ joinStr c!", " (r.lower.map env.debugId) ++ c!"] }"

/-- `models.rs:274-339`: `Display` of errors (`thiserror`); `Display` of a requirement is its id
(`models.rs:252-256`) -/
def Error.display : Error → Str
  | .format loc err => c!"Invalid Format " ++ loc.display ++ c!": " ++ err
  | .duplicateRequirement a b => c!"Duplicate Requirements: " ++ a.id ++ c!" " ++ b.id
  | .duplicateAttribute loc attr req =>
    c!"Duplicate Attribute " ++ attr ++ c!" when parsing " ++ req ++ c!" at " ++ loc.display
  | .io path err => c!"IO Error: " ++ err ++ c!" in " ++ path
  | .config err => c!"Configuration Error  " ++ err
  | .duplicateArtefact a => c!"Artefact added twice: " ++ a
  | .unknownArtefact a => c!"Unknown Artefact: " ++ a
  | .coveredWithWrongTitle upper lower t loc => c!"Requirement Covered with Wrong Title " ++ upper.id ++
      c!" <- " ++ lower.id ++ c!" with " ++ t ++ c!" at " ++ loc.display
  | .dependWithWrongTitle upper lower t loc => c!"Requirement Depended with Wrong Title " ++ upper.id ++
      c!" -> " ++ lower.id ++ c!" with " ++ t ++ c!" at " ++ loc.display
  | .referencedWithoutTitle r loc => c!"Requirement referenced without title " ++ r.id ++ c!" at " ++ loc.display
  | .requirementWithoutTitle r => c!"Requirement " ++ r.id ++ c!" must have a title"
  | .dependOnUnknownRequirement r d loc =>
    c!"Requirement " ++ r.id ++ c!" depends on unknown Requirement " ++ d ++ c!" at " ++ loc.display
  | .coversUnknownRequirement r d loc =>
    c!"Requirement " ++ r.id ++ c!" covers unknown Requirement " ++ d ++ c!" at " ++ loc.display
  | .emptyGraph => c!"Empty Tracing Graph"
  | .unusedRelation rel => c!"No requirements covered by relation " ++ rel.display

/-- `graph.artefacts.values().flat_map(|a| a.requirements.values())` -/
def allRequirements (artefacts : BMap ArtefactId Artefact) : List Requirement :=
  artefacts.values.flatMap (·.requirements.values)

/-- `graph.artefacts.values().flat_map(|a| a.errors.iter())` -/
def allErrors (artefacts : BMap ArtefactId Artefact) : List Error :=
  artefacts.values.flatMap (·.errors)

/-! ## `formatters/tags.rs` -/

namespace Tags

/-- `tags.rs:8-12` -/
def header : Str :=
  c!"!_TAG_FILE_SORTED\t1\t/0=unsorted, 1=sorted, 2=foldcase/\n" ++
  c!"!_TAG_PROGRAM_NAME\treqtrace/\n" ++
  c!"!_TAG_PROGRAM_URL\thttps://github.com/wonkodv/reqtrace/\n" ++
  c!"!_TAG_PROGRAM_VERSION\t0\t//\n"

/-- `tags.rs:21-31` -/
def tagLine (req : Requirement) (line : Nat) : Str :=
  req.id ++ c!"\t" ++ req.location.file ++ c!"\t" ++ natStr line ++ c!";\"\tr\n"

/-- `tags.rs:20-33` -/
def lines (reqs : List Requirement) : List Str :=
  reqs.filterMap fun req =>
    match req.location.locationInFile with
    | some (.line l) => some (tagLine req l)
    | some (.lineAndColumn l _) => some (tagLine req l)
    | some (.string _) => none
    | none => none

/-- `tags.rs:6-39` -/
def requirements (graph : Graph) : Out :=
  seq (put header)
    (all ((sortByKey id (lines (allRequirements graph.artefacts))).map put))

end Tags

/-! ## `formatters/serialize.rs` -/

namespace Serialize

/-- `serialize.rs:8` -/
def fileVersion : Nat := 0

/-- `serialize.rs:10-15` -/
structure Requirements where
  version : Nat
  requirements : List Requirement
  errors : List Error

/-- `serialize.rs:17-33` -/
def Requirements.new (env : FmtEnv) (requirements : List Requirement) (errors : List Error) : Requirements :=
  { version := fileVersion
    requirements := sortByKey Requirement.id requirements
    errors := env.sortErrors Error.display errors }

/-- `serialize.rs:10` -/
def Requirements.json (r : Requirements) : Json :=
  .obj [(c!"version", .num r.version), (c!"requirements", .vec .ofRequirement r.requirements),
    (c!"errors", .vec .ofError r.errors)]

/-- `serialize.rs:54-69` -/
def traceJson (tg : TracedGraph) : Json :=
  .obj [(c!"version", .num fileVersion), (c!"trace", .ofTracedGraph tg)]

end Serialize

/-! ## `formatters/gnuerr.rs` -/

namespace GnuErr

/-- `gnuerr.rs:54`: `title.as_ref().unwrap_or(&"<no title>".to_owned())` -/
def titleOf (r : Requirement) : Str := r.title.getD c!"<no title>"

/-- `gnuerr.rs:11-121`: the text for one error; `{err:?}` is that of `#[derive(Debug)]` at `models.rs:274-277` -/
def errorText (env : FmtEnv) (e : Error) : Str :=
  match e with
  | .format loc err => loc.display ++ c!": " ++ err ++ c!"\n"
  | .duplicateRequirement r1 r2 =>
    r2.location.display ++ c!": Duplicate Requirement: " ++ r1.id ++ c!"\n" ++
    r1.location.display ++ c!": note: previously seen here\n"
  | .duplicateAttribute loc attr req => loc.display ++ c!": " ++ req ++ c!" has duplicate Attribute: " ++ attr ++ c!"\n"
  | .io path err => path ++ c!": IO Error: " ++ err ++ c!"\n"
  | .unusedRelation rel => c!"Error in config file: UnusedRelation(" ++ env.debugRelation rel ++ c!")\n"
  | .config t => c!"Error in config file: Config(" ++ env.debugStr t ++ c!")\n"
  | .duplicateArtefact a => c!"Error in config file: DuplicateArtefact(" ++ env.debugStr a ++ c!")\n"
  | .unknownArtefact a => c!"Error in config file: UnknownArtefact(" ++ env.debugId a ++ c!")\n"
  | .emptyGraph => c!"Error in config file: EmptyGraph\n"
  | .coveredWithWrongTitle upper _ wrongTitle location =>
    location.display ++ c!": " ++ upper.id ++ c!" covered with wrong title. Expected " ++
      env.debugStr (titleOf upper) ++ c!", actual " ++ env.debugStr wrongTitle ++ c!"\n" ++
      upper.location.display ++ c!": note: Defined here\n"
  | .dependWithWrongTitle _ lower wrongTitle location =>
    location.display ++ c!": " ++ lower.id ++ c!" depended with wrong title. Expected " ++
      env.debugStr (titleOf lower) ++ c!", actual " ++ env.debugStr wrongTitle ++ c!"\n" ++
      lower.location.display ++ c!": note: Defined here\n"
  | .dependOnUnknownRequirement req depend location =>
    location.display ++ c!": " ++ req.id ++ c!" Depends on unknown requirement " ++ depend ++ c!"\n"
  | .coversUnknownRequirement req cover location =>
    location.display ++ c!": " ++ req.id ++ c!" Covers unknown requirement " ++ cover ++ c!"\n"
  | .referencedWithoutTitle referenced location =>
    location.display ++ c!": should reference " ++ referenced.id ++ c!" with title " ++
      env.debugStr (titleOf referenced) ++ c!"\n"
  | .requirementWithoutTitle req =>
    req.location.display ++ c!": requirement " ++ req.id ++
      c!" without title in artefact that requires referencing with title\n"

/-- `gnuerr.rs:6-122` -/
def errors (env : FmtEnv) (es : List Error) : Out := all (es.map fun e => put (errorText env e))

/-- `gnuerr.rs:139-140` -/
def uncoveredLine (tg : TracedGraph) (rel : TracedRelation) (id : RequirementId) : Out :=
  bind (orPanic .fmtIndex (tg.artefacts.get rel.relation.upper)) fun art =>
  bind (orPanic .fmtIndex (art.requirements.get id)) fun req =>
    line (req.location.display ++ c!": " ++ req.id ++ c!" Uncovered")

/-- `gnuerr.rs:149-150` -/
def derivedLine (art : Artefact) (id : RequirementId) : Out :=
  bind (orPanic .fmtIndex (art.requirements.get id)) fun req =>
    line (req.location.display ++ c!": " ++ req.id ++ c!" Derived")

/-- `gnuerr.rs:124-155` -/
def tracing (env : FmtEnv) (tg : TracedGraph) : Out :=
  all [
    line c!"# Parsing Errors",
    errors env (allErrors tg.artefacts),
    line c!"# Tracing Errors",
    errors env tg.errors,
    line c!"# Uncovered Requirement",
    all (tg.tracedRelations.map fun rel =>
      seq (line (c!"## " ++ rel.relation.display)) (all (rel.uncovered.map (uncoveredLine tg rel)))),
    line c!"Derived Requirement",
    all (tg.derived.entries.map fun e =>
      bind (orPanic .fmtIndex (tg.artefacts.get e.1)) fun artefact =>
        seq (line (c!"## " ++ e.1)) (all (e.2.map (derivedLine artefact))))]

end GnuErr

/-! ## `formatters/markdown.rs` -/

namespace MdOut

/-- `markdown.rs:19`: what `REMOVE` leaves, `[A-Za-z0-9_-]` -/
def keep (c : Char) : Bool := c.isAlphanum || c == '_' || c == '-'

/-- `markdown.rs:26-28`, `:33-35`: lower case, spaces to dashes, the rest removed -/
def anchorText (env : FmtEnv) (s : Str) : Str :=
  ((env.lower s).map (fun c => if c == ' ' then '-' else c)).filter keep

/-- `markdown.rs:23-39` -/
def requirementLink (env : FmtEnv) (req : Requirement) : Str :=
  match req.title with
  | some title =>
    c!"[" ++ req.id ++ c!"](#" ++ anchorText env (req.id ++ c!"-" ++ title) ++ c!" \"" ++ title ++ c!"\")"
  | none => c!"[" ++ req.id ++ c!"](#" ++ anchorText env req.id ++ c!")"

/-- `markdown.rs:43-59` -/
def locationLink (loc : Location) : Str :=
  let file := loc.file
  match loc.locationInFile with
  | some (.line l) => c!"[" ++ file ++ c!":" ++ natStr l ++ c!"](../" ++ file ++ c!"?plain=1#L" ++ natStr l ++ c!")"
  | some (.lineAndColumn l col) => c!"[" ++ file ++ c!":" ++ natStr l ++ c!":" ++ natStr col ++ c!"](../" ++
      file ++ c!"?plain=1#L" ++ natStr l ++ c!")"
  | some (.string s) => c!"[" ++ file ++ c!"](../" ++ file ++ c!"):" ++ s
  | none => c!"[" ++ file ++ c!"](../" ++ file ++ c!")"

/-- `markdown.rs:75-82`, `:86-92`: one item of a list of references -/
def referenceItem (r : Reference) : Str :=
  match r.title with
  | some title => c!"*   " ++ r.id ++ c!": " ++ title ++ c!"\n"
  | none => c!"*   " ++ r.id ++ c!"\n"

/-- `markdown.rs:95-103`, `:161-169`: the attributes except the description -/
def otherAttributes (attributes : BMap Str Str) : Str :=
  attributes.entries.flatMap fun e =>
    if e.1 ≠ c!"Description" then
      if (trim e.2).isEmpty then [] else c!"\n" ++ e.1 ++ c!":\n" ++ trim e.2 ++ c!"\n"
    else []

/-- `markdown.rs:70-72`, `:157-159` -/
def description (attributes : BMap Str Str) : Str :=
  match attributes.get c!"Description" with
  | some d => c!"\n\n" ++ d ++ c!"\n"
  | none => []

/-- `markdown.rs:61-106` -/
def requirement (req : Requirement) : Str :=
  c!"\n### " ++ req.id ++ c!": " ++ req.title.getD [] ++ c!"\n\nOrigin: " ++ locationLink req.location ++ c!"\n" ++
  description req.attributes ++
  (if req.covers.isEmpty then [] else c!"\nCovers:\n" ++ req.covers.flatMap referenceItem) ++
  (if req.depends.isEmpty then [] else c!"\nDepends:\n" ++ req.depends.flatMap referenceItem) ++
  otherAttributes req.attributes

/-- `markdown.rs:213-355`: the text for one error -/
def errorText (env : FmtEnv) : Error → Str
  | .format loc err => c!"*   Format Error: " ++ err ++ c!"\n    in " ++ locationLink loc ++ c!"\n"
  | .duplicateRequirement r1 r2 =>
    c!"*   Duplicate Requirement: " ++ r1.id ++ c!"\n    first seen in " ++ locationLink r2.location ++
      c!"\n    then again in " ++ locationLink r1.location ++ c!"\n"
  | .duplicateAttribute loc attr req =>
    c!"*   Duplicate Attribute: " ++ attr ++ c!" when parsing " ++ req ++ c!"\n    " ++ locationLink loc ++ c!"\n"
  | .io path err => c!"*   IO Error: " ++ err ++ c!"\n   " ++ path ++ c!"\n"
  | .config err => c!"*   Config Error: " ++ err ++ c!"\n"
  | .duplicateArtefact a => c!"*   Duplicate Artefact: " ++ a ++ c!"\n"
  | .unknownArtefact a => c!"*    Unknown Artefact: " ++ a ++ c!"\n"
  | .coveredWithWrongTitle upper lower wrongTitle location =>
    c!"*   Requirement covered with wrong title:\n    *   Upper Requirement " ++ requirementLink env upper ++
      c!"\n    *   Lower Requirement " ++ requirementLink env lower ++
      c!"\n    *   Title of Upper Requirement:\n        *    ````" ++ upper.title.getD [] ++
      c!"````\n    *   Title used to cover it:\n        *    ````" ++ wrongTitle ++
      c!"````\n    *  At: " ++ location.display ++ c!"\n"
  | .dependWithWrongTitle upper lower wrongTitle location =>
    c!"*   Requirement depended on with wrong title:\n    *   Upper Requirement " ++ requirementLink env upper ++
      c!"\n    *   Lower Requirement " ++ requirementLink env lower ++
      c!"\n    *   Title of Lower Requirement:\n        *    ````" ++ lower.title.getD [] ++
      c!"````\n    *   Title used to cover it:\n        *    ````" ++ wrongTitle ++
      c!"````\n    *  At: " ++ location.display ++ c!"\n"
  | .dependOnUnknownRequirement req depend location =>
    c!"*   " ++ requirementLink env req ++ c!" depends on unknown Requirement " ++ depend ++ c!"\n    " ++
      locationLink location ++ c!"\n"
  | .coversUnknownRequirement req cover location =>
    c!"*   " ++ requirementLink env req ++ c!" covers unknown Requirement " ++ cover ++ c!"\n    " ++
      locationLink location ++ c!"\n"
  | .emptyGraph => c!"Tracing Graph is empty\n"
  | .unusedRelation rel => c!"*   No requirement was traced along the relation " ++ rel.display ++
      c!". (Configuration error?)\n"
  | .referencedWithoutTitle referenced location =>
    c!"*   " ++ requirementLink env referenced ++ c!" covered without title\n    " ++ location.display ++ c!"\n"
  | .requirementWithoutTitle req => c!"*   Requirement " ++ requirementLink env req ++
      c!" without title in artefact that requires referencing with title\n"

/-- A section with a headline (`markdown.rs:115-118`, `:366-369`, `:384-387`, `:409-412`, `:437-440`, `:459-462`) -/
def headline (title : Str) : Str := c!"\n\n# " ++ title ++ c!"\n\n"

/-- A headline of second level (`markdown.rs:120-122`, `:371-373`, `:414-416`, `:442-444`) -/
def subHeadline (title : Str) : Str := c!"\n## " ++ title ++ c!"\n\n"

/-- The loops with a `headline` flag: `body` writes the part of one element if `has` holds, and the first such
part is preceded by the headline. -/
def section_ {α : Type} (title : Str) (has : α → Bool) (body : α → Out) : Bool → List α → Out
  | _, [] => put []
  | headlineDone, a :: as =>
    if has a then
      seq (when (!headlineDone) (put (headline title))) (seq (body a) (section_ title has body true as))
    else section_ title has body headlineDone as

/-- `markdown.rs:109-128`, `:359-379` -/
def inputErrors (env : FmtEnv) (artefacts : BMap ArtefactId Artefact) : Out :=
  section_ c!"Input Errors" (fun a => !a.errors.isEmpty)
    (fun a => seq (put (subHeadline a.id)) (put (a.errors.flatMap (errorText env)))) false artefacts.values

/-- `markdown.rs:108-141` -/
def requirements (env : FmtEnv) (graph : Graph) : Out :=
  seq (inputErrors env graph.artefacts)
    (put ((sortByKey Requirement.id (allRequirements graph.artefacts)).flatMap requirement))

/-- `markdown.rs:389-397`: echo each text only once; `seen` is the set -/
def echoOnce (seen : List Str) : List Str → List Str
  | [] => []
  | s :: ss => if s ∈ seen then echoOnce seen ss else s :: echoOnce (s :: seen) ss

/-- `markdown.rs:381-399` -/
def tracingErrors (env : FmtEnv) (errors : List Error) : Out :=
  when (!errors.isEmpty)
    (put (headline c!"Tracing Errors" ++ (echoOnce [] (errors.map (errorText env))).flatten))

/-- `aggregated_graph.requirements[&id].requirement` as a link: `markdown.rs:419-423`, `:447-451` -/
def linkItem (env : FmtEnv) (ag : AggregatedGraph) (id : RequirementId) : Out :=
  bind (orPanic .fmtIndex (ag.requirements.get id)) fun rt =>
    line (c!"*   " ++ requirementLink env rt.requirement)

/-- `markdown.rs:401-427` -/
def uncovered (env : FmtEnv) (ag : AggregatedGraph) : Out :=
  section_ c!"Uncovered Requirements" (fun rel : TracedRelation => !rel.uncovered.isEmpty)
    (fun rel => seq (put (subHeadline rel.relation.display)) (all (rel.uncovered.map (linkItem env ag)))) false
    ag.tracedGraph.tracedRelations

/-- `markdown.rs:429-455` -/
def derived (env : FmtEnv) (ag : AggregatedGraph) : Out :=
  section_ c!"Derived Requirements" (fun e : ArtefactId × List RequirementId => !e.2.isEmpty)
    (fun e => seq (put (subHeadline e.1)) (all (e.2.map (linkItem env ag)))) false
    ag.tracedGraph.derived.entries

/-- `markdown.rs:177-182`, `:200-205`: a requirement at the other end, with the reference -/
def coverageItem (env : FmtEnv) (c : Requirement × Location) : Str :=
  c!"    *   " ++ requirementLink env c.1 ++ c!"\n        Reference: " ++ locationLink c.2 ++ c!"\n"

/-- `markdown.rs:143-211` -/
def tracedRequirement (env : FmtEnv) (req : RequirementTrace) : Str :=
  c!"\n### " ++ req.requirement.id ++ (match req.requirement.title with
    | some t => c!": " ++ t
    | none => []) ++ c!"\n\nOrigin: " ++ req.artefact.id ++ c!", " ++ locationLink req.requirement.location ++ c!"\n" ++
  description req.requirement.attributes ++ otherAttributes req.requirement.attributes ++
  c!"\nUpwards Tracing:\n" ++
  req.covers.entries.flatMap (fun e => c!"*   " ++ e.1.display ++ c!"\n" ++ e.2.flatMap (coverageItem env)) ++
  (if req.covers.entries.all (fun e => e.2.isEmpty) then c!"    *   Derived\n" else []) ++
  c!"\nDownwards Tracing:\n" ++
  req.depends.entries.flatMap (fun e => c!"*   " ++ e.1.display ++ c!"\n" ++
    (if e.2.isEmpty then c!"    *    UNCOVERED\n" else []) ++ e.2.flatMap (coverageItem env))

/-- `markdown.rs:457-471` -/
def allTraced (env : FmtEnv) (ag : AggregatedGraph) : Out :=
  seq (put (headline c!"Requirements")) (all (ag.tracedGraph.artefacts.values.map fun artefact =>
    seq (line (c!"## " ++ artefact.id)) (all (artefact.requirements.keys.map fun id =>
      bind (orPanic .fmtIndex (ag.requirements.get id)) fun rt => put (tracedRequirement env rt)))))

/-- `markdown.rs:357-474` -/
def tracing (env : FmtEnv) (ag : AggregatedGraph) : Out :=
  all [inputErrors env ag.tracedGraph.artefacts, tracingErrors env ag.tracedGraph.errors, uncovered env ag,
    derived env ag, allTraced env ag]

end MdOut

/-! ## `formatters/mod.rs` -/

namespace Fmt

/-- `mod.rs:21-39` -/
def requirements (env : FmtEnv) (graph : Graph) : Format → Out
  | .tags => Tags.requirements graph
  | .markdown => MdOut.requirements env graph
  | .json => put (Json.pretty 0 (Serialize.Requirements.new env (allRequirements graph.artefacts)
      (allErrors graph.artefacts)).json)
  | _ => ⟨[], some .fmtUnsupported⟩

/-- `mod.rs:41-57` -/
def tracing (env : FmtEnv) (tg : TracedGraph) : Format → Out
  | .gnuError => GnuErr.tracing env tg
  | .markdown => bind (aggregate tg) (MdOut.tracing env)
  | .json => put (Json.pretty 0 (Serialize.traceJson tg))
  | _ => ⟨[], some .fmtUnsupported⟩

end Fmt

end Reqtrace
