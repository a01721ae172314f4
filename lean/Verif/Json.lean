import Verif.Models

/-!
# JSON: `serde_json` and the derived `Serialize`/`Deserialize` of `src/models.rs`

The models contain no other numbers than natural numbers.
-/

namespace Reqtrace

/-- A JSON value. Objects keep the order of their members; numbers other than natural numbers keep their text. -/
inductive Json where
  | null
  | bool (b : Bool)
  | num (n : Nat)
  | real (text : Str)
  | str (s : Str)
  | arr (items : List Json)
  | obj (members : List (Str × Json))

namespace Json

/-- One digit of `\u00xx` -/
def hexDigit (n : Nat) : Char := if n < 10 then Char.ofNat (48 + n) else Char.ofNat (87 + n)

/-- `serde_json::ser::format_escaped_str_contents` for one character -/
def escape (c : Char) : Str :=
  if c = '"' then c!"\\\""
  else if c = '\\' then c!"\\\\"
  else if c = Char.ofNat 8 then c!"\\b"
  else if c = Char.ofNat 9 then c!"\\t"
  else if c = Char.ofNat 10 then c!"\\n"
  else if c = Char.ofNat 12 then c!"\\f"
  else if c = Char.ofNat 13 then c!"\\r"
  else if c.toNat < 32 then c!"\\u00" ++ [hexDigit (c.toNat / 16), hexDigit (c.toNat % 16)]
  else [c]

/-- A string literal -/
def quote (s : Str) : Str := '"' :: (s.flatMap escape ++ ['"'])

/-- The newline and indentation that `serde_json::ser::PrettyFormatter` writes -/
def newline (indent : Nat) : Str := '\n' :: List.replicate (2 * indent) ' '

mutual
/-- `serde_json::to_writer_pretty` of a value inside `indent` brackets -/
def pretty (indent : Nat) : Json → Str
  | .null => c!"null"
  | .bool true => c!"true"
  | .bool false => c!"false"
  | .num n => natStr n
  | .real t => t
  | .str s => quote s
  | .arr [] => c!"[]"
  | .arr (v :: vs) => c!"[" ++ newline (indent + 1) ++ pretty (indent + 1) v ++ prettyItems (indent + 1) vs ++
      newline indent ++ c!"]"
  | .obj [] => c!"{}"
  | .obj (m :: ms) => c!"{" ++ newline (indent + 1) ++ quote m.1 ++ c!": " ++ pretty (indent + 1) m.2 ++
      prettyMembers (indent + 1) ms ++ newline indent ++ c!"}"
/-- the further items of an array -/
def prettyItems (indent : Nat) : List Json → Str
  | [] => []
  | v :: vs => c!"," ++ newline indent ++ pretty indent v ++ prettyItems indent vs
/-- the further members of an object -/
def prettyMembers (indent : Nat) : List (Str × Json) → Str
  | [] => []
  | m :: ms => c!"," ++ newline indent ++ quote m.1 ++ c!": " ++ pretty indent m.2 ++ prettyMembers indent ms
end

/-! ## Derived `Serialize` -/

/-- `Option<T>` -/
def opt {α : Type} (f : α → Json) : Option α → Json
  | none => .null
  | some a => f a

/-- `Vec<T>` -/
def vec {α : Type} (f : α → Json) (l : List α) : Json := .arr (l.map f)

/-- `BTreeMap<K, T>` with keys that are text -/
def map {α : Type} (f : α → Json) (m : BMap Str α) : Json := .obj (m.entries.map (fun e => (e.1, f e.2)))

/-- `models.rs:113-118` -/
def ofLocationInFile : LocationInFile → Json
  | .line l => .obj [(c!"Line", .num l)]
  | .lineAndColumn l c => .obj [(c!"LineAndColumn", .arr [.num l, .num c])]
  | .string s => .obj [(c!"String", .str s)]

/-- `models.rs:157-161` -/
def ofLocation (l : Location) : Json :=
  .obj [(c!"file", .str l.file), (c!"location_in_file", opt ofLocationInFile l.locationInFile)]

/-- `models.rs:232-237` -/
def ofReference (r : Reference) : Json :=
  .obj [(c!"id", .str r.id), (c!"title", opt .str r.title), (c!"location", ofLocation r.location)]

/-- `models.rs:239-248` -/
def ofRequirement (r : Requirement) : Json :=
  .obj [(c!"id", .str r.id), (c!"title", opt .str r.title), (c!"location", ofLocation r.location),
    (c!"covers", vec ofReference r.covers), (c!"depends", vec ofReference r.depends),
    (c!"tags", vec .str r.tags), (c!"attributes", map .str r.attributes)]

/-- `models.rs:361-368` -/
def ofRelation (r : Relation) : List (Str × Json) :=
  [(c!"upper", .str r.upper), (c!"lower", vec .str r.lower)]

/-- `models.rs:274-339` -/
def ofError : Error → Json
  | .format loc err => .obj [(c!"Format", .arr [ofLocation loc, .str err])]
  | .duplicateRequirement a b => .obj [(c!"DuplicateRequirement", .arr [ofRequirement a, ofRequirement b])]
  | .duplicateAttribute loc attr req =>
    .obj [(c!"DuplicateAttribute", .arr [ofLocation loc, .str attr, .str req])]
  | .io path err => .obj [(c!"Io", .arr [.str path, .str err])]
  | .config err => .obj [(c!"Config", .str err)]
  | .duplicateArtefact a => .obj [(c!"DuplicateArtefact", .str a)]
  | .unknownArtefact a => .obj [(c!"UnknownArtefact", .str a)]
  | .coveredWithWrongTitle upper lower t loc => .obj [(c!"CoveredWithWrongTitle", .obj
      [(c!"upper", ofRequirement upper), (c!"lower", ofRequirement lower), (c!"wrong_title", .str t),
        (c!"location", ofLocation loc)])]
  | .dependWithWrongTitle upper lower t loc => .obj [(c!"DependWithWrongTitle", .obj
      [(c!"upper", ofRequirement upper), (c!"lower", ofRequirement lower), (c!"wrong_title", .str t),
        (c!"location", ofLocation loc)])]
  | .referencedWithoutTitle r loc => .obj [(c!"ReferencedWithoutTitle", .obj
      [(c!"referenced", ofRequirement r), (c!"location", ofLocation loc)])]
  | .requirementWithoutTitle r => .obj [(c!"RequirementWithoutTitle", ofRequirement r)]
  | .dependOnUnknownRequirement r d loc =>
    .obj [(c!"DependOnUnknownRequirement", .arr [ofRequirement r, .str d, ofLocation loc])]
  | .coversUnknownRequirement r d loc =>
    .obj [(c!"CoversUnknownRequirement", .arr [ofRequirement r, .str d, ofLocation loc])]
  | .emptyGraph => .str c!"EmptyGraph"
  | .unusedRelation rel => .obj [(c!"UnusedRelation", .obj (ofRelation rel))]

/-- `models.rs:264-272` -/
def ofArtefact (a : Artefact) : Json :=
  .obj [(c!"id", .str a.id), (c!"files", vec .str a.files),
    (c!"ignore_derived_requirements", .bool a.ignoreDerivedRequirements),
    (c!"reference_with_title", .bool a.referenceWithTitle),
    (c!"requirements", map ofRequirement a.requirements), (c!"errors", vec ofError a.errors)]

/-- `models.rs:391-398` -/
def ofDirection : CoverageDirection → Json
  | .upwards => .str c!"Upwards"
  | .downwards => .str c!"Downwards"

/-- `models.rs:400-406` -/
def ofCoverage (c : Coverage) : Json :=
  .obj [(c!"upper", .str c.upper), (c!"lower", .str c.lower), (c!"location", ofLocation c.location),
    (c!"direction", ofDirection c.direction)]

/-- `models.rs:408-420`, with the flattened relation -/
def ofTracedRelation (r : TracedRelation) : Json :=
  .obj (ofRelation r.relation ++ [(c!"covered", vec ofCoverage r.covered), (c!"uncovered", vec .str r.uncovered)])

/-- `models.rs:428-441` -/
def ofTracedGraph (g : TracedGraph) : Json :=
  .obj [(c!"artefacts", map ofArtefact g.artefacts), (c!"traced_relations", vec ofTracedRelation g.tracedRelations),
    (c!"derived", map (vec .str) g.derived), (c!"errors", vec ofError g.errors)]

end Json

end Reqtrace
