import Verif.Spec.Json

/-!
# Specification: what a configuration file says

Stated apart from the reader, as relations between the tree of a TOML document and the settings.
-/

namespace Reqtrace.Spec.ConfigText

open JsonText

def IsBool (j : Json) (b : Bool) : Prop := j = .bool b

/-- The name of a variant of an enum, as text or as the name of an empty table. -/
inductive Named (name : Str) : Json → Prop
  | text : Named name (.str name)
  | table : Named name (.obj [(name, .obj [])])

inductive IsParser : Json → ArtefactParser → Prop
  | markdown {j} : Named c!"Markdown" j → IsParser j .markdown
  | rust {j} : Named c!"Rust" j → IsParser j .rust
  | monoRequirement {j} : Named c!"MonoRequirement" j → IsParser j .monoRequirement
  | json {j} : Named c!"Json" j → IsParser j .json

inductive IsQuery : Json → Query → Prop
  | parse {j} : Named c!"Parse" j → IsQuery j .parse
  | trace {j} : Named c!"Trace" j → IsQuery j .trace

inductive IsFormat : Json → Format → Prop
  | gnuError {j} : Named c!"GnuError" j → IsFormat j .gnuError
  | json {j} : Named c!"Json" j → IsFormat j .json
  | markdown {j} : Named c!"Markdown" j → IsFormat j .markdown
  | tags {j} : Named c!"Tags" j → IsFormat j .tags
  | templateFile {p} : IsFormat (.obj [(c!"TemplateFile", .str p)]) (.templateFile p)
  | templateString {s} : IsFormat (.obj [(c!"TemplateString", .str s)]) (.templateString s)

/-- A table; each name has the value of its last entry (TOML has only one). -/
def IsTable {α : Type} (P : Json → α → Prop) (j : Json) (m : BMap Str α) : Prop :=
  ∃ (ms : List (Str × Json)) (as : List α), j = .obj ms ∧ Each P (ms.map Prod.snd) as ∧
    ∀ k, m.get k = ((((ms.map Prod.fst).zip as).filter (fun e => e.1 = k)).getLast?).map Prod.snd

def IsVersion (j : Json) (n : Nat) : Prop := j = .num n ∧ n < 4294967296

def IsArtefactConfig (j : Json) (a : ArtefactConfig) : Prop :=
  let names := [c!"id", c!"paths", c!"parser", c!"ignore_derived_requirements", c!"reference_with_title"]
  Get names j c!"id" (Required IsText) a.id ∧
  Get names j c!"paths" (Required (IsArray IsText)) a.paths ∧
  Get names j c!"parser" (Required IsParser) a.parser ∧
  Get names j c!"ignore_derived_requirements" (Optional IsBool) a.ignoreDerivedRequirements ∧
  Get names j c!"reference_with_title" (Optional IsBool) a.referenceWithTitle

def IsRelation (j : Json) (r : Relation) : Prop :=
  let names := [c!"upper", c!"lower"]
  Get names j c!"upper" (Required IsText) r.upper ∧
  Get names j c!"lower" (Required (IsArray IsText)) r.lower

def IsJob (j : Json) (b : Job) : Prop :=
  let names := [c!"query", c!"format", c!"file", c!"set_return_code"]
  Get names j c!"query" (Required IsQuery) b.query ∧
  Get names j c!"format" (Required IsFormat) b.format ∧
  Get names j c!"file" (Required IsText) b.file ∧
  Get names j c!"set_return_code" (Optional IsBool) b.setReturnCode

def IsConfig (j : Json) (c : Config) : Prop :=
  let names := [c!"version", c!"artefacts", c!"relations", c!"jobs", c!"default_jobs"]
  Get names j c!"version" (Optional IsVersion) c.version ∧
  Get names j c!"artefacts" (Required (IsArray IsArtefactConfig)) c.artefacts ∧
  Get names j c!"relations" (Required (IsArray IsRelation)) c.relations ∧
  Get names j c!"jobs" (Optional (IsTable IsJob)) c.jobs ∧
  Get names j c!"default_jobs" (Optional (IsArray IsText)) c.defaultJobs

/-- The tables of a configuration, with the names of the settings that may be in each. -/
inductive Table (ms : List (Str × Json)) : List (Str × Json) → List Str → Prop
  | top : Table ms ms [c!"version", c!"artefacts", c!"relations", c!"jobs", c!"default_jobs"]
  | artefact {vs t} : (c!"artefacts", .arr vs) ∈ ms → .obj t ∈ vs →
      Table ms t [c!"id", c!"paths", c!"parser", c!"ignore_derived_requirements", c!"reference_with_title"]
  | relation {vs t} : (c!"relations", .arr vs) ∈ ms → .obj t ∈ vs → Table ms t [c!"upper", c!"lower"]
  | job {js k t} : (c!"jobs", .obj js) ∈ ms → (k, .obj t) ∈ js →
      Table ms t [c!"query", c!"format", c!"file", c!"set_return_code"]

/-- The settings that must be there, for each of the lists of names above. -/
def mandatory (names : List Str) : List Str :=
  names.filter fun n => n ∉ [c!"version", c!"jobs", c!"default_jobs", c!"ignore_derived_requirements",
    c!"reference_with_title", c!"set_return_code"]

/-- The second document is the first one with one more name in a table, one that is no setting there. -/
inductive WithUnknown : Json → Json → Prop
  | top {a b e} : e.1 ∉ [c!"version", c!"artefacts", c!"relations", c!"jobs", c!"default_jobs"] →
      WithUnknown (.obj (a ++ b)) (.obj (a ++ e :: b))
  | artefact {p q xs ys a b e} :
      e.1 ∉ [c!"id", c!"paths", c!"parser", c!"ignore_derived_requirements", c!"reference_with_title"] →
      WithUnknown (.obj (p ++ (c!"artefacts", .arr (xs ++ .obj (a ++ b) :: ys)) :: q))
        (.obj (p ++ (c!"artefacts", .arr (xs ++ .obj (a ++ e :: b) :: ys)) :: q))
  | relation {p q xs ys a b e} : e.1 ∉ [c!"upper", c!"lower"] →
      WithUnknown (.obj (p ++ (c!"relations", .arr (xs ++ .obj (a ++ b) :: ys)) :: q))
        (.obj (p ++ (c!"relations", .arr (xs ++ .obj (a ++ e :: b) :: ys)) :: q))
  | job {p q xs ys k a b e} : e.1 ∉ [c!"query", c!"format", c!"file", c!"set_return_code"] →
      WithUnknown (.obj (p ++ (c!"jobs", .obj (xs ++ (k, .obj (a ++ b)) :: ys)) :: q))
        (.obj (p ++ (c!"jobs", .obj (xs ++ (k, .obj (a ++ e :: b)) :: ys)) :: q))

end Reqtrace.Spec.ConfigText

namespace Reqtrace.ConfigRead

/-- The document with exactly the settings of a configuration (as the derived `Serialize` writes it). -/
def tree (c : Config) : Json :=
  let opt {α : Type} (name : Str) (f : α → Json) : Option α → List (Str × Json)
    | none => []
    | some a => [(name, f a)]
  let parser : ArtefactParser → Json
    | .markdown => .str c!"Markdown"
    | .rust => .str c!"Rust"
    | .monoRequirement => .str c!"MonoRequirement"
    | .json => .str c!"Json"
  let query : Query → Json
    | .parse => .str c!"Parse"
    | .trace => .str c!"Trace"
  let format : Format → Json
    | .gnuError => .str c!"GnuError"
    | .json => .str c!"Json"
    | .markdown => .str c!"Markdown"
    | .tags => .str c!"Tags"
    | .templateFile p => .obj [(c!"TemplateFile", .str p)]
    | .templateString p => .obj [(c!"TemplateString", .str p)]
  let artefact (a : ArtefactConfig) : Json := .obj ([(c!"id", .str a.id), (c!"paths", .arr (a.paths.map .str)),
    (c!"parser", parser a.parser)] ++ opt c!"ignore_derived_requirements" .bool a.ignoreDerivedRequirements ++
    opt c!"reference_with_title" .bool a.referenceWithTitle)
  let relation (r : Relation) : Json := .obj [(c!"upper", .str r.upper), (c!"lower", .arr (r.lower.map .str))]
  let job (b : Job) : Json := .obj ([(c!"query", query b.query), (c!"format", format b.format), (c!"file", .str b.file)] ++
    opt c!"set_return_code" .bool b.setReturnCode)
  .obj (opt c!"version" .num c.version ++ [(c!"artefacts", .arr (c.artefacts.map artefact)),
    (c!"relations", .arr (c.relations.map relation))] ++
    opt c!"jobs" (fun m => .obj (m.entries.map fun e => (e.1, job e.2))) c.jobs ++
    opt c!"default_jobs" (fun l => .arr (l.map .str)) c.defaultJobs)

end Reqtrace.ConfigRead
