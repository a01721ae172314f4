import Verif.JsonRead

/-!
# The configuration: the derived `Deserialize` of `src/models.rs` on a TOML document

The text of the configuration file is read by `toml::from_slice` (toml 0.5); the reading of the text is a parameter.
The model begins with the value tree of the document.  The tree is a `Json`: tables are objects (toml refuses
duplicate keys), natural numbers are `num`; negative integers, floating point numbers and dates, which no setting
takes, are `real`; there is no `null`.

Differences: an enum spelled with a table of its own (`[jobs.x.format]`) is refused by toml 0.5, while inline tables
(`format = {TemplateFile = "x"}`) are accepted; the tree does not show the spelling and the model accepts both.
-/

namespace Reqtrace

namespace ConfigRead

open JsonRead

/-- `bool` -/
def toBool : Json → Option Bool
  | .bool b => some b
  | _ => none

/-- `u32::MAX` -/
def u32Max : Nat := 2 ^ 32 - 1

/-- `u32` -/
def toU32 : Json → Option Nat
  | .num n => if n ≤ u32Max then some n else none
  | _ => none

/-- `BTreeMap<String, T>` -/
def toTable {α : Type} (f : Json → Option α) : Json → Option (BMap Str α)
  | .obj ms => do
    let vs ← JsonRead.all f (ms.map Prod.snd)
    return BMap.ofList ((ms.map Prod.fst).zip vs)
  | _ => none

/-- A variant of an enum without content: its name, or a table with its name and an empty table
(`toml::de::TableEnumDeserializer::unit_variant`) -/
def unitVariant : Json → Option Str
  | .str s => some s
  | .obj [(k, .obj [])] => some k
  | _ => none

/-- `models.rs:56-62` -/
def toParser (v : Json) : Option ArtefactParser := do
  let s ← unitVariant v
  if s = c!"Markdown" then some .markdown
  else if s = c!"Rust" then some .rust
  else if s = c!"MonoRequirement" then some .monoRequirement
  else if s = c!"Json" then some .json
  else none

/-- `models.rs:86-93` -/
def toQuery (v : Json) : Option Query := do
  let s ← unitVariant v
  if s = c!"Parse" then some .parse
  else if s = c!"Trace" then some .trace
  else none

/-- `models.rs:103-111` -/
def toFormat (v : Json) : Option Format :=
  match v with
  | .obj [(k, .str s)] =>
    if k = c!"TemplateFile" then some (.templateFile s)
    else if k = c!"TemplateString" then some (.templateString s)
    else none
  | v => do
    let s ← unitVariant v
    if s = c!"GnuError" then some .gnuError
    else if s = c!"Json" then some .json
    else if s = c!"Markdown" then some .markdown
    else if s = c!"Tags" then some .tags
    else none

/-- `models.rs:64-75` -/
def toArtefactConfig (v : Json) : Option ArtefactConfig := do
  let f ← fields [c!"id", c!"paths", c!"parser", c!"ignore_derived_requirements", c!"reference_with_title"] v
  return { id := ← required toStr (f c!"id")
           paths := ← required (toVec toStr) (f c!"paths")
           parser := ← required toParser (f c!"parser")
           ignoreDerivedRequirements := ← toOpt toBool (f c!"ignore_derived_requirements")
           referenceWithTitle := ← toOpt toBool (f c!"reference_with_title") }

/-- `models.rs:361-368` -/
def toRelation (v : Json) : Option Relation := do
  let f ← fields [c!"upper", c!"lower"] v
  return { upper := ← required toStr (f c!"upper")
           lower := ← required (toVec toStr) (f c!"lower") }

/-- `models.rs:95-101` -/
def toJob (v : Json) : Option Job := do
  let f ← fields [c!"query", c!"format", c!"file", c!"set_return_code"] v
  return { query := ← required toQuery (f c!"query")
           format := ← required toFormat (f c!"format")
           file := ← required toStr (f c!"file")
           setReturnCode := ← toOpt toBool (f c!"set_return_code") }

/-- `models.rs:77-84` -/
def toConfig (v : Json) : Option Config := do
  let f ← fields [c!"version", c!"artefacts", c!"relations", c!"jobs", c!"default_jobs"] v
  return { version := ← toOpt toU32 (f c!"version")
           artefacts := ← required (toVec toArtefactConfig) (f c!"artefacts")
           relations := ← required (toVec toRelation) (f c!"relations")
           jobs := ← toOpt (toTable toJob) (f c!"jobs")
           defaultJobs := ← toOpt (toVec toStr) (f c!"default_jobs") }

end ConfigRead

end Reqtrace
