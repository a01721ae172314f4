import Verif.Spec.Run

/-!
# How the answers for different inputs belong together, and what can be read from them
-/

namespace Reqtrace.Spec

/-- The report in the form of compiler errors when there is nothing to report: only headings. -/
def headingsOnly (g : Graph) : Str :=
  c!"# Parsing Errors\n# Tracing Errors\n# Uncovered Requirement\n" ++
  g.relations.flatMap (fun rel => c!"## " ++ rel.upper ++ c!" => [" ++ List.intercalate c!", " rel.lower ++ c!"]\n") ++
  c!"Derived Requirement\n" ++ g.artefacts.keys.flatMap (fun a => c!"## " ++ a ++ c!"\n")

/-- Two jobs write to the same place: both to the standard output, or to the same file. -/
def SamePlace (env : Env) (base : Path) (j k : Job) : Prop :=
  (j.file = c!"-" ∧ k.file = c!"-") ∨
    (j.file ≠ c!"-" ∧ k.file ≠ c!"-" ∧ env.os.resolve (target base j.file) = env.os.resolve (target base k.file))

/-- Of the jobs with these names, those that write to the same place write the same report. -/
def NoConflict (env : Env) (base : Path) (config : Config) (names : List Str) : Prop :=
  ∀ n ∈ names, ∀ m ∈ names, ∀ j k, (config.jobs.getD .empty).get n = some j → (config.jobs.getD .empty).get m = some k →
    SamePlace env base j k → j.query = k.query ∧ j.format = k.format

/-- `g'` is `g` with one more requirement `n`, in artefact `x`; its id is new. -/
structure AddsRequirement (g g' : Graph) (x : ArtefactId) (n : Requirement) : Prop where
  relations : g'.relations = g.relations
  others : ∀ a, a ≠ x → g'.artefacts.get a = g.artefacts.get a
  here : ∃ art reqs, g.artefacts.get x = some art ∧ g'.artefacts.get x = some { art with requirements := reqs } ∧
    ∀ k, reqs.get k = if k = n.id then some n else art.requirements.get k
  fresh : ∀ a r, Defines g a r → r.id ≠ n.id

/-- A reference with another name for the requirement. -/
def renamedRef (f : RequirementId → RequirementId) (ref : Reference) : Reference := { ref with id := f ref.id }

/-- A requirement with other names for all requirements. -/
def renamed (f : RequirementId → RequirementId) (r : Requirement) : Requirement :=
  { r with id := f r.id, covers := r.covers.map (renamedRef f), depends := r.depends.map (renamedRef f) }

/-- `g'` is `g` with other names for all requirements. -/
structure Renames (f : RequirementId → RequirementId) (g g' : Graph) : Prop where
  injective : ∀ a b, f a = f b → a = b
  relations : g'.relations = g.relations
  missing : ∀ a, g.artefacts.get a = none → g'.artefacts.get a = none
  here : ∀ a art, g.artefacts.get a = some art → ∃ reqs, g'.artefacts.get a = some { art with requirements := reqs } ∧
    ∀ k r', reqs.get k = some r' ↔ ∃ r, art.requirements.get r.id = some r ∧ k = f r.id ∧ r' = renamed f r

/-- A coverage with other names. -/
def renamedCoverage (f : RequirementId → RequirementId) (c : Coverage) : Coverage :=
  { c with upper := f c.upper, lower := f c.lower }

/-- An error of tracing with other names. -/
def renamedError (f : RequirementId → RequirementId) : Error → Error
  | .duplicateRequirement a b => .duplicateRequirement (renamed f a) (renamed f b)
  | .coveredWithWrongTitle u l t loc => .coveredWithWrongTitle (renamed f u) (renamed f l) t loc
  | .dependWithWrongTitle u l t loc => .dependWithWrongTitle (renamed f u) (renamed f l) t loc
  | .referencedWithoutTitle r loc => .referencedWithoutTitle (renamed f r) loc
  | .coversUnknownRequirement r id loc => .coversUnknownRequirement (renamed f r) (f id) loc
  | .dependOnUnknownRequirement r id loc => .dependOnUnknownRequirement (renamed f r) (f id) loc
  | e => e

end Reqtrace.Spec
