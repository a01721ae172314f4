import Verif.Spec.AnyMarkdown

/-!
# Specification: from the texts of a project to the result of a trace in JSON
-/

namespace Reqtrace.Spec

namespace JsonOut

/-- An artefact, with its files. -/
def AnyArt (config : Config) (reqs : ArtefactId → List Requirement) (files : ArtefactId → List Path) (ac : ArtefactConfig) :
    Schema :=
  Object [(c!"id", Text ac.id), (c!"files", ListOf Text (files ac.id)),
    (c!"ignore_derived_requirements", Truth (decide (¬ MustCover config ac))),
    (c!"reference_with_title", Truth (decide (ac.referenceWithTitle = some true))),
    (c!"requirements", Object ((reqs ac.id).map fun r => (r.id, Req r))), (c!"errors", Tuple [])]

/-- A reference between two requirements. -/
def AnyCovering (direction : Str) (u l : Requirement) (ref : Reference) : Schema :=
  Object [(c!"upper", Text u.id), (c!"lower", Text l.id), (c!"location", Place ref.location), (c!"direction", Text direction)]

/-- The references along a relation: for each requirement of the upper artefact first those by which it depends on one
below, then those by which it is covered. -/
def coverings (reqs : ArtefactId → List Requirement) (rel : Relation) : List Schema :=
  (reqs rel.upper).flatMap fun u =>
    (u.depends.flatMap fun ref => rel.lower.flatMap fun a => ((reqs a).filter fun l => l.id = ref.id).map fun l =>
      AnyCovering c!"Downwards" u l ref) ++
    (rel.lower.flatMap fun a => (reqs a).flatMap fun l => (l.covers.filter fun ref => ref.id = u.id).map fun ref =>
      AnyCovering c!"Upwards" u l ref)

def AnyRel (reqs : ArtefactId → List Requirement) (rel : Relation) : Schema :=
  Object [(c!"upper", Text rel.upper), (c!"lower", ListOf Text rel.lower), (c!"covered", Tuple (coverings reqs rel)),
    (c!"uncovered", Tuple ((openAlong reqs rel).map fun u => Text u.id))]

/-- The result of a trace of a project without repeated ids. -/
def AnyTrace (config : Config) (reqs : ArtefactId → List Requirement) (arts : List ArtefactConfig)
    (up down : List (Requirement × Reference)) (files : ArtefactId → List Path) : Schema :=
  Object [(c!"version", Number 0), (c!"trace", Object [
    (c!"artefacts", Object (arts.map fun ac => (ac.id, AnyArt config reqs files ac))),
    (c!"traced_relations", ListOf (AnyRel reqs) config.relations),
    (c!"derived", Object (arts.map fun ac => (ac.id, Tuple ((freeOf config reqs ac).map fun l => Text l.id)))),
    (c!"errors", ListOf Err (faults config reqs up down))])]

end JsonOut

/-- The result of a trace in JSON, on a project without repeated ids. -/
def AnyJson (env : Env) (w : World) (base : Path) (config : Config) (reqsOf : ArtefactId → List Requirement) (text : Str) :
    Prop :=
  ∃ (reqs : ArtefactId → List Requirement) (arts : List ArtefactConfig) (up down : List (Requirement × Reference))
    (files : ArtefactId → List Path) (j : Json),
    (∀ a, InOrder Requirement.id (· ∈ reqsOf a) (reqs a)) ∧
    InOrder ArtefactConfig.id (· ∈ config.artefacts) arts ∧
    InOrder (fun x : Requirement × Reference => (x.2.id, x.1.id)) (NamesNoUpper config reqsOf) up ∧
    InOrder (fun x : Requirement × Reference => (x.1.id, x.2.id)) (NamesNoLower config reqsOf) down ∧
    (∀ ac ∈ config.artefacts, FilesOf env w ac base (files ac.id)) ∧
    JsonOut.AnyTrace config reqs arts up down files j ∧ JsonOut.Shows 0 j text

end Reqtrace.Spec
