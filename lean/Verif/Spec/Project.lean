import Verif.Spec.Trace

/-!
# Graphs without faults, and graphs with more references
-/

namespace Reqtrace.Spec

/-- The requirement that a reference names, given the upper and the lower one of the coverage. -/
def referenced (upper lower : Requirement) : CoverageDirection → Requirement
  | .downwards => lower
  | .upwards => upper

/-- The artefact of the requirement that a reference names. -/
def referencedArt (rel : Relation) (lowerArt : ArtefactId) : CoverageDirection → ArtefactId
  | .downwards => lowerArt
  | .upwards => rel.upper

/-- Ids are unique, every relation is used, every reference leads along a relation to an existing requirement, and
names it with the right title or, where this is allowed, with none. -/
structure Sound (g : Graph) : Prop where
  unique : ∀ a b r s, Defines g a r → Defines g b s → r.id = s.id → a = b
  used : ∀ rel ∈ g.relations, ∃ a u l ref d, Establishes g rel a u l ref d
  covers : ∀ a l, Defines g a l → ∀ ref ∈ l.covers, ∃ rel ∈ g.relations, ∃ u, Establishes g rel a u l ref .upwards
  depends : ∀ a u, Defines g a u → ∀ ref ∈ u.depends,
    ∃ rel ∈ g.relations, rel.upper = a ∧ ∃ b l, Establishes g rel b u l ref .downwards
  titles : ∀ rel ∈ g.relations, ∀ a u l ref d, Establishes g rel a u l ref d →
    ref.title = (referenced u l d).title ∧ ref.title ≠ none ∨
    ref.title = none ∧ ∀ art, g.artefacts.get (referencedArt rel a d) = some art → art.referenceWithTitle = false

/-- Every requirement of the upper artefact of each relation is covered along it. -/
def FullyCovered (g : Graph) : Prop :=
  ∀ rel ∈ g.relations, ∀ u, Defines g rel.upper u → ∃ a l ref d, Establishes g rel a u l ref d

/-- Every requirement owned by an artefact that does not ignore derived requirements covers something. -/
def NothingDerived (g : Graph) : Prop :=
  ∀ a art, g.artefacts.get a = some art → art.ignoreDerivedRequirements = false →
    ∀ l, Owns g a l → ∃ rel ∈ g.relations, ∃ u ref d, Establishes g rel a u l ref d

/-- Each requirement id referenced in one list is referenced in the other. -/
def IdsIn (refs refs' : List Reference) : Prop := ∀ ref ∈ refs, ∃ ref' ∈ refs', ref'.id = ref.id

/-- `g'` has the artefacts, requirements and relations of `g`, and for each requirement all its references.  Titles,
locations and attributes may differ. -/
structure MoreReferences (g g' : Graph) : Prop where
  relations : g'.relations = g.relations
  artefact : ∀ a art, g.artefacts.get a = some art → ∃ art', g'.artefacts.get a = some art' ∧
    art'.ignoreDerivedRequirements = art.ignoreDerivedRequirements ∧
    (∀ id r, art.requirements.get id = some r → ∃ r', art'.requirements.get id = some r' ∧
      IdsIn r.covers r'.covers ∧ IdsIn r.depends r'.depends) ∧
    ∀ id, art.requirements.get id = none → art'.requirements.get id = none
  noArtefact : ∀ a, g.artefacts.get a = none → g'.artefacts.get a = none

/-- `g'` has one more artefact `x`, which no relation names and whose requirements have ids of their own. -/
structure AddsArtefact (g g' : Graph) (x : ArtefactId) : Prop where
  relations : g'.relations = g.relations
  others : ∀ a, a ≠ x → g'.artefacts.get a = g.artefacts.get a
  new : g.artefacts.get x = none
  unrelated : ∀ rel ∈ g.relations, rel.upper ≠ x ∧ x ∉ rel.lower
  fresh : ∀ r, Defines g' x r → ∀ a s, Defines g a s → s.id ≠ r.id

/-- The first reference of the list to the id is at the location. -/
def FirstTo (refs : List Reference) (id : RequirementId) (l : Location) : Prop :=
  ∃ pre ref post, refs = pre ++ ref :: post ∧ ref.id = id ∧ ref.location = l ∧ ∀ r ∈ pre, r.id ≠ id

/-- The errors of an artefact that no relation names: each of its references is unresolved. -/
inductive Isolated (g : Graph) (x : ArtefactId) : Error → Prop
  | covers {r id l} : Defines g x r → FirstTo r.covers id l → Isolated g x (.coversUnknownRequirement r id l)
  | depends {r id l} : Defines g x r → FirstTo r.depends id l → Isolated g x (.dependOnUnknownRequirement r id l)

end Reqtrace.Spec
