import Verif.Models

/-!
# What tracing means

Specification of the tracer, independent of `Verif.Trace`: it only uses the data types, map lookup
(`BMap.get`), iteration order (`BMap.values`) and logic.
-/

namespace Reqtrace.Spec

/-- The maps of the graph are keyed by the ids of their values. -/
structure Keyed (g : Graph) : Prop where
  artefact : ∀ a art, g.artefacts.get a = some art → art.id = a
  requirement : ∀ a art, g.artefacts.get a = some art →
    ∀ k req, art.requirements.get k = some req → req.id = k

/-- Artefact `a` of the graph contains the requirement `r`. -/
def Defines (g : Graph) (a : ArtefactId) (r : Requirement) : Prop :=
  ∃ art, g.artefacts.get a = some art ∧ art.requirements.get r.id = some r

/-- Artefact `a` owns `r`: it contains `r`, and no artefact with a smaller id contains a
requirement with the same id. -/
def Owns (g : Graph) (a : ArtefactId) (r : Requirement) : Prop :=
  Defines g a r ∧ ∀ b r', compare b a = .lt → Defines g b r' → r'.id ≠ r.id

/-- A reference `ref` establishes, along relation `rel`, that requirement `lower` of the lower
artefact `a` covers requirement `upper` of the upper artefact (README, "Coverage"):
either `upper` depends on `lower`, or `lower` covers `upper`. -/
inductive Establishes (g : Graph) (rel : Relation) :
    (a : ArtefactId) → (upper lower : Requirement) → Reference → CoverageDirection → Prop
  | down {a upper lower ref} : Defines g rel.upper upper → a ∈ rel.lower → Owns g a lower →
      ref ∈ upper.depends → ref.id = lower.id → Establishes g rel a upper lower ref .downwards
  | up {a upper lower ref} : Defines g rel.upper upper → a ∈ rel.lower → Owns g a lower →
      ref ∈ lower.covers → ref.id = upper.id → Establishes g rel a upper lower ref .upwards

/-- The graph has no relation to an artefact that does not exist. -/
def RelationsExist (g : Graph) : Prop :=
  ∀ rel ∈ g.relations, (∃ art, g.artefacts.get rel.upper = some art) ∧
    ∀ a ∈ rel.lower, ∃ art, g.artefacts.get a = some art

/-! ## The same as list comprehensions

These give in addition order and multiplicity. -/

/-- The requirements that artefact `a` owns, in id order. -/
def owned (g : Graph) (a : ArtefactId) : List Requirement :=
  match g.artefacts.get a with
  | none => []
  | some art => art.requirements.values.filter (fun r =>
      g.artefacts.entries.all (fun e =>
        !(compare e.1 a == .lt && (e.2.requirements.get r.id).isSome)))

/-- The requirements of the upper artefact of a relation. -/
def upperReqs (g : Graph) (rel : Relation) : List Requirement :=
  match g.artefacts.get rel.upper with
  | none => []
  | some art => art.requirements.values

/-- Whether references to requirements of artefact `a` need a title. -/
def needsTitle (g : Graph) (a : ArtefactId) : Bool :=
  match g.artefacts.get a with
  | none => false
  | some art => art.referenceWithTitle

/-- A reference that establishes coverage: by which requirement of which lower artefact, of which
upper requirement. -/
structure Event where
  lowerArt : ArtefactId
  upper : Requirement
  lower : Requirement
  ref : Reference
  dir : CoverageDirection
  deriving DecidableEq

/-- `depends` references of `u` to requirements owned by a lower artefact. -/
def downEvents (g : Graph) (rel : Relation) (u : Requirement) : List Event :=
  u.depends.flatMap fun ref => rel.lower.flatMap fun a =>
    ((owned g a).filter (fun l => l.id == ref.id)).map fun l => ⟨a, u, l, ref, .downwards⟩

/-- `covers` references to `u` from requirements owned by a lower artefact. -/
def upEvents (g : Graph) (rel : Relation) (u : Requirement) : List Event :=
  rel.lower.flatMap fun a => (owned g a).flatMap fun l =>
    (l.covers.filter (fun ref => ref.id == u.id)).map fun ref => ⟨a, u, l, ref, .upwards⟩

/-- Everything that establishes coverage of requirement `u` along `rel`. -/
def reqEvents (g : Graph) (rel : Relation) (u : Requirement) : List Event :=
  downEvents g rel u ++ upEvents g rel u

/-- Everything that establishes coverage along `rel`. -/
def relEvents (g : Graph) (rel : Relation) : List Event :=
  (upperReqs g rel).flatMap (reqEvents g rel)

/-- Everything that establishes coverage in the graph. -/
def allEvents (g : Graph) : List Event := g.relations.flatMap (relEvents g)

/-- The coverage record of an event. -/
def Event.coverage (e : Event) : Coverage :=
  ⟨e.upper.id, e.lower.id, e.ref.location, e.dir⟩

/-- What is wrong with the title of an established reference. -/
def titleErrors (g : Graph) (rel : Relation) (e : Event) : List Error :=
  match e.dir, e.ref.title with
  | .downwards, some t =>
    if e.lower.title = some t then []
    else [.dependWithWrongTitle e.upper e.lower t e.ref.location]
  | .downwards, none =>
    if needsTitle g e.lowerArt then [.referencedWithoutTitle e.lower e.ref.location] else []
  | .upwards, some t =>
    if e.upper.title = some t then []
    else [.coveredWithWrongTitle e.upper e.lower t e.ref.location]
  | .upwards, none =>
    if needsTitle g rel.upper then [.referencedWithoutTitle e.upper e.ref.location] else []

/-- The uncovered requirements along `rel`. -/
def uncovered (g : Graph) (rel : Relation) : List RequirementId :=
  ((upperReqs g rel).filter (fun u => (reqEvents g rel u).isEmpty)).map (·.id)

/-- The traced relation. -/
def tracedRelation (g : Graph) (rel : Relation) : TracedRelation :=
  ⟨rel, (relEvents g rel).map Event.coverage, uncovered g rel⟩

/-- The derived requirements of artefact `a`. -/
def derived (g : Graph) (a : ArtefactId) (art : Artefact) : List RequirementId :=
  if art.ignoreDerivedRequirements then []
  else ((owned g a).map (·.id)).filter (fun id => (allEvents g).all (fun e => e.lower.id != id))

/-- The owned requirement with the given id. -/
def owner (g : Graph) (id : RequirementId) : Option Requirement :=
  g.artefacts.values.findSome? (fun art => art.requirements.get id)

/-- The errors for requirements with an id owned by an earlier artefact. -/
def duplicateErrors (g : Graph) : List Error :=
  g.artefacts.entries.flatMap fun e => e.2.requirements.values.filterMap fun r =>
    (g.artefacts.entries.findSome? (fun e' =>
      if compare e'.1 e.1 = .lt then e'.2.requirements.get r.id else none)).map
      (fun old => .duplicateRequirement old r)

/-- The errors of tracing one relation. -/
def relationErrors (g : Graph) (rel : Relation) : List Error :=
  (relEvents g rel).flatMap (titleErrors g rel) ++
    (if (relEvents g rel).isEmpty then [.unusedRelation rel] else [])

/-- All (upper id, lower id) of `covers` references of owned requirements, sorted. -/
def coverLinks (g : Graph) : List (RequirementId × RequirementId) :=
  BSet.toList (BMap.ofList (ν := Unit) ((g.artefacts.keys.flatMap (owned g)).flatMap fun l =>
    l.covers.map fun ref => ((ref.id, l.id), ())))

/-- All (upper id, lower id) of `depends` references of owned requirements, sorted. -/
def dependLinks (g : Graph) : List (RequirementId × RequirementId) :=
  BSet.toList (BMap.ofList (ν := Unit) ((g.artefacts.keys.flatMap (owned g)).flatMap fun u =>
    u.depends.map fun ref => ((u.id, ref.id), ())))

/-- The link is established in the given direction along some relation. -/
def linked (g : Graph) (dir : CoverageDirection) (link : RequirementId × RequirementId) : Bool :=
  (allEvents g).any (fun e => e.dir == dir && e.upper.id == link.1 && e.lower.id == link.2)

/-- The errors for `covers` references that are nowhere established. -/
def danglingCovers (g : Graph) : List Error :=
  ((coverLinks g).filter (fun k => !linked g .upwards k)).filterMap fun k =>
    (owner g k.2).bind fun l => (l.covers.find? (fun r => r.id == k.1)).map fun ref =>
      .coversUnknownRequirement l k.1 ref.location

/-- The errors for `depends` references that are nowhere established. -/
def danglingDepends (g : Graph) : List Error :=
  ((dependLinks g).filter (fun k => !linked g .downwards k)).filterMap fun k =>
    (owner g k.1).bind fun u => (u.depends.find? (fun r => r.id == k.2)).map fun ref =>
      .dependOnUnknownRequirement u k.2 ref.location

/-- The derived lists of all artefacts. -/
def derivedMap (g : Graph) : BMap ArtefactId (List RequirementId) :=
  BMap.ofList (g.artefacts.entries.map (fun e => (e.1, derived g e.1 e.2)))

/-- The complete result of tracing. -/
def traced (g : Graph) : TracedGraph :=
  { artefacts := g.artefacts
    tracedRelations := g.relations.map (tracedRelation g)
    derived := derivedMap g
    errors := duplicateErrors g ++ g.relations.flatMap (relationErrors g) ++
      danglingCovers g ++ danglingDepends g }

/-- When tracing does not panic: each relation's upper artefact exists and, unless it is empty, all
lower artefacts exist. -/
def Traceable (g : Graph) : Prop :=
  ∀ rel ∈ g.relations, ∃ art, g.artefacts.get rel.upper = some art ∧
    (art.requirements.values ≠ [] → ∀ a ∈ rel.lower, (g.artefacts.get a).isSome)

end Reqtrace.Spec
