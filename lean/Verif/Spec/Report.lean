import Verif.Spec.Trace
import Verif.Spec.Formatters
import Verif.Spec.Markdown

/-!
# What the Markdown reports have to say about each requirement
-/

namespace Reqtrace.Spec

/-- No id is defined twice. -/
def UniqueIds (g : Graph) : Prop := ∀ a b r s, Defines g a r → Defines g b s → r.id = s.id → a = b

/-- What covers a requirement along a relation, with the place of the reference; once for each time that the relation
is configured. -/
def coveredBy (g : Graph) (rel : Relation) (u : Requirement) : List (Requirement × Location) :=
  (g.relations.filter (· = rel)).flatMap fun rel =>
    ((relEvents g rel).filter (fun e => e.upper.id = u.id)).map fun e => (e.lower, e.ref.location)

/-- What a requirement covers along a relation. -/
def coveredOf (g : Graph) (rel : Relation) (l : Requirement) : List (Requirement × Location) :=
  (g.relations.filter (· = rel)).flatMap fun rel =>
    ((relEvents g rel).filter (fun e => e.lower.id = l.id)).map fun e => (e.upper, e.ref.location)

/-- A link to a place. -/
def placeLink (loc : Location) : Str :=
  match loc.locationInFile with
  | none => c!"[" ++ loc.file ++ c!"](../" ++ loc.file ++ c!")"
  | some (.string s) => c!"[" ++ loc.file ++ c!"](../" ++ loc.file ++ c!"):" ++ s
  | some (.line n) => c!"[" ++ loc.file ++ c!":" ++ natStr n ++ c!"](../" ++ loc.file ++ c!"?plain=1#L" ++ natStr n ++ c!")"
  | some (.lineAndColumn n k) =>
    c!"[" ++ loc.file ++ c!":" ++ natStr n ++ c!":" ++ natStr k ++ c!"](../" ++ loc.file ++ c!"?plain=1#L" ++ natStr n ++ c!")"

/-- The description, if there is one. -/
def descriptionText (r : Requirement) : Str :=
  match r.attributes.get c!"Description" with
  | none => []
  | some d => c!"\n\n" ++ d ++ c!"\n"

/-- The other attributes: name and trimmed value of each that is not blank. -/
inductive OtherAttributes : List (Str × Str) → Str → Prop
  | nil : OtherAttributes [] []
  | description {v as t} : OtherAttributes as t → OtherAttributes ((c!"Description", v) :: as) t
  | blank {a v as t} : Blank v → OtherAttributes as t → OtherAttributes ((a, v) :: as) t
  | shown {a v w as t} : a ≠ c!"Description" → TrimsTo v w → w ≠ [] → OtherAttributes as t →
      OtherAttributes ((a, v) :: as) (c!"\n" ++ a ++ c!":\n" ++ w ++ c!"\n" ++ t)

/-- A requirement at the other end of a coverage, and where the reference is. -/
def coverageText (link : Requirement → Str) (c : Requirement × Location) : Str :=
  c!"    *   " ++ link c.1 ++ c!"\n        Reference: " ++ placeLink c.2 ++ c!"\n"

/-- What a requirement covers: for each relation, and a remark if there is nothing at all. -/
def upwardsText (link : Requirement → Str) (g : Graph) (rels : List Relation) (r : Requirement) : Str :=
  c!"\nUpwards Tracing:\n" ++
  rels.flatMap (fun rel => c!"*   " ++ rel.display ++ c!"\n" ++ (coveredOf g rel r).flatMap (coverageText link)) ++
  if ∀ rel ∈ rels, coveredOf g rel r = [] then c!"    *   Derived\n" else []

/-- What covers a requirement: for each relation, and a remark for each along which there is nothing. -/
def downwardsText (link : Requirement → Str) (g : Graph) (rels : List Relation) (r : Requirement) : Str :=
  c!"\nDownwards Tracing:\n" ++
  rels.flatMap fun rel => c!"*   " ++ rel.display ++ c!"\n" ++
    if coveredBy g rel r = [] then c!"    *    UNCOVERED\n" else (coveredBy g rel r).flatMap (coverageText link)

/-- `rels` are the relations of the graph with a property, each once. -/
def RelationsWith (g : Graph) (P : Relation → Prop) (rels : List Relation) : Prop :=
  (∀ rel, rel ∈ rels ↔ rel ∈ g.relations ∧ P rel) ∧ rels.Pairwise (fun a b => compare a b = .lt)

/-- The section of requirement `r` of artefact `a` in the report of a trace. -/
def RequirementSection (link : Requirement → Str) (g : Graph) (a : ArtefactId) (r : Requirement) (text : Str) : Prop :=
  ∃ above below attrs, RelationsWith g (fun rel => a ∈ rel.lower) above ∧ RelationsWith g (fun rel => rel.upper = a) below ∧
    OtherAttributes r.attributes.entries attrs ∧
    text = c!"\n### " ++ headingText r ++ c!"\n\nOrigin: " ++ a ++ c!", " ++ placeLink r.location ++ c!"\n" ++
      descriptionText r ++ attrs ++ upwardsText link g above r ++ downwardsText link g below r

/-- An item of a list of references. -/
def referenceText (ref : Reference) : Str :=
  c!"*   " ++ ref.id ++ (match ref.title with
    | none => []
    | some t => c!": " ++ t) ++ c!"\n"

/-- A list of references with its name, if there are any. -/
def referencesText (name : Str) (refs : List Reference) : Str :=
  if refs = [] then [] else c!"\n" ++ name ++ c!":\n" ++ refs.flatMap referenceText

/-- A requirement in the list of requirements. -/
def RequirementEntry (r : Requirement) (text : Str) : Prop :=
  ∃ attrs, OtherAttributes r.attributes.entries attrs ∧
    text = c!"\n### " ++ r.id ++ c!": " ++ r.title.getD [] ++ c!"\n\nOrigin: " ++ placeLink r.location ++ c!"\n" ++
      descriptionText r ++ referencesText c!"Covers" r.covers ++ referencesText c!"Depends" r.depends ++ attrs

end Reqtrace.Spec
