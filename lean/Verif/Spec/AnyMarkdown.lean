import Verif.Spec.AnyReport

/-!
# Specification: from the texts of a project to the Markdown report of a trace
-/

namespace Reqtrace.Spec

/-- The references along a relation, with the requirement above and that below: for each requirement of the upper artefact
first those by which it depends on one below, then those by which it is covered. -/
def referencesAlong (reqs : ArtefactId → List Requirement) (rel : Relation) : List (Requirement × Requirement × Reference) :=
  (reqs rel.upper).flatMap fun u =>
    (u.depends.flatMap fun ref => rel.lower.flatMap fun a => ((reqs a).filter fun l => l.id = ref.id).map fun l => (u, l, ref)) ++
    (rel.lower.flatMap fun a => (reqs a).flatMap fun l => (l.covers.filter fun ref => ref.id = u.id).map fun ref => (u, l, ref))

/-- What is wrong with the titles in references along a relation. -/
def wrongTitles (config : Config) (reqs : ArtefactId → List Requirement) (rel : Relation) : List Error :=
  (reqs rel.upper).flatMap fun u =>
    (u.depends.flatMap fun ref => rel.lower.flatMap fun a => ((reqs a).filter fun l => l.id = ref.id).flatMap fun l =>
      match ref.title with
      | some t => if l.title = some t then [] else [.dependWithWrongTitle u l t ref.location]
      | none => if AsksTitles config a then [.referencedWithoutTitle l ref.location] else []) ++
    (rel.lower.flatMap fun a => (reqs a).flatMap fun l => (l.covers.filter fun ref => ref.id = u.id).flatMap fun ref =>
      match ref.title with
      | some t => if u.title = some t then [] else [.coveredWithWrongTitle u l t ref.location]
      | none => if AsksTitles config rel.upper then [.referencedWithoutTitle u ref.location] else [])

/-- What is wrong in the project: for each relation, wrong titles and that nothing is covered along it; references to
nothing, upwards and downwards. -/
def faults (config : Config) (reqs : ArtefactId → List Requirement) (up down : List (Requirement × Reference)) : List Error :=
  (config.relations.flatMap fun rel => wrongTitles config reqs rel ++
    if ∀ u ∈ reqs rel.upper, ¬ CoveredAlong (fun a r => r ∈ reqs a) rel u then [.unusedRelation rel] else []) ++
  (up.map fun x => .coversUnknownRequirement x.1 x.2.id x.2.location) ++
  (down.map fun x => .dependOnUnknownRequirement x.1 x.2.id x.2.location)

/-- The requirements of the upper artefact that nothing covers along the relation. -/
def openAlong (reqs : ArtefactId → List Requirement) (rel : Relation) : List Requirement :=
  (reqs rel.upper).filter fun u => ¬ CoveredAlong (fun a r => r ∈ reqs a) rel u

/-- The requirements of the artefact that must cover something and do not. -/
def freeOf (config : Config) (reqs : ArtefactId → List Requirement) (ac : ArtefactConfig) : List Requirement :=
  (reqs ac.id).filter fun l => MustCover config ac ∧
    ¬ ∃ rel ∈ config.relations, ac.id ∈ rel.lower ∧ ∃ u ∈ reqs rel.upper, Linked u l

/-- What the requirement covers along a relation, with the places of the references; again for each time that the
configuration has the relation. -/
def aboveAlong (config : Config) (reqs : ArtefactId → List Requirement) (rel : Relation) (r : Requirement) :
    List (Requirement × Location) :=
  (config.relations.filter (· = rel)).flatMap fun rel =>
    ((referencesAlong reqs rel).filter fun x => x.2.1.id = r.id).map fun x => (x.1, x.2.2.location)

/-- What covers the requirement along a relation. -/
def belowAlong (config : Config) (reqs : ArtefactId → List Requirement) (rel : Relation) (r : Requirement) :
    List (Requirement × Location) :=
  (config.relations.filter (· = rel)).flatMap fun rel =>
    ((referencesAlong reqs rel).filter fun x => x.1.id = r.id).map fun x => (x.2.1, x.2.2.location)

/-- The section about requirement `r` of artefact `a`. -/
def AnySection (link : Requirement → Str) (config : Config) (reqs : ArtefactId → List Requirement) (a : ArtefactId)
    (r : Requirement) (text : Str) : Prop :=
  ∃ (above below : List Relation) (attrs : Str),
    InOrder (fun rel : Relation => rel) (fun rel => rel ∈ config.relations ∧ a ∈ rel.lower) above ∧
    InOrder (fun rel : Relation => rel) (fun rel => rel ∈ config.relations ∧ rel.upper = a) below ∧
    OtherAttributes r.attributes.entries attrs ∧
    text = c!"\n### " ++ headingText r ++ c!"\n\n" ++
      c!"Origin: " ++ a ++ c!", " ++ placeLink r.location ++ c!"\n" ++ descriptionText r ++ attrs ++
      c!"\nUpwards Tracing:\n" ++
      above.flatMap (fun rel => c!"*   " ++ relationText rel ++ c!"\n" ++
        (aboveAlong config reqs rel r).flatMap (coverageText link)) ++
      (if ∀ rel ∈ above, aboveAlong config reqs rel r = [] then c!"    *   Derived\n" else []) ++
      c!"\nDownwards Tracing:\n" ++
      below.flatMap (fun rel => c!"*   " ++ relationText rel ++ c!"\n" ++
        if belowAlong config reqs rel r = [] then c!"    *    UNCOVERED\n"
        else (belowAlong config reqs rel r).flatMap (coverageText link))

/-- The Markdown report on a project without repeated ids. -/
def AnyMarkdown (env : FmtEnv) (config : Config) (reqsOf : ArtefactId → List Requirement) (text : Str) : Prop :=
  ∃ (reqs : ArtefactId → List Requirement) (arts : List ArtefactConfig) (up down : List (Requirement × Reference))
    (link : Requirement → Str) (body : ArtefactId → Requirement → Str),
    (∀ a, InOrder Requirement.id (· ∈ reqsOf a) (reqs a)) ∧
    InOrder ArtefactConfig.id (· ∈ config.artefacts) arts ∧
    InOrder (fun x : Requirement × Reference => (x.2.id, x.1.id)) (NamesNoUpper config reqsOf) up ∧
    InOrder (fun x : Requirement × Reference => (x.1.id, x.2.id)) (NamesNoLower config reqsOf) down ∧
    (∀ r, Link env r (link r)) ∧
    (∀ a, ∀ r ∈ reqs a, AnySection link config reqs a r (body a r)) ∧
    text =
      (if faults config reqs up down = [] then []
      else c!"\n\n# Tracing Errors\n\n" ++ (firsts ((faults config reqs up down).map (markdownError link))).flatten) ++
      problemSection c!"Uncovered Requirements" ((config.relations.filter fun rel => openAlong reqs rel ≠ []).map fun rel =>
        (relationText rel, (openAlong reqs rel).flatMap fun u => c!"*   " ++ link u ++ c!"\n")) ++
      problemSection c!"Derived Requirements" ((arts.filter fun ac => freeOf config reqs ac ≠ []).map fun ac =>
        (ac.id, (freeOf config reqs ac).flatMap fun l => c!"*   " ++ link l ++ c!"\n")) ++
      c!"\n\n# Requirements\n\n" ++
      arts.flatMap fun ac => c!"## " ++ ac.id ++ c!"\n" ++ (reqs ac.id).flatMap (body ac.id)

end Reqtrace.Spec
