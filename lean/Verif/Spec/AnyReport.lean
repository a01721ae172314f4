import Verif.Spec.ListText

/-!
# Specification: from the texts of a project to the text of the report
-/

namespace Reqtrace.Spec

/-- The configuration asks for titles in references to the requirements of the artefact. -/
def AsksTitles (config : Config) (a : ArtefactId) : Prop :=
  ∃ ac ∈ config.artefacts, ac.id = a ∧ ac.referenceWithTitle = some true

instance (config : Config) (a : ArtefactId) : Decidable (AsksTitles config a) :=
  inferInstanceAs (Decidable (∃ ac ∈ config.artefacts, ac.id = a ∧ ac.referenceWithTitle = some true))

instance (u l : Requirement) : Decidable (Linked u l) :=
  inferInstanceAs (Decidable ((∃ ref ∈ l.covers, ref.id = u.id) ∨ ∃ ref ∈ u.depends, ref.id = l.id))

instance (reqs : ArtefactId → List Requirement) (rel : Relation) (u : Requirement) :
    Decidable (CoveredAlong (fun a r => r ∈ reqs a) rel u) :=
  inferInstanceAs (Decidable (∃ a ∈ rel.lower, ∃ l, l ∈ reqs a ∧ Linked u l))

instance (config : Config) (ac : ArtefactConfig) : Decidable (MustCover config ac) :=
  inferInstanceAs (Decidable (ac.ignoreDerivedRequirements = some false ∨
    ac.ignoreDerivedRequirements = none ∧ ∃ rel ∈ config.relations, ac.id ∈ rel.lower))

/-- What the report says about the title in a reference to the requirement: that it is wrong, with a note where the right
one stands, or that there is none. -/
def referenceLines (env : FmtEnv) (how : Str) (asked : Prop) [Decidable asked] (r : Requirement) (ref : Reference) :
    List GnuLine :=
  match ref.title with
  | some t =>
    if r.title = some t then []
    else [(placeText ref.location, r.id ++ how ++ c!" with wrong title. Expected " ++
        quoted env (titleOr c!"<no title>" r) ++ c!", actual " ++ quoted env t),
      (placeText r.location, c!"note: Defined here")]
  | none =>
    if asked then
      [(placeText ref.location, c!"should reference " ++ r.id ++ c!" with title " ++ quoted env (titleOr c!"<no title>" r))]
    else []

/-- About the titles in references along a relation, for each requirement of the upper artefact: first what it depends on,
then what covers it. -/
def titlesAlong (env : FmtEnv) (config : Config) (reqs : ArtefactId → List Requirement) (rel : Relation) : List GnuLine :=
  (reqs rel.upper).flatMap fun u =>
    (u.depends.flatMap fun ref => rel.lower.flatMap fun a => ((reqs a).filter fun l => l.id = ref.id).flatMap fun l =>
      referenceLines env c!" depended" (AsksTitles config a) l ref) ++
    (rel.lower.flatMap fun a => (reqs a).flatMap fun l => (l.covers.filter fun ref => ref.id = u.id).flatMap fun ref =>
      referenceLines env c!" covered" (AsksTitles config rel.upper) u ref)

/-- The reference is the first of these with its id. -/
def FirstOf (refs : List Reference) (ref : Reference) : Prop :=
  ∃ before after, refs = before ++ ref :: after ∧ ∀ m ∈ before, m.id ≠ ref.id

/-- The requirement covers something that is in no artefact above its own. -/
def NamesNoUpper (config : Config) (reqs : ArtefactId → List Requirement) (x : Requirement × Reference) : Prop :=
  ∃ a, x.1 ∈ reqs a ∧ FirstOf x.1.covers x.2 ∧
    ¬ ∃ rel ∈ config.relations, a ∈ rel.lower ∧ ∃ u ∈ reqs rel.upper, u.id = x.2.id

/-- The requirement depends on something that is in no artefact below its own. -/
def NamesNoLower (config : Config) (reqs : ArtefactId → List Requirement) (x : Requirement × Reference) : Prop :=
  ∃ a, x.1 ∈ reqs a ∧ FirstOf x.1.depends x.2 ∧
    ¬ ∃ rel ∈ config.relations, rel.upper = a ∧ ∃ b ∈ rel.lower, ∃ l ∈ reqs b, l.id = x.2.id

/-- The report, in the form of compiler errors, on a project without repeated ids: for each relation, wrong titles and
that nothing is covered along it, if so; references to nothing, in the order of the ids; for each relation, the
requirements that are not covered; for each artefact, in the order of their ids, the requirements that must cover something
and do not. -/
def AnyReport (env : FmtEnv) (config : Config) (reqsOf : ArtefactId → List Requirement) (text : Str) : Prop :=
  ∃ (reqs : ArtefactId → List Requirement) (arts : List ArtefactConfig) (up down : List (Requirement × Reference)),
    (∀ a, InOrder Requirement.id (· ∈ reqsOf a) (reqs a)) ∧
    InOrder ArtefactConfig.id (· ∈ config.artefacts) arts ∧
    InOrder (fun x : Requirement × Reference => (x.2.id, x.1.id)) (NamesNoUpper config reqsOf) up ∧
    InOrder (fun x : Requirement × Reference => (x.1.id, x.2.id)) (NamesNoLower config reqsOf) down ∧
    text = c!"# Parsing Errors\n# Tracing Errors\n" ++
      gnuText (config.relations.flatMap fun rel => titlesAlong env config reqs rel ++
        if ∀ u ∈ reqs rel.upper, ¬ CoveredAlong (fun a r => r ∈ reqs a) rel u then
          [(c!"Error in config file", c!"UnusedRelation(Relation { upper: " ++ quotedId env rel.upper ++
            c!", lower: [" ++ List.intercalate c!", " (rel.lower.map (quotedId env)) ++ c!"] })")]
        else []) ++
      gnuText (up.map fun x => (placeText x.2.location, x.1.id ++ c!" Covers unknown requirement " ++ x.2.id)) ++
      gnuText (down.map fun x => (placeText x.2.location, x.1.id ++ c!" Depends on unknown requirement " ++ x.2.id)) ++
      c!"# Uncovered Requirement\n" ++
      (config.relations.flatMap fun rel => c!"## " ++ relationText rel ++ c!"\n" ++
        gnuText (((reqs rel.upper).filter fun u => ¬ CoveredAlong (fun a r => r ∈ reqs a) rel u).map fun u =>
          (placeText u.location, u.id ++ c!" Uncovered"))) ++
      c!"Derived Requirement\n" ++
      arts.flatMap fun ac => c!"## " ++ ac.id ++ c!"\n" ++
        gnuText (((reqs ac.id).filter fun l => MustCover config ac ∧
          ¬ ∃ rel ∈ config.relations, ac.id ∈ rel.lower ∧ ∃ u ∈ reqs rel.upper, Linked u l).map fun l =>
            (placeText l.location, l.id ++ c!" Derived"))

end Reqtrace.Spec
