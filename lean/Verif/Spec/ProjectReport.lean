import Verif.Spec.CodeTree
import Verif.Spec.Run

/-!
# Specification: the report on a project with requirements in a Markdown document and marks in Rust code
-/

namespace Reqtrace.Spec

/-- These are all that have the property, each once, in ascending order of their keys. -/
def InOrder {α κ : Type} [Ord κ] (key : α → κ) (P : α → Prop) (l : List α) : Prop :=
  (∀ a, a ∈ l ↔ P a) ∧ l.Pairwise fun a b => compare (key a) (key b) = .lt

/-- What the report says about a mark that names the requirement: that the title is wrong, with a note where the right one
stands, or that a title is missing. -/
def titleLines (env : FmtEnv) (upper : ArtefactConfig) (r : Requirement) (mark : Reference) : List GnuLine :=
  match mark.title with
  | some t =>
    if r.title = some t then []
    else [(placeText mark.location, r.id ++ c!" covered with wrong title. Expected " ++
        quoted env (titleOr c!"<no title>" r) ++ c!", actual " ++ quoted env t),
      (placeText r.location, c!"note: Defined here")]
  | none =>
    if upper.referenceWithTitle = some true then
      [(placeText mark.location, c!"should reference " ++ r.id ++ c!" with title " ++ quoted env (titleOr c!"<no title>" r))]
    else []

/-- The mark is the first of its item with this id, and there is no requirement with the id. -/
def NamesNothing (R I : Requirement → Prop) (x : Requirement × Reference) : Prop :=
  I x.1 ∧ (∃ before after, x.1.covers = before ++ x.2 :: after ∧ ∀ m ∈ before, m.id ≠ x.2.id) ∧ ∀ r, R r → r.id ≠ x.2.id

/-- The report, in the form of compiler errors, on a project with these requirements and these marked items: wrong titles,
in the order of the requirements and of the items; that no mark names a requirement, if so; marks for unknown
requirements, in the order of their ids; the requirements without a mark; the items whose marks all name nothing. -/
def ProjectReport (env : FmtEnv) (upper code : ArtefactConfig) (R I : Requirement → Prop) (text : Str) : Prop :=
  ∃ reqs items unknown, InOrder Requirement.id R reqs ∧ InOrder Requirement.id I items ∧
    InOrder (fun x : Requirement × Reference => (x.2.id, x.1.id)) (NamesNothing R I) unknown ∧
    text = c!"# Parsing Errors\n# Tracing Errors\n" ++
      gnuText (reqs.flatMap fun r => items.flatMap fun i =>
        (i.covers.filter fun m => m.id = r.id).flatMap (titleLines env upper r)) ++
      (if ∀ i ∈ items, ∀ m ∈ i.covers, ∀ r ∈ reqs, m.id ≠ r.id then
        c!"Error in config file: UnusedRelation(Relation { upper: " ++ quotedId env upper.id ++ c!", lower: [" ++
          quotedId env code.id ++ c!"] })\n" else []) ++
      gnuText (unknown.map fun x => (placeText x.2.location, x.1.id ++ c!" Covers unknown requirement " ++ x.2.id)) ++
      c!"# Uncovered Requirement\n## " ++ upper.id ++ c!" => [" ++ code.id ++ c!"]\n" ++
      gnuText ((reqs.filter fun r => ∀ i ∈ items, ∀ m ∈ i.covers, m.id ≠ r.id).map fun r =>
        (placeText r.location, r.id ++ c!" Uncovered")) ++
      c!"Derived Requirement\n" ++
      (if compare upper.id code.id = .lt then c!"## " ++ upper.id ++ c!"\n" else []) ++
      c!"## " ++ code.id ++ c!"\n" ++
      gnuText ((items.filter fun i => code.ignoreDerivedRequirements ≠ some true ∧
        ∀ m ∈ i.covers, ∀ r ∈ reqs, m.id ≠ r.id).map fun i => (placeText i.location, i.id ++ c!" Derived")) ++
      (if compare upper.id code.id = .lt then [] else c!"## " ++ upper.id ++ c!"\n")

/-- The job is done by the run, and no later job writes to the same file. -/
def WritesLast (env : Env) (opt : Arguments) (config : Config) (job : Job) : Prop :=
  ∃ pre post, JobsOf (config.jobs.getD .empty) (requested config opt) (pre ++ job :: post) ∧
    ∀ later ∈ post, later.file ≠ c!"-" →
      env.os.resolve (target opt.baseDir job.file) ≠ env.os.resolve (target opt.baseDir later.file)

end Reqtrace.Spec
