import Verif.Spec.TextProject
import Verif.Spec.ProjectReport
import Verif.Spec.Output

/-!
# Specification: from the texts of a project to the lists of its requirements
-/

namespace Reqtrace.Spec

/-- No id is there twice in the whole project, and requirements have titles where the configuration asks for titles. -/
structure EachOnce (config : Config) (reqsOf : ArtefactId → List Requirement) : Prop where
  ids : ((config.artefacts.flatMap fun ac => reqsOf ac.id).map (·.id)).Nodup
  titles : ∀ ac ∈ config.artefacts, ac.referenceWithTitle = some true → ∀ r ∈ reqsOf ac.id, r.title ≠ none

/-- The list of these requirements: for ctags, a line for each that has a line, the lines sorted; in Markdown, an entry
for each, in the order of their ids; in JSON, an object for each, in the order of their ids, and no errors. -/
inductive RequirementList (R : Requirement → Prop) : Format → Str → Prop
  | tags {reqs} {unsorted sorted : List Str} : InOrder Requirement.id R reqs → TagLines reqs unsorted → sorted.Perm unsorted →
      sorted.Pairwise (fun s t => compare s t ≠ .gt) →
      RequirementList R .tags (c!"!_TAG_FILE_SORTED\t1\t/0=unsorted, 1=sorted, 2=foldcase/\n" ++
        c!"!_TAG_PROGRAM_NAME\treqtrace/\n" ++ c!"!_TAG_PROGRAM_URL\thttps://github.com/wonkodv/reqtrace/\n" ++
        c!"!_TAG_PROGRAM_VERSION\t0\t//\n" ++ sorted.flatten)
  | markdown {reqs} {entry : Requirement → Str} : InOrder Requirement.id R reqs → (∀ r, RequirementEntry r (entry r)) →
      RequirementList R .markdown (reqs.flatMap entry)
  | json {reqs j text} : InOrder Requirement.id R reqs →
      JsonOut.Object [(c!"version", JsonOut.Number 0), (c!"requirements", JsonOut.ListOf JsonOut.Req reqs),
        (c!"errors", JsonOut.ListOf JsonOut.Err [])] j → JsonOut.Shows 0 j text → RequirementList R .json text

end Reqtrace.Spec
