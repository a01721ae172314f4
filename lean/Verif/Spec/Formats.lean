import Verif.Spec.Whole
import Verif.Spec.Reimport

/-!
# The same requirements, written in another way
-/

namespace Reqtrace.Spec

/-- The first requirement with its id; only these count. -/
def Counts (reqs : List Requirement) (r : Requirement) : Prop :=
  ∃ pre post, reqs = pre ++ r :: post ∧ ∀ s ∈ pre, s.id ≠ r.id

/-- Entries for the same artefact that say the same requirements, whatever the format of the files, their number and the
order in them. -/
structure SameRequirements (env : Env) (w w' : World) (base base' : Path) (ac ac' : ArtefactConfig) : Prop where
  id : ac.id = ac'.id
  ignore : ac.ignoreDerivedRequirements = ac'.ignoreDerivedRequirements
  titles : ac.referenceWithTitle = ac'.referenceWithTitle
  means : ∃ fs fs' reqs reqs' errs errs', ArtefactMeans env w ac base fs reqs errs ∧
    ArtefactMeans env w' ac' base' fs' reqs' errs' ∧ ∀ r, Counts reqs r ↔ Counts reqs' r

/-- Projects with the same requirements. -/
structure ProjectRewritten (env : Env) (w w' : World) (base base' : Path) (config config' : Config) : Prop where
  relations : config.relations = config'.relations
  jobs : config.jobs = config'.jobs
  defaultJobs : config.defaultJobs = config'.defaultJobs
  artefacts : Pairs (SameRequirements env w w' base base') config.artefacts config'.artefacts

/-- An artefact without what its files are called and what is wrong in them. -/
def contents (a : Artefact) : Artefact := { a with files := [], errors := [] }

/-- The configuration with the artefact read from a JSON file. -/
def fromJson (ac : ArtefactConfig) (p : Path) : ArtefactConfig := { ac with paths := [p], parser := .json }

/-- The same artefacts, requirements and relations. -/
def SameContents (g g' : Graph) : Prop :=
  g.relations = g'.relations ∧ g.artefacts.mapValues contents = g'.artefacts.mapValues contents

/-- The same is found. -/
def SameFindings (tg tg' : TracedGraph) : Prop :=
  tg.tracedRelations = tg'.tracedRelations ∧ tg.derived = tg'.derived ∧ tg.errors = tg'.errors

/-- The errors of the artefacts are the same. -/
def SameErrors (g g' : Graph) : Prop :=
  ∀ a art art', g.artefacts.get a = some art → g'.artefacts.get a = some art' → art.errors = art'.errors

/-- The job lists the files of the artefacts. -/
def ListsFiles (job : Job) : Prop := job.query = .trace ∧ job.format = .json

end Reqtrace.Spec
