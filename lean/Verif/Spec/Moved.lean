import Verif.Spec.Places
import Verif.Spec.Whole

/-!
# The same files at other places
-/

namespace Reqtrace.Spec

/-! ## One file -/

/-- The same place in another file. -/
def inFile (p : Path) (l : Location) : Location := { l with file := p }

/-- The requirement, if it stood in another file. -/
def reqInFile (p : Path) (r : Requirement) : Requirement :=
  { r with location := inFile p r.location, covers := r.covers.map (moveRef (inFile p)),
           depends := r.depends.map (moveRef (inFile p)) }

/-- The error, if it were about another file. -/
def errorInFile (p : Path) : Error → Error
  | .format l e => .format (inFile p l) e
  | .duplicateAttribute l a r => .duplicateAttribute (inFile p l) a r
  | .io _ e => .io p e
  | e => e

/-- The requirements, if the file were another one.  Those of a JSON file say themselves where they stand. -/
def reqsInFile (parser : ArtefactParser) (p : Path) (reqs : List Requirement) : List Requirement :=
  if parser = .json then reqs else reqs.map (reqInFile p)

/-- The names of the two files are the same if the requirement in it is called after the file. -/
def SameName (parser : ArtefactParser) (p q : Path) : Prop :=
  parser = .monoRequirement → ∃ name, FileName p name ∧ FileName q name

/-! ## A project -/

/-- No place at all. -/
def nowhere (_ : Location) : Location := ⟨[], none⟩

/-- What a requirement is without the places. -/
def forgetReq (r : Requirement) : Requirement :=
  { r with location := nowhere r.location, covers := r.covers.map (moveRef nowhere),
           depends := r.depends.map (moveRef nowhere) }

/-- What an error is without the places. -/
def forgetError : Error → Error
  | .format l e => .format (nowhere l) e
  | .duplicateAttribute l a r => .duplicateAttribute (nowhere l) a r
  | .io _ e => .io [] e
  | .duplicateRequirement r r' => .duplicateRequirement (forgetReq r) (forgetReq r')
  | .requirementWithoutTitle r => .requirementWithoutTitle (forgetReq r)
  | .config _ => .config []
  | e => e

/-- What an artefact is without the places. -/
def forgetArtefact (a : Artefact) : Artefact :=
  { a with files := a.files.map (fun _ => []), requirements := a.requirements.mapValues forgetReq,
           errors := a.errors.map forgetError }

/-- The same graph but for the places. -/
def SameButPlaces (g g' : Graph) : Prop :=
  g.relations = g'.relations ∧ g.artefacts.mapValues forgetArtefact = g'.artefacts.mapValues forgetArtefact

/-- The same result of tracing but for the places. -/
def SameResult (tg tg' : TracedGraph) : Prop :=
  tg.artefacts.mapValues forgetArtefact = tg'.artefacts.mapValues forgetArtefact ∧
  tg.tracedRelations.map (fun tr => (tr.relation, tr.covered.map (fun c => (c.upper, c.lower, c.direction)), tr.uncovered)) =
    tg'.tracedRelations.map (fun tr => (tr.relation, tr.covered.map (fun c => (c.upper, c.lower, c.direction)), tr.uncovered)) ∧
  tg.derived = tg'.derived ∧
  tg.errors.map (repaintError nowhere forgetReq) = tg'.errors.map (repaintError nowhere forgetReq)

/-- File by file, the same content, or the same failure to open it. -/
inductive SameFiles (env : Env) (w w' : World) (parser : ArtefactParser) : List Path → List Path → Prop
  | nil : SameFiles env w w' parser [] []
  | cons {p q ps qs} : env.os.openFile w p = env.os.openFile w' q → SameName parser p q →
      SameFiles env w w' parser ps qs → SameFiles env w w' parser (p :: ps) (q :: qs)

/-- The same artefact with its files at other places. -/
structure ArtefactMoved (env : Env) (w w' : World) (base base' : Path) (ac ac' : ArtefactConfig) : Prop where
  id : ac.id = ac'.id
  parser : ac.parser = ac'.parser
  ignore : ac.ignoreDerivedRequirements = ac'.ignoreDerivedRequirements
  titles : ac.referenceWithTitle = ac'.referenceWithTitle
  files : ∃ fs fs', FilesOf env w ac base fs ∧ FilesOf env w' ac' base' fs' ∧ SameFiles env w w' ac.parser fs fs'

/-- The same artefacts with their files at other places. -/
inductive ArtefactsMoved (env : Env) (w w' : World) (base base' : Path) : List ArtefactConfig → List ArtefactConfig → Prop
  | nil : ArtefactsMoved env w w' base base' [] []
  | cons {ac ac' acs acs'} : ArtefactMoved env w w' base base' ac ac' → ArtefactsMoved env w w' base base' acs acs' →
      ArtefactsMoved env w w' base base' (ac :: acs) (ac' :: acs')

/-- The same project with its files at other places. -/
structure ProjectMoved (env : Env) (w w' : World) (base base' : Path) (config config' : Config) : Prop where
  relations : config.relations = config'.relations
  jobs : config.jobs = config'.jobs
  defaultJobs : config.defaultJobs = config'.defaultJobs
  artefacts : ArtefactsMoved env w w' base base' config.artefacts config'.artefacts

end Reqtrace.Spec
