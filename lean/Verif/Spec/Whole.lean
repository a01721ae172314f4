import Verif.Spec.Input
import Verif.Spec.Output

/-!
# The graph that a configuration means
-/

namespace Reqtrace.Spec

/-- The requirements and errors of a path. -/
inductive PathMeans (env : Env) (w : World) (parser : ArtefactParser) (p : Path) : List Requirement → List Error → Prop
  | closed {e} : env.os.openFile w p = .error e → PathMeans env w parser p [] [.io p e]
  | opened {file reqs errs} : env.os.openFile w p = .ok file → FileMeans env p file parser reqs errs →
      PathMeans env w parser p reqs errs

/-- The requirements and errors of several paths. -/
inductive PathsMean (env : Env) (w : World) (parser : ArtefactParser) :
    List Path → List Requirement → List Error → Prop
  | nil : PathsMean env w parser [] [] []
  | cons {p ps r rs e es} : PathMeans env w parser p r e → PathsMean env w parser ps rs es →
      PathsMean env w parser (p :: ps) (r ++ rs) (e ++ es)

/-- The name of a parser in messages -/
def parserName : ArtefactParser → Str
  | .markdown => c!"Markdown"
  | .rust => c!"Rust"
  | .monoRequirement => c!"MonoRequirement"
  | .json => c!"Json"

/-- The files, requirements and errors of an artefact. -/
inductive ArtefactMeans (env : Env) (w : World) (ac : ArtefactConfig) (base : Path) :
    List Path → List Requirement → List Error → Prop
  | files {fs reqs errs} : FilesOf env w ac base fs → PathsMean env w ac.parser fs reqs errs →
      ArtefactMeans env w ac base fs reqs errs
  | noPaths : ac.parser = .rust → ac.paths = [] →
      ArtefactMeans env w ac base [] [] [.config (c!"No Paths for artefact " ++ ac.id)]
  | badPattern {pre p post fs e} : ac.parser = .rust → ac.paths = pre ++ p :: post → Matched env w base pre fs →
      env.os.glob w (patternOf base p) = .error e → ArtefactMeans env w ac base ac.paths [] [.io p e]
  | badMatch {pre p post fs q e more} {gs : List Path} : ac.parser = .rust → ac.paths = pre ++ p :: post → Matched env w base pre fs →
      env.os.glob w (patternOf base p) = .ok (gs.map .ok ++ .error (q, e) :: more) →
      ArtefactMeans env w ac base ac.paths [] [.io q e]
  | notOne : ac.parser ≠ .rust → ac.paths.length ≠ 1 →
      ArtefactMeans env w ac base [] [] [.config (c!"Expected only 1 file for artefact " ++ ac.id ++ c!" with parser " ++
        parserName ac.parser ++ c!", got [" ++ ((ac.paths.map (quoted env.fmt)).intersperse c!", ").flatten ++ c!"]")]

/-- The artefact is the configured one. -/
structure IsArtefact (env : Env) (w : World) (config : Config) (base : Path) (ac : ArtefactConfig) (art : Artefact)
    (reqs : List Requirement) (errs : List Error) (untitled : List Requirement) : Prop where
  means : ArtefactMeans env w ac base art.files reqs errs
  id : art.id = ac.id
  requirements : ∀ id, art.requirements.get id = reqs.find? (fun r => r.id = id)
  errors : art.errors = errs ++ duplicates reqs ++ untitled.map .requirementWithoutTitle
  sorted : untitled.Pairwise (fun r s => compare r.id s.id = .lt)
  untitled : ∀ r, r ∈ untitled ↔
    ac.referenceWithTitle = some true ∧ r.title = none ∧ art.requirements.get r.id = some r
  ignore : art.ignoreDerivedRequirements = true ↔ ac.ignoreDerivedRequirements = some true ∨
    ac.ignoreDerivedRequirements = none ∧ IsRoot config ac.id
  titles : art.referenceWithTitle = true ↔ ac.referenceWithTitle = some true

def IsTheArtefact (env : Env) (w : World) (config : Config) (base : Path) (ac : ArtefactConfig) (art : Artefact) : Prop :=
  ∃ reqs errs untitled, IsArtefact env w config base ac art reqs errs untitled

/-- The graph is that of the configuration: all relations name configured artefacts, each entry for an artefact means
something, and the last entry for an id is the artefact of the graph. -/
structure IsInput (env : Env) (w : World) (config : Config) (base : Path) (g : Graph) : Prop where
  relations : g.relations = config.relations
  configured : RelationsConfigured config
  all : ∀ ac ∈ config.artefacts, ∃ fs reqs errs, ArtefactMeans env w ac base fs reqs errs
  artefacts : ∀ a art, g.artefacts.get a = some art ↔
    ∃ ac, LastEntry config ac ∧ ac.id = a ∧ IsTheArtefact env w config base ac art

/-- The file can be opened but has no meaning for the parser: Markdown with a last line of one character and no line
feed; a mono-requirement file that cannot be read as text; Rust with a reference outside of all items. -/
def NoMeaning (env : Env) (w : World) (parser : ArtefactParser) (p : Path) : Prop :=
  ∃ file, env.os.openFile w p = .ok file ∧ ∀ reqs errs, ¬ FileMeans env p file parser reqs errs

end Reqtrace.Spec
