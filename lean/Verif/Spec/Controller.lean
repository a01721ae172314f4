import Verif.Spec.Config
import Verif.Controller

/-!
# What a run of the program means

The functions of the model appear only where the properties speak of the program's functions.
-/

namespace Reqtrace.Spec

/-- An artefact with the id is configured. -/
def Configured (config : Config) (a : ArtefactId) : Prop := ∃ ac ∈ config.artefacts, ac.id = a

/-- All relations name configured artefacts. -/
def RelationsConfigured (config : Config) : Prop :=
  ∀ rel ∈ config.relations, Configured config rel.upper ∧ ∀ a ∈ rel.lower, Configured config a

/-- `ac` is the last entry of the configuration with its id. -/
def LastEntry (config : Config) (ac : ArtefactConfig) : Prop :=
  ∃ pre post, config.artefacts = pre ++ ac :: post ∧ ∀ b ∈ post, b.id ≠ ac.id

/-- No relation lists the artefact as lower. -/
def IsRoot (config : Config) (a : ArtefactId) : Prop := ∀ rel ∈ config.relations, a ∉ rel.lower

/-- One error for each requirement that has the id of an earlier one, naming the first with that id. -/
def duplicates (reqs : List Requirement) : List Error :=
  (List.range reqs.length).filterMap fun i =>
    match reqs[i]? with
    | none => none
    | some again => ((reqs.take i).find? (fun r => r.id = again.id)).map (fun first => .duplicateRequirement first again)

/-- An artefact has an error. -/
def ParseProblem (artefacts : BMap ArtefactId Artefact) : Prop :=
  ∃ a art e, artefacts.get a = some art ∧ e ∈ art.errors

/-- There is a tracing error, an artefact with an error, an uncovered requirement or a derived requirement. -/
def TraceProblem (tg : TracedGraph) : Prop :=
  (∃ e, e ∈ tg.errors) ∨ ParseProblem tg.artefacts ∨ (∃ tr ∈ tg.tracedRelations, ∃ r, r ∈ tr.uncovered) ∨
    ∃ a ids r, tg.derived.get a = some ids ∧ r ∈ ids

/-- What a job finds fault with. -/
def Detects (c : Controller) (job : Job) : Prop :=
  match job.query with
  | .trace => TraceProblem c.tracedGraph
  | .parse => ParseProblem c.graph.artefacts

/-- The job may set the return code. -/
def Sets (job : Job) : Prop := job.setReturnCode ≠ some false

/-- The jobs of the names, in order. -/
inductive JobsOf (jobs : BMap Str Job) : List Str → List Job → Prop
  | nil : JobsOf jobs [] []
  | cons {n ns j js} : jobs.get n = some j → JobsOf jobs ns js → JobsOf jobs (n :: ns) (j :: js)

/-- All jobs run to their end, one after the other. -/
inductive Done (env : Env) (c : Controller) : List Job → World → World → Prop
  | nil (w) : Done env c [] w w
  | cons {j js w w1 w2 s} : c.run env w j = (.ok s, w1) → Done env c js w1 w2 → Done env c (j :: js) w w2

/-- The directory `d` is named by the beginning of the path `p`. -/
def DirOf (d p : Path) : Prop :=
  d ≠ [] ∧ ∃ rest, p = d ++ rest ∧ rest ≠ [] ∧ (d.getLast? = some '/' ∨ rest.head? = some '/')

/-- Where a job that does not write to the standard output writes to. -/
def target (base file : Path) : Path :=
  if file.head? = some '/' then file
  else if base = [] then file
  else if base.getLast? = some '/' then base ++ file
  else base ++ ['/'] ++ file

/-- What the formatter of a job writes: for a `Trace` job that of the traced graph, for a `Parse` job that of the
parsed graph. -/
def outputOf (env : Env) (c : Controller) (job : Job) : Bytes :=
  Utf8.encode (if job.query = .trace then (Fmt.tracing env.fmt c.tracedGraph job.format).text
    else (Fmt.requirements env.fmt c.graph job.format).text)

/-- What opening the output at a path and writing to it leave as it is. -/
structure Kept (resolve : Path → Path) (path : Path) (w w' : World) : Prop where
  stdout : w'.stdout = w.stdout
  stderr : w'.stderr = w.stderr
  files : ∀ q, q ≠ resolve path → w'.files q = w.files q
  dirsKept : ∀ d, w.dirs d = true → w'.dirs d = true
  dirsNew : ∀ d, w'.dirs d = true → w.dirs d = true ∨ ∃ p, DirOf p path ∧ d = resolve p

/-- What a number of jobs leave as it is. -/
structure KeptAll (env : Env) (c : Controller) (js : List Job) (w w' : World) : Prop where
  stderr : w'.stderr = w.stderr
  stdout : (∀ j ∈ js, j.file ≠ c!"-") → w'.stdout = w.stdout
  files : ∀ q, (∀ j ∈ js, j.file ≠ c!"-" → q ≠ env.os.resolve (target c.baseDir j.file)) → w'.files q = w.files q
  dirsKept : ∀ d, w.dirs d = true → w'.dirs d = true
  dirsNew : ∀ d, w'.dirs d = true → w.dirs d = true ∨
    ∃ j ∈ js, j.file ≠ c!"-" ∧ ∃ p, DirOf p (target c.baseDir j.file) ∧ d = env.os.resolve p

/-- The query has no output in the format. -/
def Unsupported : Query → Format → Prop
  | .trace, .tags | .trace, .templateFile _ | .trace, .templateString _ => True
  | .parse, .gnuError | .parse, .templateFile _ | .parse, .templateString _ => True
  | _, _ => False

/-- What the parser of an artefact finds in a file that was opened. -/
def fileResult (env : Env) (parser : ArtefactParser) (file : File) (path : Path) : PanicM (List Requirement × List Error) :=
  match parser with
  | .markdown => Md.parse env.U file.lines path
  | .monoRequirement => MonoReq.parse env.U file.lines path
  | .rust => Rs.parse env.syn file.whole path
  | .json => match JsonRead.fromReader (env.jsonErr file) file.whole with
    | .ok reqs => .ok (reqs, [])
    | .error e => .ok ([], [.format ⟨path, none⟩ e])

/-- The requirements in a file: none if it cannot be opened. -/
def requirementsIn (env : Env) (w : World) (parser : ArtefactParser) (path : Path) : List Requirement :=
  match env.os.openFile w path with
  | .error _ => []
  | .ok file => match fileResult env parser file path with
    | .ok (reqs, _) => reqs
    | .error _ => []

/-- The errors of a file: that it cannot be opened, or what the parser finds. -/
def errorsIn (env : Env) (w : World) (parser : ArtefactParser) (path : Path) : List Error :=
  match env.os.openFile w path with
  | .error e => [.io path e]
  | .ok file => match fileResult env parser file path with
    | .ok (_, errs) => errs
    | .error _ => []

/-- The files of an artefact cannot be told from its configuration: not exactly one path for a parser that takes one
file, no path at all, or a failing glob. -/
def NoFiles (env : Env) (w : World) (ac : ArtefactConfig) (base : Path) : Prop :=
  if ac.parser = .rust then ac.paths = [] ∨ ∃ e, globPaths env w base ac.paths = .error e
  else ac.paths.length ≠ 1

/-- The names of the requested jobs. -/
def requested (config : Config) (opt : Arguments) : List Str :=
  if opt.jobs = [] then config.defaultJobs.getD [] else opt.jobs

/-- The configuration file cannot be read, is no configuration, or has an unknown version. -/
def BadConfig (env : Env) (w : World) (file : Path) : Prop :=
  (∃ e, env.os.openFile w file = .error e) ∨
  (∃ f e, env.os.openFile w file = .ok f ∧ f.failure = some e) ∨
  (∃ f e, env.os.openFile w file = .ok f ∧ f.failure = none ∧ env.tomlTree f.bytes = .error e) ∨
  (∃ f t, env.os.openFile w file = .ok f ∧ f.failure = none ∧ env.tomlTree f.bytes = .ok t ∧
    ∀ config, ¬ ConfigText.IsConfig t config) ∨
  (∃ f t config v, env.os.openFile w file = .ok f ∧ f.failure = none ∧ env.tomlTree f.bytes = .ok t ∧
    ConfigText.IsConfig t config ∧ config.version = some v ∧ 0 < v)

/-- The configuration file is read as this configuration. -/
def GoodConfig (env : Env) (w : World) (file : Path) (config : Config) : Prop :=
  ∃ f t, env.os.openFile w file = .ok f ∧ f.failure = none ∧ env.tomlTree f.bytes = .ok t ∧
    ConfigText.IsConfig t config ∧ ∀ v, config.version = some v → v = 0

/-- The requested jobs all run, from the state `w` to the state `w'`. -/
def AllRun (env : Env) (opt : Arguments) (w : World) (c : Controller) (js : List Job) (w' : World) : Prop :=
  ∃ config, GoodConfig env w opt.configFile config ∧ Controller.new env w config opt.baseDir = .ok c ∧
    requested config opt ≠ [] ∧ JobsOf (config.jobs.getD .empty) (requested config opt) js ∧ Done env c js w w'

/-- A job that sets the return code detects errors. -/
def Detected (c : Controller) (js : List Job) : Prop := ∃ j ∈ js, Sets j ∧ Detects c j

/-- A requested job fails after the ones before it ran. -/
def JobFails (env : Env) (opt : Arguments) (w : World) : Prop :=
  ∃ config c pre j post w1 e w2, GoodConfig env w opt.configFile config ∧
    Controller.new env w config opt.baseDir = .ok c ∧
    JobsOf (config.jobs.getD .empty) (requested config opt) (pre ++ j :: post) ∧ Done env c pre w w1 ∧
    c.run env w1 j = (.err e, w2)

/-- The configuration can be read, and asks for no job at all or for an unknown one. -/
def BadJobs (env : Env) (opt : Arguments) (w : World) : Prop :=
  ∃ config, GoodConfig env w opt.configFile config ∧ (requested config opt = [] ∨
    ∃ n ∈ requested config opt, (config.jobs.getD .empty).get n = none)

end Reqtrace.Spec
