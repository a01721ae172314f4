import Verif.Formatters
import Verif.ConfigRead
import Verif.MonoReq
import Verif.Path
import Verif.Reader
import Verif.RustParser
import Verif.Trace

/-!
# `src/controller.rs` and `src/main.rs`

Logging is left out; the command line is taken as parsed (`clap`).
-/

namespace Reqtrace

/-! ## The operating system

The state of the world and what the operations of `std::fs` do with it.  Whether an operation fails is decided by a
parameter that may look at the whole state, including the time, so that any pattern of failures is covered.  What a
path denotes is decided by a parameter, so that several paths may denote the same file.  It does not change with the
state, and files are read as one snapshot, both of which are simplifications. -/

/-- The state that the program can see and change. -/
structure World where
  /-- content of the regular files, by what their paths denote -/
  files : Path → Option Bytes
  /-- directories, by what their paths denote -/
  dirs : Path → Bool
  /-- what was written to the standard output -/
  stdout : Bytes
  /-- what was written to the standard error, without logging and messages of panics -/
  stderr : Bytes
  /-- number of operations so far -/
  time : Nat

/-- What the operating system decides. -/
structure Os where
  /-- what a path denotes -/
  resolve : Path → Path
  /-- text of the error of `File::open` for a file that does not exist -/
  notFound : Path → Str
  /-- other failures of `File::open` -/
  openErr : World → Path → Option Str
  /-- failures of reading, after some bytes -/
  readErr : World → Path → Option (Nat × Str)
  /-- `glob::glob` with the text of a pattern error, and for each entry a path or the path and text of an error -/
  glob : World → Str → Except Str (List (Except (Path × Str) Path))
  /-- failures of `create_dir_all`, after some of the directories -/
  mkdirErr : World → Path → Option (Nat × Str)
  /-- failures of `File::create` -/
  createErr : World → Path → Option Str
  /-- failures of writing the bytes to the file, after some of them -/
  writeErr : World → Path → Bytes → Option (Nat × Str)
  /-- failures of writing the bytes to the standard output, after some of them -/
  stdoutErr : World → Bytes → Option (Nat × Str)

/-- Everything the program takes from libraries and the operating system. -/
structure Env where
  U : Unicode
  syn : Rs.Syn
  fmt : FmtEnv
  /-- text of the error of `serde_json::from_reader` -/
  jsonErr : File → Str
  /-- `toml::from_slice`: the value tree, or position and text of the error -/
  tomlTree : Bytes → Except (Option (Nat × Nat) × Str) Json
  /-- position and text of the error of `toml::from_slice` for a document that is not a configuration -/
  tomlErr : Bytes → Option (Nat × Nat) × Str
  os : Os

/-- `main.rs:63` `toml::from_slice` -/
def Env.toml (env : Env) (b : Bytes) : Except (Option (Nat × Nat) × Str) Config :=
  match env.tomlTree b with
  | .error e => .error e
  | .ok t =>
    match ConfigRead.toConfig t with
    | some c => .ok c
    | none => .error (env.tomlErr b)

namespace Os

/-- `fs::File::open` and what can then be read -/
def openFile (os : Os) (w : World) (p : Path) : Except Str File :=
  match os.openErr w p with
  | some e => .error e
  | none =>
    match w.files (os.resolve p) with
    | none => .error (os.notFound p)
    | some t =>
      match os.readErr w p with
      | none => .ok ⟨t, none⟩
      | some (k, e) => .ok ⟨t.take k, some e⟩

/-- `fs::create_dir_all`: the error, if any, and the state after it -/
def createDirAll (os : Os) (w : World) (p : Path) : Option Str × World :=
  if p = [] then (none, w)
  else
    let made (ds : List Path) : World :=
      { w with dirs := fun d => w.dirs d || (ds.map os.resolve).contains d, time := w.time + 1 }
    match os.mkdirErr w p with
    | none => (none, made (ancestors p))
    | some (k, e) => (some e, made ((ancestors p).take k))

/-- The state with another content of a file -/
def setFile (os : Os) (w : World) (p : Path) (t : Bytes) : World :=
  { w with files := fun q => if q = os.resolve p then some t else w.files q, time := w.time + 1 }

/-- `fs::File::create`: the file is there and empty, or there is an error -/
def create (os : Os) (w : World) (p : Path) : Option Str × World :=
  match os.createErr w p with
  | some e => (some e, { w with time := w.time + 1 })
  | none => (none, os.setFile w p [])

/-- Where a job writes to: a file or the standard output -/
abbrev Sink := Option Path

/-- The state after bytes were added to a sink -/
def append (os : Os) (w : World) (sink : Sink) (t : Bytes) : World :=
  match sink with
  | none => { w with stdout := w.stdout ++ t, time := w.time + 1 }
  | some p => os.setFile w p ((w.files (os.resolve p)).getD [] ++ t)

/-- Writing bytes to a sink: the error, if any, and the state after it.  The result does not depend on how they are
cut into pieces. -/
def write (os : Os) (w : World) (sink : Sink) (t : Bytes) : Option Str × World :=
  let failure := match sink with
    | none => os.stdoutErr w t
    | some p => os.writeErr w p t
  match failure with
  | none => (none, os.append w sink t)
  | some (k, e) => if k < t.length then (some e, os.append w sink (t.take k)) else (none, os.append w sink t)

end Os

/-! ## `controller.rs` -/

/-- `controller.rs:14-26` -/
inductive ControllerError where
  | config (e : Str)
  | unknownJob (name : Str)
  | io (path : Path) (e : Str)
  deriving DecidableEq, Repr

/-- `controller.rs:17-25` -/
def ControllerError.display : ControllerError → Str
  | .config e => c!"Config Error: " ++ e
  | .unknownJob n => c!"Unknown Job " ++ n
  | .io p e => c!"IO Error: " ++ e ++ c!" in " ++ p

/-- `controller.rs:28-35` -/
inductive JobSuccess where
  | success
  | errorsDetected
  deriving DecidableEq, Repr

/-- Requirements, with the files and the errors, of an artefact -/
abbrev Parsed := List Path × List Requirement × List Error

/-- The entries of one glob: all paths, or the first error (`controller.rs:47-50`) -/
def globEntries : List (Except (Path × Str) Path) → Except Error (List Path)
  | [] => .ok []
  | .error (p, e) :: _ => .error (.io p e)
  | .ok p :: es => do
    let ps ← globEntries es
    return p :: ps

/-- `controller.rs:37-54` -/
def globPaths (env : Env) (w : World) (base : Path) : List Str → Except Error (List Path)
  | [] => .ok []
  | path :: paths => do
    let pattern := if isAbsolute path then path else base ++ c!"/" ++ path
    let here ← match env.os.glob w pattern with
      | .error e => .error (.io path e)
      | .ok entries => globEntries entries
    let more ← globPaths env w base paths
    return here ++ more

/-- `{:?}` of the parser kind -/
def ArtefactParser.debug : ArtefactParser → Str
  | .markdown => c!"Markdown"
  | .rust => c!"Rust"
  | .monoRequirement => c!"MonoRequirement"
  | .json => c!"Json"

/-- `{:?}` of a list of strings -/
def debugStrs (env : Env) (l : List Str) : Str :=
  c!"[" ++ joinStr c!", " (l.map env.fmt.debugStr) ++ c!"]"

/-- `controller.rs:56-98` -/
def parseSingleFile (env : Env) (w : World) (config : ArtefactConfig) (base : Path) : PanicM Parsed :=
  match config.paths with
  | [p] =>
    let path := joinPath base p
    match env.os.openFile w path with
    | .error e => .ok ([path], [], [.io path e])
    | .ok file => do
      let (reqs, errs) ← match config.parser with
        | .markdown => Md.parse env.U file.lines path
        | .monoRequirement => MonoReq.parse env.U file.lines path
        | .json => match JsonRead.fromReader (env.jsonErr file) file.whole with
          | .ok reqs => pure (reqs, [])
          | .error e => pure ([], [.format (.newWithNoPos path) e])
        | .rust => throw .ctrlParser
      return ([path], reqs, errs)
  | paths => .ok ([], [], [.config (c!"Expected only 1 file for artefact " ++ config.id ++ c!" with parser " ++
      config.parser.debug ++ c!", got " ++ debugStrs env paths)])

/-- `controller.rs:119-137`: the files one after the other -/
def parseFiles (env : Env) (w : World) (parser : ArtefactParser) : List Path → PanicM (List Requirement × List Error)
  | [] => .ok ([], [])
  | path :: paths => do
    let (r, e) ← match env.os.openFile w path with
      | .error e => pure ([], [.io path e])
      | .ok file => match parser with
        | .rust => Rs.parse env.syn file.whole path
        | _ => throw .ctrlParser
    let (rs, es) ← parseFiles env w parser paths
    return (r ++ rs, e ++ es)

/-- `controller.rs:100-142` -/
def parseMultipleFiles (env : Env) (w : World) (config : ArtefactConfig) (base : Path) : PanicM Parsed :=
  if config.paths = [] then .ok ([], [], [.config (c!"No Paths for artefact " ++ config.id)])
  else match globPaths env w base config.paths with
    | .error e => .ok (config.paths, [], [e])
    | .ok paths => do
      let (reqs, errs) ← parseFiles env w config.parser paths
      return (paths, reqs, errs)

/-- `controller.rs:154-159`: what the parsers find -/
def parseArtefact (env : Env) (w : World) (config : ArtefactConfig) (base : Path) : PanicM Parsed :=
  match config.parser with
  | .rust => parseMultipleFiles env w config base
  | _ => parseSingleFile env w config base

/-- `controller.rs:161-175`: the first requirement of each id, and an error for each further one -/
def collectRequirements : List Requirement → BMap RequirementId Requirement → List Error →
    BMap RequirementId Requirement × List Error
  | [], m, errs => (m, errs)
  | req :: reqs, m, errs =>
    match m.get req.id with
    | some first => collectRequirements reqs m (errs ++ [.duplicateRequirement first req])
    | none => collectRequirements reqs (m.insert req.id req) errs

/-- `controller.rs:144-178` -/
def parseFromConfig (env : Env) (w : World) (config : ArtefactConfig) (base : Path) :
    PanicM (List Path × BMap RequirementId Requirement × List Error) := do
  let (paths, reqs, errs) ← parseArtefact env w config base
  let (m, errs) := collectRequirements reqs .empty errs
  return (paths, m, errs)

/-- `controller.rs:180-186` -/
structure Controller where
  baseDir : Path
  graph : Graph
  tracedGraph : TracedGraph
  jobs : BMap Str Job
  defaultJobs : List Str
  deriving DecidableEq

/-- `controller.rs:206-215`: the lower artefacts of a relation are no roots -/
def unrootLower : List ArtefactId → BMap ArtefactId Bool → PanicM (BMap ArtefactId Bool)
  | [], m => .ok m
  | a :: as, m =>
    if m.contains a then unrootLower as (m.insert a false) else .error .ctrlUnknownArtefact

/-- `controller.rs:197-216` -/
def findRoots : List Relation → BMap ArtefactId Bool → PanicM (BMap ArtefactId Bool)
  | [], m => .ok m
  | rel :: rels, m =>
    if m.contains rel.upper then do
      let m ← unrootLower rel.lower m
      findRoots rels m
    else .error .ctrlUnknownArtefact

/-- `controller.rs:217-241`: one artefact -/
def makeArtefact (env : Env) (w : World) (base : Path) (isRoot : BMap ArtefactId Bool) (ac : ArtefactConfig) :
    PanicM Artefact := do
  let root ← orPanic .ctrlIsRoot (isRoot.get ac.id)
  let ignoreDerivedRequirements := ac.ignoreDerivedRequirements.getD root
  let referenceWithTitle := ac.referenceWithTitle.getD false
  let (files, requirements, errors) ← parseFromConfig env w ac base
  let errors := if referenceWithTitle then
      errors ++ (requirements.values.filter (fun r => r.title.isNone)).map .requirementWithoutTitle
    else errors
  return { id := ac.id, files, requirements, errors, ignoreDerivedRequirements, referenceWithTitle }

/-- `controller.rs:217-242` -/
def makeArtefacts (env : Env) (w : World) (base : Path) (isRoot : BMap ArtefactId Bool) :
    List ArtefactConfig → BMap ArtefactId Artefact → PanicM (BMap ArtefactId Artefact)
  | [], m => .ok m
  | ac :: acs, m => do
    let a ← makeArtefact env w base isRoot ac
    makeArtefacts env w base isRoot acs (m.insert ac.id a)

namespace Controller

/-- `controller.rs:189-259` -/
def new (env : Env) (w : World) (config : Config) (base : Path) : PanicM Controller := do
  let isRoot ← findRoots config.relations (BMap.ofList (config.artefacts.map (fun ac => (ac.id, true))))
  let artefacts ← makeArtefacts env w base isRoot config.artefacts .empty
  let graph : Graph := { artefacts, relations := config.relations }
  let tracedGraph ← trace graph
  return { baseDir := base, graph, tracedGraph, jobs := config.jobs.getD .empty,
           defaultJobs := config.defaultJobs.getD [] }

/-- `controller.rs:261-263` -/
def findJob (c : Controller) (name : Str) : Option Job := c.jobs.get name

/-- How an operation of the controller ends: `Ok`, `Err` or with a panic -/
inductive Res (α : Type) where
  | ok (a : α)
  | err (e : ControllerError)
  | panic (p : Panic)
  deriving DecidableEq, Repr

/-- `controller.rs:324-342`: where to write to -/
def openOutput (env : Env) (c : Controller) (w : World) (job : Job) : Except ControllerError Os.Sink × World :=
  if job.file = c!"-" then (.ok none, w)
  else
    let path := if isAbsolute job.file then job.file else joinPath c.baseDir job.file
    let (e, w) := match parent path with
      | none => (none, w)
      | some p => match env.os.createDirAll w p with
        | (some e, w) => (some (ControllerError.io p e), w)
        | (none, w) => (none, w)
    match e with
    | some e => (.error e, w)
    | none => match env.os.create w path with
      | (some e, w) => (.error (.io path e), w)
      | (none, w) => (.ok (some path), w)

/-- `controller.rs:344-393`: the verdict and the formatter that is called -/
def verdict (c : Controller) : Query → JobSuccess
  | .trace =>
    let tg := c.tracedGraph
    if !tg.errors.isEmpty || tg.artefacts.values.any (fun art => !art.errors.isEmpty) ||
        tg.tracedRelations.any (fun rel => !rel.uncovered.isEmpty) || tg.derived.values.any (fun a => !a.isEmpty)
    then .errorsDetected else .success
  | .parse =>
    if c.graph.artefacts.values.any (fun art => !art.errors.isEmpty) then .errorsDetected else .success

/-- `controller.rs:376`, `:391` -/
def output (env : Env) (c : Controller) (job : Job) : Out :=
  match job.query with
  | .trace => Fmt.tracing env.fmt c.tracedGraph job.format
  | .parse => Fmt.requirements env.fmt c.graph job.format

/-- `controller.rs:319-408` -/
def run (env : Env) (c : Controller) (w : World) (job : Job) : Res JobSuccess × World :=
  match openOutput env c w job with
  | (.error e, w) => (.err e, w)
  | (.ok sink, w) =>
    let out := output env c job
    match env.os.write w sink (Utf8.encode out.text) with
    | (some e, w) => (.err (.io job.file e), w)
    | (none, w) =>
      match out.panic with
      | some p => (.panic p, w)
      | none => (.ok (verdict c job.query), w)

/-- `controller.rs:297-307`: one job after the other, with the worst verdict so far -/
def runEach (env : Env) (c : Controller) : List Job → JobSuccess → World → Res JobSuccess × World
  | [], worst, w => (.ok worst, w)
  | job :: jobs, worst, w =>
    match run env c w job with
    | (.ok .success, w) => runEach env c jobs worst w
    | (.ok .errorsDetected, w) =>
      runEach env c jobs (if job.setReturnCode.getD true then .errorsDetected else worst) w
    | (.err e, w) => (.err e, w)
    | (.panic p, w) => (.panic p, w)

/-- `controller.rs:290-317` -/
def runJobs (env : Env) (c : Controller) (jobs : List Job) (names : List Str) (w : World) : Res JobSuccess × World :=
  runEach env c ((jobs.zip names).map Prod.fst) .success w

/-- `controller.rs:277-286`: the jobs of the names, or the first unknown name -/
def findJobs (c : Controller) : List Str → Except ControllerError (List Job)
  | [] => .ok []
  | j :: js =>
    match c.findJob j with
    | some job => do
      let jobs ← findJobs c js
      return job :: jobs
    | none => .error (.unknownJob j)

/-- `controller.rs:276-288` -/
def runJobsByName (env : Env) (c : Controller) (names : List Str) (w : World) : Res JobSuccess × World :=
  match c.findJobs names with
  | .error e => (.err e, w)
  | .ok jobs => runJobs env c jobs names w

/-- `controller.rs:265-274` -/
def runDefaultJobs (env : Env) (c : Controller) (w : World) : Res JobSuccess × World :=
  if c.defaultJobs ≠ [] then runJobsByName env c c.defaultJobs w
  else (.err (.config c!"no default_jobs configured"), w)

end Controller

/-! ## `main.rs` -/

/-- `main.rs:17-35`; the options for logging are left out -/
structure Arguments where
  configFile : Path
  baseDir : Path
  jobs : List Str
  deriving DecidableEq, Repr

namespace Main

open Controller

/-- `main.rs:15` -/
def configVersion : Nat := 0

/-- `main.rs:60-95`; the error is its text -/
def getConfig (env : Env) (w : World) (opt : Arguments) : Except Str Config := do
  let bytes ← match env.os.openFile w opt.configFile with
    | .error e => .error (opt.configFile ++ c!": " ++ e)
    | .ok ⟨_, some e⟩ => .error (opt.configFile ++ c!": " ++ e)
    | .ok ⟨b, none⟩ => .ok b
  let config ← match env.toml bytes with
    | .error (some (line, col), e) =>
      .error (opt.configFile ++ c!":" ++ natStr (line + 1) ++ c!":" ++ natStr col ++ c!": TOML Error " ++ e)
    | .error (none, e) => .error (opt.configFile ++ c!":  TOML Error " ++ e)
    | .ok config => .ok config
  match config.version with
  | some version =>
    if version > configVersion then
      .error (opt.configFile ++ c!" has unknown version " ++ natStr version)
    else .ok config
  | none => .ok config

/-- `main.rs:97-110` -/
def runCliJobs (env : Env) (c : Controller) (opt : Arguments) (w : World) : Res JobSuccess × World :=
  if opt.jobs = [] then runDefaultJobs env c w else runJobsByName env c opt.jobs w

/-- How `try_main` ends: `Ok`, `Err` with its text, or with a panic -/
inductive Ending where
  | ok (s : JobSuccess)
  | err (text : Str)
  | panic (p : Panic)
  deriving DecidableEq, Repr

/-- `main.rs:112-118` -/
def tryMain (env : Env) (opt : Arguments) (w : World) : Ending × World :=
  match getConfig env w opt with
  | .error e => (.err e, w)
  | .ok config =>
    match Controller.new env w config opt.baseDir with
    | .error p => (.panic p, w)
    | .ok c =>
      match runCliJobs env c opt w with
      | (.ok s, w) => (.ok s, w)
      | (.err e, w) => (.err e.display, w)
      | (.panic p, w) => (.panic p, w)

/-- `main.rs:120-138`: the exit code and the state at the end; a panic of the main thread exits with 101 -/
def main (env : Env) (opt : Arguments) (w : World) : Nat × World :=
  match tryMain env opt w with
  | (.err e, w) => (2, { w with stderr := w.stderr ++ Utf8.encode (e ++ c!"\n") })
  | (.ok .success, w) => (0, w)
  | (.ok .errorsDetected, w) => (1, w)
  | (.panic _, w) => (101, w)

end Main

end Reqtrace
