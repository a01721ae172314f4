import Verif.Cli

/-!
# What the program logs

The calls of the macros `log::error!` to `log::trace!`, in the order in which they are reached.  Logging does not
influence anything else, so there is one function for the log of each function of the program that calls the macros,
itself or through others; the names are the same.  After a panic nothing is logged.
-/

namespace Reqtrace

namespace Log

/-- `log::Level` -/
inductive Level where
  | error
  | warn
  | info
  | debug
  | trace
  deriving DecidableEq, Repr

/-- `Display` of `log::Level` -/
def Level.display : Level → Str
  | .error => c!"ERROR"
  | .warn => c!"WARN"
  | .info => c!"INFO"
  | .debug => c!"DEBUG"
  | .trace => c!"TRACE"

/-- `log::Record`: the place of the call, the level and the text -/
structure Record where
  file : Str
  line : Nat
  level : Level
  text : Str
  deriving DecidableEq, Repr

/-- `main.rs:42-51`: the line for a record -/
def Record.display (r : Record) : Str :=
  r.file ++ c!":" ++ natStr r.line ++ c!": [" ++ r.level.display ++ c!"] " ++ r.text ++ c!"\n"

/-! ## `{:#?}` -/

/-- What `Debug` shows of a value: the calls of the builders of `std::fmt` -/
inductive Dbg where
  /-- text on a line -/
  | leaf (s : Str)
  /-- `debug_tuple` -/
  | tuple (name : Str) (fields : List Dbg)
  /-- `debug_struct` -/
  | struct (name : Str) (fields : List (Str × Dbg))
  /-- `debug_list` -/
  | list (l : List Dbg)
  /-- `debug_map` -/
  | map (l : List (Dbg × Dbg))

/-- `std::fmt::builders::PadAdapter`: four spaces in front of each line -/
def indent (s : Str) : Str := c!"    " ++ s.flatMap (fun c => if c = '\n' then c!"\n    " else [c])

mutual

/-- `{:#?}` -/
def Dbg.pretty : Dbg → Str
  | .leaf s => s
  | .tuple name fields => name ++ c!"(\n" ++ prettyList fields ++ c!")"
  | .struct name fields => name ++ c!" {\n" ++ prettyFields fields ++ c!"}"
  | .list [] => c!"[]"
  | .list (d :: l) => c!"[\n" ++ indent d.pretty ++ c!",\n" ++ prettyList l ++ c!"]"
  | .map [] => c!"{}"
  | .map ((k, d) :: l) => c!"{\n" ++ indent (k.pretty ++ c!": " ++ d.pretty) ++ c!",\n" ++ prettyMap l ++ c!"}"

def prettyList : List Dbg → Str
  | [] => []
  | d :: l => indent d.pretty ++ c!",\n" ++ prettyList l

def prettyFields : List (Str × Dbg) → Str
  | [] => []
  | (n, d) :: l => indent (n ++ c!": " ++ d.pretty) ++ c!",\n" ++ prettyFields l

def prettyMap : List (Dbg × Dbg) → Str
  | [] => []
  | (k, d) :: l => indent (k.pretty ++ c!": " ++ d.pretty) ++ c!",\n" ++ prettyMap l

end

/-- What the log takes from elsewhere: `{:?}` of a path, and the milliseconds that the jobs took -/
structure LogEnv where
  debugPath : Path → Str
  elapsed : World → Nat

section
variable (env : Env) (log : LogEnv)

/-- `{:#?}` of an `Option` -/
def dbgOption {α : Type} (f : α → Dbg) : Option α → Dbg
  | none => .leaf c!"None"
  | some a => .tuple c!"Some" [f a]

def dbgStr (s : Str) : Dbg := .leaf (env.fmt.debugStr s)

/-- `models.rs:36-37` -/
def dbgReqId (id : RequirementId) : Dbg := .tuple c!"RequirementId" [dbgStr env id]

/-- `models.rs:15-16` -/
def dbgArtId (id : ArtefactId) : Dbg := .tuple c!"ArtefactId" [dbgStr env id]

/-- `models.rs:113-118` -/
def dbgLocationInFile : LocationInFile → Dbg
  | .line l => .tuple c!"Line" [.leaf (natStr l)]
  | .lineAndColumn l c => .tuple c!"LineAndColumn" [.leaf (natStr l), .leaf (natStr c)]
  | .string s => .tuple c!"String" [dbgStr env s]

/-- `models.rs:157-161` -/
def dbgLocation (l : Location) : Dbg :=
  .struct c!"Location" [(c!"file", .leaf (log.debugPath l.file)),
    (c!"location_in_file", dbgOption (dbgLocationInFile env) l.locationInFile)]

/-- `models.rs:232-237` -/
def dbgReference (r : Reference) : Dbg :=
  .struct c!"Reference" [(c!"id", dbgReqId env r.id), (c!"title", dbgOption (dbgStr env) r.title),
    (c!"location", dbgLocation env log r.location)]

/-- `models.rs:239-248` -/
def dbgRequirement (r : Requirement) : Dbg :=
  .struct c!"Requirement" [(c!"id", dbgReqId env r.id), (c!"title", dbgOption (dbgStr env) r.title),
    (c!"location", dbgLocation env log r.location), (c!"covers", .list (r.covers.map (dbgReference env log))),
    (c!"depends", .list (r.depends.map (dbgReference env log))), (c!"tags", .list (r.tags.map (dbgStr env))),
    (c!"attributes", .map (r.attributes.entries.map fun e => (dbgStr env e.1, dbgStr env e.2)))]

/-- `models.rs:361-368` -/
def dbgRelation (r : Relation) : Dbg :=
  .struct c!"Relation" [(c!"upper", dbgArtId env r.upper), (c!"lower", .list (r.lower.map (dbgArtId env)))]

/-- `models.rs:274-339` -/
def dbgError : Error → Dbg
  | .format loc err => .tuple c!"Format" [dbgLocation env log loc, dbgStr env err]
  | .duplicateRequirement a b => .tuple c!"DuplicateRequirement" [dbgRequirement env log a, dbgRequirement env log b]
  | .duplicateAttribute loc attr req =>
    .tuple c!"DuplicateAttribute" [dbgLocation env log loc, dbgStr env attr, dbgReqId env req]
  | .io path err => .tuple c!"Io" [.leaf (log.debugPath path), dbgStr env err]
  | .config err => .tuple c!"Config" [dbgStr env err]
  | .duplicateArtefact a => .tuple c!"DuplicateArtefact" [dbgStr env a]
  | .unknownArtefact a => .tuple c!"UnknownArtefact" [dbgArtId env a]
  | .coveredWithWrongTitle upper lower t loc => .struct c!"CoveredWithWrongTitle" [(c!"upper", dbgRequirement env log upper),
      (c!"lower", dbgRequirement env log lower), (c!"wrong_title", dbgStr env t), (c!"location", dbgLocation env log loc)]
  | .dependWithWrongTitle upper lower t loc => .struct c!"DependWithWrongTitle" [(c!"upper", dbgRequirement env log upper),
      (c!"lower", dbgRequirement env log lower), (c!"wrong_title", dbgStr env t), (c!"location", dbgLocation env log loc)]
  | .referencedWithoutTitle r loc => .struct c!"ReferencedWithoutTitle" [(c!"referenced", dbgRequirement env log r),
      (c!"location", dbgLocation env log loc)]
  | .requirementWithoutTitle r => .tuple c!"RequirementWithoutTitle" [dbgRequirement env log r]
  | .dependOnUnknownRequirement r id loc =>
    .tuple c!"DependOnUnknownRequirement" [dbgRequirement env log r, dbgReqId env id, dbgLocation env log loc]
  | .coversUnknownRequirement r id loc =>
    .tuple c!"CoversUnknownRequirement" [dbgRequirement env log r, dbgReqId env id, dbgLocation env log loc]
  | .emptyGraph => .leaf c!"EmptyGraph"
  | .unusedRelation rel => .tuple c!"UnusedRelation" [dbgRelation env rel]

/-- `controller.rs:14-26` -/
def dbgControllerError : ControllerError → Dbg
  | .config e => .tuple c!"Config" [dbgStr env e]
  | .unknownJob n => .tuple c!"UnknownJob" [dbgStr env n]
  | .io p e => .tuple c!"Io" [.leaf (log.debugPath p), dbgStr env e]

/-- `log::info!("found problem {:#?}", &err)` -/
def problem (file : Str) (line : Nat) (e : Error) : Record :=
  ⟨file, line, .info, c!"found problem " ++ (dbgError env log e).pretty⟩

/-! ## The parsers

Where an error is logged it is recorded next, and the line of the call can be told from the error. -/

/-- `markdown.rs:86`, `:183`, `:218`, `:361`, `:379`, `:397` -/
def mdLine : Error → Nat
  | .io _ _ => 86
  | .format _ text => if text = c!"Expected an Attribute line like `Comment:`" then 183 else 218
  | .duplicateAttribute _ attr _ => if attr = Md.attrCovers then 361 else if attr = Md.attrDepends then 379 else 397
  | _ => 0

def mdProblem (e : Error) : Record := problem env log c!"src/parsers/markdown.rs" (mdLine e) e

/-- `markdown.rs:77-114` -/
def mdLoop (failure : Option Str) : List Str → Md.State → Md.Context → List Record
  | [], _, c => match failure with
    | some e => [mdProblem env log (.io c.path e)]
    | none => []
  | line :: lines, state, c =>
    let c := { c with lineNumber := c.lineNumber + 1 }
    match Md.lineEvent env.U line with
    | .error _ => []
    | .ok evt => match Md.parseStates env.U state c evt with
      | .error _ => []
      | .ok (state', c') => (c'.errors.drop c.errors.length).map (mdProblem env log) ++ mdLoop failure lines state' c'

/-- `markdown.rs:65-117` -/
def mdParse (src : Source) (path : Path) : List Record :=
  mdLoop env log src.failure (splitLines src.text) .lookForReq (.init path)

/-- `monoreq.rs:49-62` -/
def monoParse (src : Source) (path : Path) : List Record :=
  match MonoReq.parse env.U src path with
  | .error _ => []
  | .ok (_, errors) => errors.map (problem env log c!"src/parsers/monoreq.rs" 57)

/-- `rust.rs:87`, `:107`, `:127`, `:137`, `:149` -/
def rustLine : Error → Nat
  | .format _ text =>
    if text = c!"requirement_covered!() has no arguments" then 87
    else if text = c!"requirement_covered!() single argument is not an identifier" then 107
    else if text = c!"requirement_covered!() 2nd argument is not String" then 127
    else if text = c!"requirement_covered!() 1st argument is not an identifier" then 137
    else 149
  | _ => 0

def rustProblem (line : Nat) (e : Error) : Record := problem env log c!"src/parsers/rust.rs" line e

/-- `rust.rs:187-260`: the calls of `parse_macro` in their order -/
def rustVisit (path : Path) : Rs.Forest → Rs.Parser → List Record
  | .nil, _ => []
  | .mac m rest, p => match Rs.parseMacro env.syn.debug path p m with
    | .error _ => []
    | .ok (_, p') => (p'.errors.drop p.errors.length).map (fun e => rustProblem env log (rustLine e) e) ++ rustVisit path rest p'
  | .item i line column inner rest, p =>
    rustVisit path inner (Rs.push path p i line column) ++
      match Rs.visit env.syn.debug path inner (Rs.push path p i line column) with
      | .error _ => []
      | .ok p => match Rs.pop p with
        | .error _ => []
        | .ok p => rustVisit path rest p
  | .node inner rest, p =>
    rustVisit path inner p ++
      match Rs.visit env.syn.debug path inner p with
      | .error _ => []
      | .ok p => rustVisit path rest p

/-- `rust.rs:19-55` -/
def rustParse (src : Source) (path : Path) : List Record :=
  match src.failure with
  | some e => [rustProblem env log 27 (.io path e)]
  | none => match env.syn.parseFile src.text with
    | .error (line, column, e) => [rustProblem env log 37 (.format (.newWithLineAndColumn path line column) e)]
    | .ok file => rustVisit env log path file ⟨[], [], [], []⟩

/-! ## `controller.rs` -/

def ctrlFile : Str := c!"src/controller.rs"

/-- `controller.rs:56-98` -/
def parseSingleFile (w : World) (config : ArtefactConfig) (base : Path) : List Record :=
  match config.paths with
  | [p] =>
    let path := joinPath base p
    match env.os.openFile w path with
    | .error e => [problem env log ctrlFile 74 (.io path e)]
    | .ok file => match config.parser with
      | .markdown => mdParse env log file.lines path
      | .monoRequirement => monoParse env log file.lines path
      | .json => match JsonRead.fromReader (env.jsonErr file) file.whole with
        | .ok _ => []
        | .error e => [problem env log ctrlFile 88 (.format (.newWithNoPos path) e)]
      | .rust => []
  | paths => [problem env log ctrlFile 65 (.config (c!"Expected only 1 file for artefact " ++ config.id ++ c!" with parser " ++
      config.parser.debug ++ c!", got " ++ debugStrs env paths))]

/-- `controller.rs:119-137` -/
def parseFiles (w : World) (parser : ArtefactParser) : List Path → List Record
  | [] => []
  | path :: paths => match env.os.openFile w path with
    | .error e => problem env log ctrlFile 124 (.io path e) :: parseFiles w parser paths
    | .ok file => match parser with
      | .rust => rustParse env log file.whole path ++
        match Rs.parse env.syn file.whole path with
        | .error _ => []
        | .ok _ => parseFiles w parser paths
      | _ => []

/-- `controller.rs:100-142` -/
def parseMultipleFiles (w : World) (config : ArtefactConfig) (base : Path) : List Record :=
  if config.paths = [] then [problem env log ctrlFile 106 (.config (c!"No Paths for artefact " ++ config.id))]
  else match globPaths env w base config.paths with
    | .error _ => []
    | .ok paths => parseFiles env log w config.parser paths

/-- `controller.rs:154-159` -/
def parseArtefact (w : World) (config : ArtefactConfig) (base : Path) : List Record :=
  match config.parser with
  | .rust => parseMultipleFiles env log w config base
  | _ => parseSingleFile env log w config base

/-- `controller.rs:144-178` -/
def parseFromConfig (w : World) (config : ArtefactConfig) (base : Path) : List Record :=
  parseArtefact env log w config base ++
    match Reqtrace.parseArtefact env w config base with
    | .error _ => []
    | .ok (_, reqs, errs) =>
      ((collectRequirements reqs .empty errs).2.drop errs.length).map (problem env log ctrlFile 167)

/-- `controller.rs:217-242` -/
def makeArtefacts (w : World) (base : Path) (isRoot : BMap ArtefactId Bool) : List ArtefactConfig → List Record
  | [] => []
  | ac :: acs => parseFromConfig env log w ac base ++
    match makeArtefact env w base isRoot ac with
    | .error _ => []
    | .ok _ => makeArtefacts w base isRoot acs

/-! ## `trace.rs` -/

def traceFile : Str := c!"src/trace.rs"

/-- `trace.rs:63-65`, `:156-285` -/
def traceRelations : Tracer → List Relation → List Record
  | _, [] => []
  | t, rel :: rels =>
    ⟨traceFile, 158, .trace, c!"Trace " ++ env.fmt.debugRelation rel⟩ ::
      match t.tracedArtefacts.get rel.upper with
      | none => []
      | some ta => match ta.artefact.requirements.values.foldlM (traceUpperReq rel ta.artefact)
          { tracer := t, covered := [], uncovered := [], anyReqCovered := false } with
        | .error _ => []
        | .ok acc =>
          (if !acc.anyReqCovered then [problem env log traceFile 276 (.unusedRelation rel)] else []) ++
            match traceRelation t rel with
            | .error _ => []
            | .ok t => traceRelations t rels

/-- `trace.rs:292-310`, `:312-331`: the loop of `validate_upwards` or `validate_downwards` -/
def validateLinks (line : Nat) (step : Tracer → RequirementId × RequirementId → PanicM Tracer) :
    Tracer → List (RequirementId × RequirementId) → List Record
  | _, [] => []
  | t, l :: ls => match step t l with
    | .error _ => []
    | .ok t' => (t'.errors.drop t.errors.length).map (problem env log traceFile line) ++ validateLinks line step t' ls

/-- `trace.rs:50-69` -/
def trace (graph : Graph) : List Record :=
  let t := graph.artefacts.values.foldl addArtefact Tracer.empty
  traceRelations env log t graph.relations ++
    match graph.relations.foldlM traceRelation t with
    | .error _ => []
    | .ok t => validateLinks env log 307 validateUpward t t.invalidCoversLinks.toList ++
      match validateUpwards t with
      | .error _ => []
      | .ok t => validateLinks env log 328 validateDownward t t.invalidDependsLinks.toList

/-- `controller.rs:189-259` -/
def new (w : World) (config : Config) (base : Path) : List Record :=
  match findRoots config.relations (BMap.ofList (config.artefacts.map (fun ac => (ac.id, true)))) with
  | .error _ => []
  | .ok isRoot => makeArtefacts env log w base isRoot config.artefacts ++
    match Reqtrace.makeArtefacts env w base isRoot config.artefacts .empty with
    | .error _ => []
    | .ok artefacts => trace env log { artefacts, relations := config.relations }

/-! ## Jobs -/

/-- `{:?}` of a query, `models.rs:86-93` -/
def debugQuery : Query → Str
  | .parse => c!"Parse"
  | .trace => c!"Trace"

/-- `{:?}` of a format, `models.rs:103-111` -/
def debugFormat : Format → Str
  | .gnuError => c!"GnuError"
  | .json => c!"Json"
  | .markdown => c!"Markdown"
  | .tags => c!"Tags"
  | .templateFile p => c!"TemplateFile(" ++ log.debugPath p ++ c!")"
  | .templateString s => c!"TemplateString(" ++ env.fmt.debugStr s ++ c!")"

/-- `{:?}` of `set_return_code` -/
def debugFlag : Option Bool → Str
  | none => c!"None"
  | some true => c!"Some(true)"
  | some false => c!"Some(false)"

/-- `{:?}` of a job, `models.rs:95-101` -/
def debugJob (job : Job) : Str :=
  c!"Job { query: " ++ debugQuery job.query ++ c!", format: " ++ debugFormat env log job.format ++ c!", file: " ++
    log.debugPath job.file ++ c!", set_return_code: " ++ debugFlag job.setReturnCode ++ c!" }"

/-- `{:?}` of the result, `controller.rs:28-35` -/
def debugSuccess : JobSuccess → Str
  | .success => c!"Success"
  | .errorsDetected => c!"ErrorsDetected"

/-- `controller.rs:370-373`: `{:#?}` of the derived requirements -/
def dbgDerived (d : BMap ArtefactId (List RequirementId)) : Dbg :=
  .map (d.entries.map fun e => (dbgArtId env e.1, .list (e.2.map (dbgReqId env))))

/-- `controller.rs:346-393`: why a job does not succeed -/
def reasons (c : Controller) : Query → List Record
  | .trace =>
    let tg := c.tracedGraph
    (if !tg.errors.isEmpty then [⟨ctrlFile, 353, .debug, c!"Job did not succeed because: Tracing Errors"⟩] else []) ++
    (if tg.artefacts.values.any (fun art => !art.errors.isEmpty) then
      [⟨ctrlFile, 357, .debug, c!"Job did not succeed because: Artefact Parsing Errors"⟩] else []) ++
    (if tg.tracedRelations.any (fun rel => !rel.uncovered.isEmpty) then
      [⟨ctrlFile, 365, .debug, c!"Job did not succeed because: uncovered relations"⟩] else []) ++
    (if tg.derived.values.any (fun a => !a.isEmpty) then
      [⟨ctrlFile, 370, .debug, c!"Job did not succeed because: derived Requirements: " ++ (dbgDerived env tg.derived).pretty⟩]
      else [])
  | .parse =>
    if c.graph.artefacts.values.any (fun art => !art.errors.isEmpty) then
      [⟨ctrlFile, 388, .debug, c!"Job did not succeed because: Artefact Parsing Errors"⟩] else []

/-- `controller.rs:326`, `:341` -/
def writing (c : Controller) (job : Job) (name : Str) : Record :=
  if job.file = c!"-" then ⟨ctrlFile, 326, .info, c!"writing " ++ env.fmt.debugStr name ++ c!" to stdout"⟩
  else ⟨ctrlFile, 341, .info, c!"writing " ++ name ++ c!" to " ++
    (if isAbsolute job.file then job.file else joinPath c.baseDir job.file)⟩

/-- `controller.rs:397-404` -/
def verdictRecord (name : Str) : JobSuccess → Record
  | .success => ⟨ctrlFile, 399, .info, c!"Job " ++ name ++ c!" successful"⟩
  | .errorsDetected => ⟨ctrlFile, 402, .warn, c!"Job " ++ name ++ c!" detected Errors"⟩

/-- `controller.rs:319-408` -/
def run (c : Controller) (w : World) (job : Job) (name : Str) : List Record :=
  ⟨ctrlFile, 320, .trace, c!"Job " ++ name ++ c!" " ++ debugJob env log job⟩ ::
    match Controller.openOutput env c w job with
    | (.error _, _) => []
    | (.ok _, _) => writing env c job name :: reasons env c job.query ++
      match Controller.run env c w job with
      | (.ok s, _) => [verdictRecord name s]
      | _ => []

/-- `controller.rs:297-307` -/
def runEach (c : Controller) : List (Job × Str) → World → List Record
  | [], _ => []
  | (job, name) :: jobs, w => run env log c w job name ++
    match Controller.run env c w job with
    | (.ok _, w) => runEach c jobs w
    | _ => []

/-- `controller.rs:290-317` -/
def runJobs (c : Controller) (jobs : List Job) (names : List Str) (w : World) : List Record :=
  runEach env log c (jobs.zip names) w ++
    match Controller.runJobs env c jobs names w with
    | (.ok s, w') => [⟨ctrlFile, 309, .info, c!"ran " ++ natStr names.length ++ c!" jobs in " ++ natStr (log.elapsed w') ++
        c!"ms, result: " ++ debugSuccess s⟩]
    | _ => []

/-- `controller.rs:276-288` -/
def runJobsByName (c : Controller) (names : List Str) (w : World) : List Record :=
  match c.findJobs names with
  | .error e => [⟨ctrlFile, 283, .info, c!"found problem " ++ (dbgControllerError env log e).pretty⟩]
  | .ok jobs => runJobs env log c jobs names w

/-- `controller.rs:265-274` -/
def runDefaultJobs (c : Controller) (w : World) : List Record :=
  ⟨ctrlFile, 266, .trace, c!"Running default jobs"⟩ ::
    if c.defaultJobs ≠ [] then runJobsByName env log c c.defaultJobs w
    else [⟨ctrlFile, 271, .info, c!"found problem " ++
      (dbgControllerError env log (.config c!"no default_jobs configured")).pretty⟩]

/-! ## `main.rs` -/

def mainFile : Str := c!"src/main.rs"

/-- `main.rs:97-110` -/
def runCliJobs (c : Controller) (opt : Arguments) (w : World) : List Record :=
  if opt.jobs = [] then runDefaultJobs env log c w else runJobsByName env log c opt.jobs w

/-- `main.rs:112-118` -/
def tryMain (opt : Arguments) (w : World) : List Record :=
  ⟨mainFile, 62, .info, c!"using config file " ++ opt.configFile⟩ ::
    match Main.getConfig env w opt with
    | .error _ => []
    | .ok config => new env log w config opt.baseDir ++
      match Controller.new env w config opt.baseDir with
      | .error _ => []
      | .ok c => runCliJobs env log c opt w

/-- `main.rs:120-134` -/
def mainRc (opt : Arguments) (w : World) : List Record :=
  tryMain env log opt w ++
    match Main.tryMain env opt w with
    | (.err e, _) => [⟨mainFile, 127, .error, e⟩]
    | _ => []

/-- The records that pass the filter are written to standard error (`main.rs:42-51`). -/
def lines (keep : Record → Bool) (rs : List Record) : Str := (rs.filter keep).flatMap Record.display

/-- `main.rs:120-138` with the log: the exit code, and the state at the end.  All records come before the line that
`eprintln!` writes at `main.rs:128`.  What the operating system does is taken not to depend on what was logged. -/
def main (keep : Record → Bool) (opt : Arguments) (w : World) : Nat × World :=
  let stderr := w.stderr ++ Utf8.encode (lines keep (mainRc env log opt w))
  match Main.tryMain env opt w with
  | (.err e, w') => (2, { w' with stderr := stderr ++ Utf8.encode (e ++ c!"\n") })
  | (.ok .success, w') => (0, { w' with stderr })
  | (.ok .errorsDetected, w') => (1, { w' with stderr })
  | (.panic _, w') => (101, { w' with stderr })

/-- `main.rs:37-58` `logging_setup`: which records pass the filter, by the value of `REQTRACE_LOG` and of the option
`--log-level`.  How `env_logger` reads these is not modelled. -/
structure Logger where
  filter : Option Str → Option Str → Record → Bool

/-- `main.rs:112-138`; `var` is the value of `REQTRACE_LOG` -/
def program (logger : Logger) (texts : Cli.Texts) (var : Option Str) (words : List Str) (w : World) : Nat × World :=
  match Cli.parse words with
  | .run s => main env log (logger.filter var s.logLevel) s.arguments w
  | _ => Cli.program env texts words w

end

end Log

end Reqtrace
