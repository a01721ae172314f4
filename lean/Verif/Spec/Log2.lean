import Verif.Spec.Log

/-!
# The whole log of a run
-/

namespace Reqtrace.Spec

open Log

/-- What is said above the level TRACE. -/
def told (rs : List Record) : List (Level × Str) := said (rs.filter fun r => r.level ≠ .trace)

/-- Where the report goes. -/
def writingText (env : Env) (base : Path) (name : Str) (job : Job) : Str :=
  c!"writing " ++ if job.file = c!"-" then quoted env.fmt name ++ c!" to stdout" else name ++ c!" to " ++ target base job.file

open Classical in
/-- Why a job finds fault. -/
noncomputable def reasonTexts (env : Env) (g : Graph) : Query → List Str
  | .trace =>
    (if ∃ e, e ∈ (traced g).errors then [c!"Tracing Errors"] else []) ++
    (if ParseProblem g.artefacts then [c!"Artefact Parsing Errors"] else []) ++
    (if ∃ tr ∈ (traced g).tracedRelations, ∃ r, r ∈ tr.uncovered then [c!"uncovered relations"] else []) ++
    (if ∃ a ids r, (traced g).derived.get a = some ids ∧ r ∈ ids then
      [c!"derived Requirements: " ++ (dbgDerived env (traced g).derived).pretty] else [])
  | .parse => if ParseProblem g.artefacts then [c!"Artefact Parsing Errors"] else []

/-- What is said about a job whose output is open, up to its end. -/
noncomputable def openLog (env : Env) (base : Path) (g : Graph) (name : Str) (job : Job) : List (Level × Str) :=
  (.info, writingText env base name job) ::
    (reasonTexts env g job.query).map fun t => (.debug, c!"Job did not succeed because: " ++ t)

open Classical in
/-- The verdict on a job that is done. -/
noncomputable def verdictText (g : Graph) (name : Str) (job : Job) : Level × Str :=
  if FindsFault g job then (.warn, c!"Job " ++ name ++ c!" detected Errors") else (.info, c!"Job " ++ name ++ c!" successful")

/-- What is said about a job that is done. -/
noncomputable def doneLog (env : Env) (base : Path) (g : Graph) (e : Str × Job) : List (Level × Str) :=
  openLog env base g e.1 e.2 ++ [verdictText g e.1 e.2]

/-- The output of the job can be opened. -/
def Opens (env : Env) (base : Path) (job : Job) (w : World) : Prop :=
  job.file = c!"-" ∨ ∃ w', Creates env.os (target base job.file) w none w'

/-- The records up to the jobs: of the configuration file, the problems that are found while the files are read, and those
of the tracer. -/
noncomputable def beginning (env : Env) (log : LogEnv) (opt : Arguments) (g : Graph) (es : List Error) : List (Level × Str) :=
  (.info, c!"using config file " ++ opt.configFile) :: (es ++ (traced g).errors.filter Announces).map (announced env log)

/-- What is said before the program ends without jobs. -/
def refusal (env : Env) (kind text : Str) : Level × Str :=
  (.info, c!"found problem " ++ kind ++ c!"(\n    " ++ quoted env.fmt text ++ c!",\n)")

open Classical in
/-- The last word on jobs that are all done. -/
noncomputable def ranText (log : LogEnv) (g : Graph) (js : List Job) (w' : World) : Str :=
  c!"ran " ++ natStr js.length ++ c!" jobs in " ++ natStr (log.elapsed w') ++ c!"ms, result: " ++
    if ∃ j ∈ js, Sets j ∧ FindsFault g j then c!"ErrorsDetected" else c!"Success"

/-! ## TRACE -/

/-- `Debug` of a relation -/
def relationShown (env : Env) (rel : Relation) : Str :=
  c!"Relation { upper: " ++ quotedId env.fmt rel.upper ++ c!", lower: [" ++
    List.intercalate c!", " (rel.lower.map (quotedId env.fmt)) ++ c!"] }"

/-- `Debug` of a query -/
def queryShown : Query → Str
  | .parse => c!"Parse"
  | .trace => c!"Trace"

/-- `Debug` of a format -/
def formatShown (env : Env) (log : LogEnv) : Format → Str
  | .gnuError => c!"GnuError"
  | .json => c!"Json"
  | .markdown => c!"Markdown"
  | .tags => c!"Tags"
  | .templateFile p => c!"TemplateFile(" ++ log.debugPath p ++ c!")"
  | .templateString s => c!"TemplateString(" ++ quoted env.fmt s ++ c!")"

/-- `Debug` of a job -/
def jobShown (env : Env) (log : LogEnv) (job : Job) : Str :=
  c!"Job { query: " ++ queryShown job.query ++ c!", format: " ++ formatShown env log job.format ++ c!", file: " ++
    log.debugPath job.file ++ c!", set_return_code: " ++
    (match job.setReturnCode with
     | none => c!"None"
     | some true => c!"Some(true)"
     | some false => c!"Some(false)") ++ c!" }"

/-- The trace records: each relation, whether the default jobs are run, and the jobs that are begun. -/
def traceTexts (env : Env) (log : LogEnv) (opt : Arguments) (g : Graph) (begun : List (Str × Job)) : List Str :=
  g.relations.map (fun rel => c!"Trace " ++ relationShown env rel) ++
    (if opt.jobs = [] then [c!"Running default jobs"] else []) ++
    begun.map fun e => c!"Job " ++ e.1 ++ c!" " ++ jobShown env log e.2

end Reqtrace.Spec
