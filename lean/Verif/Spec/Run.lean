import Verif.Spec.Output
import Verif.Spec.Path
import Verif.Spec.Trace
import Verif.Spec.Whole

/-!
# What a run of the program does, from the command line to the exit code
-/

namespace Reqtrace.Spec

/-! ## Changes of the state -/

/-- Only directories were added: what the paths denote. -/
structure AddsDirs (os : Os) (paths : List Path) (w w' : World) : Prop where
  dirs : ∀ d, w'.dirs d = true ↔ w.dirs d = true ∨ ∃ p ∈ paths, d = os.resolve p
  files : w'.files = w.files
  stdout : w'.stdout = w.stdout
  stderr : w'.stderr = w.stderr
  time : w'.time = w.time + 1

/-- Only the content of a file was set. -/
structure SetsFile (os : Os) (path : Path) (content : Bytes) (w w' : World) : Prop where
  file : w'.files (os.resolve path) = some content
  files : ∀ q, q ≠ os.resolve path → w'.files q = w.files q
  dirs : w'.dirs = w.dirs
  stdout : w'.stdout = w.stdout
  stderr : w'.stderr = w.stderr
  time : w'.time = w.time + 1

/-- Only the standard output was extended. -/
structure Prints (text : Bytes) (w w' : World) : Prop where
  stdout : w'.stdout = w.stdout ++ text
  files : w'.files = w.files
  dirs : w'.dirs = w.dirs
  stderr : w'.stderr = w.stderr
  time : w'.time = w.time + 1

/-- Only a line was added to the standard error. -/
structure Complains (text : Str) (w w' : World) : Prop where
  stderr : w'.stderr = w.stderr ++ Utf8.encode (text ++ c!"\n")
  files : w'.files = w.files
  dirs : w'.dirs = w.dirs
  stdout : w'.stdout = w.stdout
  time : w'.time = w.time

/-- Nothing but the time changed. -/
structure Waits (w w' : World) : Prop where
  files : w'.files = w.files
  dirs : w'.dirs = w.dirs
  stdout : w'.stdout = w.stdout
  stderr : w'.stderr = w.stderr
  time : w'.time = w.time + 1

/-! ## One job -/

/-- The message for a failing operation. -/
def ioText (path : Path) (e : Str) : Str := c!"IO Error: " ++ e ++ c!" in " ++ path

/-- The directories of an output file are made; the result is a message if that fails. -/
inductive MakesDirs (os : Os) (path : Path) (w : World) : Option Str → World → Prop
  | top : (∀ q, ¬ Parent path q) → MakesDirs os path w none w
  | here : Parent path [] → MakesDirs os path w none w
  | made {q ds w'} : Parent path q → q ≠ [] → Parents q ds → os.mkdirErr w q = none → AddsDirs os ds w w' →
      MakesDirs os path w none w'
  | failed {q ds k e w'} : Parent path q → q ≠ [] → Parents q ds → os.mkdirErr w q = some (k, e) →
      AddsDirs os (ds.take k) w w' → MakesDirs os path w (some (ioText q e)) w'

/-- An output file is created, with its directories; the result is a message if that fails. -/
inductive Creates (os : Os) (path : Path) (w : World) : Option Str → World → Prop
  | noDir {m w'} : MakesDirs os path w (some m) w' → Creates os path w (some m) w'
  | failed {w1 e w'} : MakesDirs os path w none w1 → os.createErr w1 path = some e → Waits w1 w' →
      Creates os path w (some (ioText path e)) w'
  | created {w1 w'} : MakesDirs os path w none w1 → os.createErr w1 path = none → SetsFile os path [] w1 w' →
      Creates os path w none w'

/-- Writing of that many bytes succeeds. -/
def Fits (failure : Option (Nat × Str)) (text : Bytes) : Prop := ∀ k e, failure = some (k, e) → text.length ≤ k

/-- The output of a job is written to the place `file`; the result is a message if that fails. -/
inductive Delivers (os : Os) (base file : Path) (text : Bytes) (w : World) : Option Str → World → Prop
  | printed {w'} : file = c!"-" → Fits (os.stdoutErr w text) text → Prints text w w' →
      Delivers os base file text w none w'
  | broken {k e w'} : file = c!"-" → os.stdoutErr w text = some (k, e) → k < text.length → Prints (text.take k) w w' →
      Delivers os base file text w (some (ioText file e)) w'
  | closed {m w'} : file ≠ c!"-" → Creates os (target base file) w (some m) w' →
      Delivers os base file text w (some m) w'
  | written {w1 w'} : file ≠ c!"-" → Creates os (target base file) w none w1 →
      Fits (os.writeErr w1 (target base file) text) text → SetsFile os (target base file) text w1 w' →
      Delivers os base file text w none w'
  | cut {w1 k e w'} : file ≠ c!"-" → Creates os (target base file) w none w1 →
      os.writeErr w1 (target base file) text = some (k, e) → k < text.length →
      SetsFile os (target base file) (text.take k) w1 w' →
      Delivers os base file text w (some (ioText file e)) w'

/-- How a job or a list of jobs ends: all done, with a message, or with a panic. -/
inductive JobEnd where
  | done
  | failed (message : Str)
  | panics

/-- A run of a job: its report is delivered; with a format that is not supported, the output is opened all the same. -/
inductive JobRuns (env : Env) (base : Path) (g : Graph) (job : Job) (w : World) : JobEnd → World → Prop
  | done {t w'} : Report env.fmt g job.query job.format t → Delivers env.os base job.file (Utf8.encode t) w none w' →
      JobRuns env base g job w .done w'
  | failed {t m w'} : (Report env.fmt g job.query job.format t ∨ Unsupported job.query job.format ∧ t = []) →
      Delivers env.os base job.file (Utf8.encode t) w (some m) w' → JobRuns env base g job w (.failed m) w'
  | panics {w'} : Unsupported job.query job.format → Delivers env.os base job.file [] w none w' →
      JobRuns env base g job w .panics w'

/-- A run of several jobs: it ends with the first one that is not done. -/
inductive JobsRun (env : Env) (base : Path) (g : Graph) : List Job → World → JobEnd → World → Prop
  | nil (w) : JobsRun env base g [] w .done w
  | next {j js w w1 w' e} : JobRuns env base g j w .done w1 → JobsRun env base g js w1 e w' →
      JobsRun env base g (j :: js) w e w'
  | stop {j js w w' e} : e ≠ .done → JobRuns env base g j w e w' → JobsRun env base g (j :: js) w e w'

/-- A job finds fault with the graph. -/
def FindsFault (g : Graph) (job : Job) : Prop :=
  match job.query with
  | .trace => TraceProblem (traced g)
  | .parse => ParseProblem g.artefacts

/-! ## The program -/

/-- The text for an error of TOML. -/
def tomlText (file : Path) : Option (Nat × Nat) × Str → Str
  | (some (line, column), e) => file ++ c!":" ++ natStr (line + 1) ++ c!":" ++ natStr column ++ c!": TOML Error " ++ e
  | (none, e) => file ++ c!":  TOML Error " ++ e

/-- The message if the configuration file cannot be used. -/
inductive ConfigComplaint (env : Env) (w : World) (file : Path) : Str → Prop
  | closed {e} : env.os.openFile w file = .error e → ConfigComplaint env w file (file ++ c!": " ++ e)
  | unreadable {f e} : env.os.openFile w file = .ok f → f.failure = some e → ConfigComplaint env w file (file ++ c!": " ++ e)
  | noToml {f e} : env.os.openFile w file = .ok f → f.failure = none → env.tomlTree f.bytes = .error e →
      ConfigComplaint env w file (tomlText file e)
  | noConfig {f t} : env.os.openFile w file = .ok f → f.failure = none → env.tomlTree f.bytes = .ok t →
      (∀ config, ¬ ConfigText.IsConfig t config) → ConfigComplaint env w file (tomlText file (env.tomlErr f.bytes))
  | version {f t config v} : env.os.openFile w file = .ok f → f.failure = none → env.tomlTree f.bytes = .ok t →
      ConfigText.IsConfig t config → config.version = some v → 0 < v →
      ConfigComplaint env w file (file ++ c!" has unknown version " ++ natStr v)

/-- A run of the program with its exit code. -/
inductive ProgramEnds (env : Env) (opt : Arguments) (w : World) : Nat → World → Prop
  | badConfig {m w'} : ConfigComplaint env w opt.configFile m → Complains m w w' → ProgramEnds env opt w 2 w'
  | noInput {config} : GoodConfig env w opt.configFile config → (∀ g, ¬ IsInput env w config opt.baseDir g) →
      ProgramEnds env opt w 101 w
  | noJobs {config g w'} : GoodConfig env w opt.configFile config → IsInput env w config opt.baseDir g →
      requested config opt = [] → Complains c!"Config Error: no default_jobs configured" w w' → ProgramEnds env opt w 2 w'
  | unknownJob {config g pre n post js w'} : GoodConfig env w opt.configFile config →
      IsInput env w config opt.baseDir g → requested config opt = pre ++ n :: post →
      JobsOf (config.jobs.getD .empty) pre js → (config.jobs.getD .empty).get n = none →
      Complains (c!"Unknown Job " ++ n) w w' → ProgramEnds env opt w 2 w'
  | failed {config g js m w1 w'} : GoodConfig env w opt.configFile config → IsInput env w config opt.baseDir g →
      JobsOf (config.jobs.getD .empty) (requested config opt) js → JobsRun env opt.baseDir g js w (.failed m) w1 →
      Complains m w1 w' → ProgramEnds env opt w 2 w'
  | panics {config g js w'} : GoodConfig env w opt.configFile config → IsInput env w config opt.baseDir g →
      JobsOf (config.jobs.getD .empty) (requested config opt) js → JobsRun env opt.baseDir g js w .panics w' →
      ProgramEnds env opt w 101 w'
  | fault {config g js w'} : GoodConfig env w opt.configFile config → IsInput env w config opt.baseDir g →
      requested config opt ≠ [] → JobsOf (config.jobs.getD .empty) (requested config opt) js →
      JobsRun env opt.baseDir g js w .done w' → (∃ j ∈ js, Sets j ∧ FindsFault g j) → ProgramEnds env opt w 1 w'
  | fine {config g js w'} : GoodConfig env w opt.configFile config → IsInput env w config opt.baseDir g →
      requested config opt ≠ [] → JobsOf (config.jobs.getD .empty) (requested config opt) js →
      JobsRun env opt.baseDir g js w .done w' → (¬ ∃ j ∈ js, Sets j ∧ FindsFault g j) → ProgramEnds env opt w 0 w'

end Reqtrace.Spec
