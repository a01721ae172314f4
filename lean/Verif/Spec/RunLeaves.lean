import Verif.Spec.AnyJson
import Verif.Spec.Rerun

/-!
# Specification: from the texts of a project to everything that a run leaves
-/

namespace Reqtrace.Spec

/-- What a job has to write about a project without repeated ids. -/
inductive JobText (env : Env) (w : World) (base : Path) (config : Config) (reqsOf : ArtefactId → List Requirement)
    (job : Job) : Str → Prop
  | list {text} : job.query = .parse → RequirementList (fun r => ∃ ac ∈ config.artefacts, r ∈ reqsOf ac.id) job.format text →
      JobText env w base config reqsOf job text
  | gnu {text} : job.query = .trace → job.format = .gnuError → AnyReport env.fmt config reqsOf text →
      JobText env w base config reqsOf job text
  | markdown {text} : job.query = .trace → job.format = .markdown → AnyMarkdown env.fmt config reqsOf text →
      JobText env w base config reqsOf job text
  | json {text} : job.query = .trace → job.format = .json → AnyJson env w base config reqsOf text →
      JobText env w base config reqsOf job text

/-- What the jobs have to write, one after the other. -/
inductive JobTexts (env : Env) (w : World) (base : Path) (config : Config) (reqsOf : ArtefactId → List Requirement) :
    List Job → List Str → Prop
  | nil : JobTexts env w base config reqsOf [] []
  | cons {j js t ts} : JobText env w base config reqsOf j t → JobTexts env w base config reqsOf js ts →
      JobTexts env w base config reqsOf (j :: js) (t :: ts)

/-- What the jobs leave: the texts of those for the standard output are there, in order; each file that is the target of a
job has the text of the last such job; nothing else is changed, but for directories above the files. -/
structure RunLeaves (env : Env) (base : Path) (w : World) (config : Config) (reqsOf : ArtefactId → List Requirement)
    (js : List Job) (w' : World) : Prop where
  stdout : ∃ ts, JobTexts env w base config reqsOf (js.filter fun j => j.file = c!"-") ts ∧
    w'.stdout = w.stdout ++ Utf8.encode ts.flatten
  stderr : w'.stderr = w.stderr
  written : ∀ pre j post, js = pre ++ j :: post → j.file ≠ c!"-" →
    (∀ k ∈ post, k.file ≠ c!"-" → env.os.resolve (target base j.file) ≠ env.os.resolve (target base k.file)) →
    ∃ t, JobText env w base config reqsOf j t ∧ w'.files (env.os.resolve (target base j.file)) = some (Utf8.encode t)
  kept : ∀ p, (∀ j ∈ js, j.file ≠ c!"-" → p ≠ env.os.resolve (target base j.file)) → w'.files p = w.files p
  dirsKept : ∀ d, w.dirs d = true → w'.dirs d = true
  dirsNew : ∀ d, w'.dirs d = true → w.dirs d = true ∨
    ∃ j ∈ js, j.file ≠ c!"-" ∧ ∃ p, DirOf p (target base j.file) ∧ d = env.os.resolve p

/-- The configuration can be worked with: the relations are between configured artefacts, and there are jobs to run, all
of them known and with a format that their query has. -/
structure Runnable (config : Config) (opt : Arguments) : Prop where
  relations : RelationsConfigured config
  jobs : requested config opt ≠ []
  known : ∀ n ∈ requested config opt, ∃ j, (config.jobs.getD .empty).get n = some j ∧ ¬ Unsupported j.query j.format

end Reqtrace.Spec
