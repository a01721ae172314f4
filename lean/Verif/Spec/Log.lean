import Verif.Log
import Verif.Spec.Run
import Verif.Spec.Output

/-!
# What is expected of the log
-/

namespace Reqtrace.Spec

open Log

/-- The levels and texts of records. -/
def said (rs : List Record) : List (Level × Str) := rs.map fun r => (r.level, r.text)

/-- The records of a level. -/
def ofLevel (l : Level) (rs : List Record) : List Record := rs.filter fun r => r.level = l

/-- What is said about a problem. -/
def announced (env : Env) (log : LogEnv) (e : Error) : Level × Str :=
  (.info, c!"found problem " ++ (dbgError env log e).pretty)

/-- Paths are shown in quotes, different ones differently. -/
def PathsQuoted (env : FmtEnv) (log : LogEnv) : Prop :=
  ∃ f : Path → Str, (∀ p q, f p = f q → p = q) ∧ ∀ p, log.debugPath p = quoted env (f p)

/-- A pattern of the artefact cannot be used, or a directory cannot be searched. -/
def GlobFails (env : Env) (w : World) (ac : ArtefactConfig) (base : Path) : Prop :=
  ac.parser = .rust ∧ ac.paths ≠ [] ∧ ∃ e, globPaths env w base ac.paths = .error e

/-- The problems that the tracer announces: relations without coverage, and references to unknown requirements. -/
def Announces : Error → Bool
  | .unusedRelation _ | .coversUnknownRequirement _ _ _ | .dependOnUnknownRequirement _ _ _ => true
  | _ => false

/-- The artefacts, and what is announced for each while it is read: nothing if a glob fails, otherwise all the
problems. -/
inductive ReadLog (env : Env) (w : World) (base : Path) : List ArtefactConfig → List Error → Prop
  | nil : ReadLog env w base [] []
  | silent {ac acs es} : GlobFails env w ac base → ReadLog env w base acs es → ReadLog env w base (ac :: acs) es
  | all {ac acs paths m errs es} : ¬ GlobFails env w ac base → parseFromConfig env w ac base = .ok (paths, m, errs) →
      ReadLog env w base acs es → ReadLog env w base (ac :: acs) (errs ++ es)

open Classical in
/-- The warnings about jobs that are done. -/
noncomputable def warnings (g : Graph) (jobs : List (Str × Job)) : List (Level × Str) :=
  (jobs.filter fun j => FindsFault g j.2).map fun j => (.warn, c!"Job " ++ j.1 ++ c!" detected Errors")

/-- These of the requested jobs are done: all, or those in front of one that is not. -/
def AreDone (env : Env) (base : Path) (g : Graph) (js done : List Job) (w : World) : Prop :=
  ∃ rest w1, js = done ++ rest ∧ JobsRun env base g done w .done w1 ∧
    ∀ j more, rest = j :: more → ∃ e w2, e ≠ .done ∧ JobRuns env base g j w1 e w2

/-- Why a job finds fault, one reason for each condition. -/
def Reason (env : Env) (g : Graph) (job : Job) (text : Str) : Prop :=
  match job.query with
  | .trace =>
    (text = c!"Tracing Errors" ∧ ∃ e, e ∈ (traced g).errors) ∨
    (text = c!"Artefact Parsing Errors" ∧ ParseProblem g.artefacts) ∨
    (text = c!"uncovered relations" ∧ ∃ tr ∈ (traced g).tracedRelations, ∃ r, r ∈ tr.uncovered) ∨
    (text = c!"derived Requirements: " ++ (dbgDerived env (traced g).derived).pretty ∧
      ∃ a ids r, (traced g).derived.get a = some ids ∧ r ∈ ids)
  | .parse => text = c!"Artefact Parsing Errors" ∧ ParseProblem g.artefacts

end Reqtrace.Spec
