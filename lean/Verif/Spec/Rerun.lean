import Verif.Spec.Whole

/-!
# Runs in different states of the file system
-/

namespace Reqtrace.Spec

/-- The program reads the file: it is the configuration file, or it belongs to a configured artefact. -/
def IsInputFile (env : Env) (opt : Arguments) (w : World) (p : Path) : Prop :=
  p = opt.configFile ∨ ∃ config ac fs, GoodConfig env w opt.configFile config ∧ ac ∈ config.artefacts ∧
    FilesOf env w ac opt.baseDir fs ∧ p ∈ fs

/-- The program finds the same input in both states. -/
structure SameInput (env : Env) (opt : Arguments) (w v : World) : Prop where
  files : ∀ p, IsInputFile env opt w p → SameFile env w v p
  matching : SameMatches env w v

/-- Creating and writing files and directories never fails. -/
structure Reliable (os : Os) : Prop where
  mkdir : ∀ w p, os.mkdirErr w p = none
  create : ∀ w p, os.createErr w p = none
  write : ∀ w p t, os.writeErr w p t = none
  stdout : ∀ w t, os.stdoutErr w t = none

/-- The step from `w` to `w'` does the same as that from `v` to `v'`: it writes the same files with the same content,
makes the same directories, and adds the same to the standard output and the standard error. -/
structure SameEffect (w w' v v' : World) : Prop where
  files : ∃ written : Path → Option Bytes, ∀ q,
    (written q = none → w'.files q = w.files q ∧ v'.files q = v.files q) ∧
    ∀ t, written q = some t → w'.files q = some t ∧ v'.files q = some t
  dirs : ∃ made : Path → Prop, ∀ d,
    (w'.dirs d = true ↔ w.dirs d = true ∨ made d) ∧ (v'.dirs d = true ↔ v.dirs d = true ∨ made d)
  stdout : ∃ t, w'.stdout = w.stdout ++ t ∧ v'.stdout = v.stdout ++ t
  stderr : ∃ t, w'.stderr = w.stderr ++ t ∧ v'.stderr = v.stderr ++ t

/-- The program writes no file that it reads: no requested job has a target that denotes the same. -/
def OutputsApart (env : Env) (opt : Arguments) (w : World) : Prop :=
  ∀ p, IsInputFile env opt w p → ∀ config, GoodConfig env w opt.configFile config → ∀ n ∈ requested config opt, ∀ j,
    (config.jobs.getD .empty).get n = some j → j.file ≠ c!"-" →
    env.os.resolve p ≠ env.os.resolve (target opt.baseDir j.file)

/-- The same entries, possibly in another order. -/
structure Reordered (config config' : Config) : Prop where
  artefacts : config'.artefacts.Perm config.artefacts
  relations : config'.relations = config.relations
  jobs : config'.jobs = config.jobs
  defaultJobs : config'.defaultJobs = config.defaultJobs

end Reqtrace.Spec
