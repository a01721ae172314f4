import Verif.Spec.Whole

/-!
# The paths of an artefact
-/

namespace Reqtrace.Spec

/-- All that a pattern matches can be listed: these files. -/
def Finds (env : Env) (w : World) (base p : Str) (fs : List Path) : Prop :=
  env.os.glob w (patternOf base p) = .ok (fs.map .ok)

/-- No file is found for the path of an artefact: for the Rust parser no file matches, for the others the file cannot be
opened. -/
def FindsNothing (env : Env) (w : World) (ac : ArtefactConfig) (base p : Str) : Prop :=
  (ac.parser = .rust ∧ Finds env w base p []) ∨
  (ac.parser ≠ .rust ∧ ∃ e, env.os.openFile w (target base p) = .error e)

/-- The error is about two requirements with the same id. -/
def AboutDuplicates (e : Error) : Prop := ∃ first again, e = .duplicateRequirement first again

end Reqtrace.Spec
