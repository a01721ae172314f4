import Verif.Spec.Run

/-!
# What jobs print
-/

namespace Reqtrace.Spec

/-- The reports that jobs print, with their formats, in the order of the jobs. -/
inductive Printed (env : FmtEnv) (g : Graph) : List Job → List (Format × Str) → Prop
  | nil : Printed env g [] []
  | print {j js t ts} : j.file = c!"-" → Report env g j.query j.format t → Printed env g js ts →
      Printed env g (j :: js) ((j.format, t) :: ts)
  | elsewhere {j js ts} : j.file ≠ c!"-" → Printed env g js ts → Printed env g (j :: js) ts

/-- All the printed text. -/
def printedText (ts : List (Format × Str)) : Str := ts.flatMap Prod.snd

/-- The reports that the jobs of a run print. -/
def PrintedBy (env : Env) (opt : Arguments) (w : World) (ts : List (Format × Str)) : Prop :=
  ∃ config g js, GoodConfig env w opt.configFile config ∧ IsInput env w config opt.baseDir g ∧
    JobsOf (config.jobs.getD .empty) (requested config opt) js ∧ Printed env.fmt g js ts

/-- `text` consists of whole lines. -/
def OfLines (text : Bytes) : Prop := text = [] ∨ text.getLast? = some 10

end Reqtrace.Spec
