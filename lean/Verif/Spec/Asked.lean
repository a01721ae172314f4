import Verif.Spec.Controller

/-!
# What a run asks for
-/

namespace Reqtrace.Spec

/-- A requested job has the query and may set the return code. -/
def Asks (config : Config) (opt : Arguments) (q : Query) : Prop :=
  ∃ n ∈ requested config opt, ∃ j, (config.jobs.getD .empty).get n = some j ∧ Sets j ∧ j.query = q

end Reqtrace.Spec
