import Verif.Spec.Run

/-!
# When the program crashes
-/

namespace Reqtrace.Spec

open Rs

/-- The five ways in which the program panics. -/
inductive Crashes (env : Env) (opt : Arguments) (w : World) : Prop
  /-- a relation names an artefact that is not configured -/
  | relation {config} : GoodConfig env w opt.configFile config → ¬ RelationsConfigured config → Crashes env opt w
  /-- a Markdown file has a last line of one ASCII character without line feed -/
  | markdown {config ac p file text failure} : GoodConfig env w opt.configFile config → ac ∈ config.artefacts →
      ac.parser = .markdown → ac.paths = [p] → env.os.openFile w (target opt.baseDir p) = .ok file →
      ReadLines file text failure → OneByteTail text → Crashes env opt w
  /-- a mono-requirement file can be opened but not be read as text -/
  | mono {config ac p file} : GoodConfig env w opt.configFile config → ac ∈ config.artefacts →
      ac.parser = .monoRequirement → ac.paths = [p] → env.os.openFile w (target opt.baseDir p) = .ok file →
      (∀ text, file ≠ ⟨Utf8.encode text, none⟩) → Crashes env opt w
  /-- a Rust file has a coverage mark outside of all items -/
  | rust {config ac fs p text tree o} : GoodConfig env w opt.configFile config → ac ∈ config.artefacts →
      ac.parser = .rust → ac.paths ≠ [] → Matched env w opt.baseDir ac.paths fs → p ∈ fs →
      env.os.openFile w p = .ok ⟨Utf8.encode text, none⟩ → env.syn.parseFile text = .ok tree →
      o ∈ occs p [] none tree → IsMark o.mac → (∃ id title, Reads o.mac id title) → o.loc = none → Crashes env opt w
  /-- it is the turn of a job with a format that is not supported for its query, and its output can be opened -/
  | format {config g pre j post w1 w2} : GoodConfig env w opt.configFile config → IsInput env w config opt.baseDir g →
      JobsOf (config.jobs.getD .empty) (requested config opt) (pre ++ j :: post) → JobsRun env opt.baseDir g pre w .done w1 →
      Unsupported j.query j.format → Delivers env.os opt.baseDir j.file [] w1 none w2 → Crashes env opt w

/-- All items of Rust code have names, as far as the parser asks for them. -/
def NamesGiven (syn : Syn) : Prop :=
  ∀ path text tree, syn.parseFile text = .ok tree → ∀ o ∈ occs path [] none tree, ∀ n ∈ o.names, n ≠ []

end Reqtrace.Spec
