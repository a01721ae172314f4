import Verif.Spec.Whole
import Verif.Spec.Trace
import Verif.Spec.Rust

/-!
# Where things stand in the files

What an editor shows at a place: the line of a Markdown or mono-requirement file, the mark or the item of a Rust file.
-/

namespace Reqtrace.Spec

/-- The line with that number of the file has the text in it. -/
def InLineOf (env : Env) (w : World) (p : Path) (n : Nat) (s : Str) : Prop :=
  ∃ file text failure ls l, env.os.openFile w p = .ok file ∧ ReadLines file text failure ∧ Lines text ls ∧
    0 < n ∧ ls[n - 1]? = some l ∧ s <:+: l

/-- The macro call is in the Rust file, with its surroundings. -/
def CallIn (env : Env) (w : World) (p : Path) (o : Occ) : Prop :=
  ∃ file src forest, env.os.openFile w p = .ok file ∧ ReadWhole file src ∧ src.failure = none ∧
    env.syn.parseFile src.text = .ok forest ∧ o ∈ occs p [] none forest

/-- A reference to `id` stands at the place. -/
def RefersAt (env : Env) (w : World) (parser : ArtefactParser) (loc : Location) (id : Str) : Prop :=
  match parser with
  | .markdown | .monoRequirement => ∃ n, loc.locationInFile = some (.line n) ∧ InLineOf env w loc.file n id
  | .rust => ∃ o title, CallIn env w loc.file o ∧ IsMark o.mac ∧ Reads o.mac id title ∧
      loc.locationInFile = some (.lineAndColumn o.mac.line o.mac.column)
  | .json => True

/-- The requirement `id` stands at the place. -/
def StandsAt (env : Env) (w : World) (parser : ArtefactParser) (loc : Location) (id : Str) : Prop :=
  match parser with
  | .markdown => ∃ n, loc.locationInFile = some (.line n) ∧ InLineOf env w loc.file n id
  | .monoRequirement => loc.locationInFile = none ∧ (∃ file, env.os.openFile w loc.file = .ok file) ∧
      ((∃ name, FileName loc.file name ∧ Stem name id) ∨ (∀ name, ¬ FileName loc.file name) ∧ id = c!"README")
  | .rust => ∃ o title up, CallIn env w loc.file o ∧ IsMark o.mac ∧ Reads o.mac up title ∧ o.loc = some loc ∧ Joined o.names id
  | .json => True

/-- Something is wrong at the place: a line of a Markdown file, or a place at which a Rust file is no Rust or a mark has wrong
arguments. -/
def WrongAt (env : Env) (w : World) (parser : ArtefactParser) (loc : Location) : Prop :=
  match parser with
  | .markdown => ∃ n, loc.locationInFile = some (.line n) ∧ InLineOf env w loc.file n []
  | .rust => ∃ file src, env.os.openFile w loc.file = .ok file ∧ ReadWhole file src ∧ src.failure = none ∧
      ((∃ line column msg, env.syn.parseFile src.text = .error (line, column, msg) ∧
          loc.locationInFile = some (.lineAndColumn line column)) ∨
        ∃ forest o, env.syn.parseFile src.text = .ok forest ∧ o ∈ occs loc.file [] none forest ∧ IsMark o.mac ∧
          ∃ line column msg, Mistake env.syn.debug o.mac line column msg ∧ loc.locationInFile = some (.lineAndColumn line column))
  | .monoRequirement => False
  | .json => True

/-- The files that are listed for the artefact. -/
def Listed (g : Graph) (a : ArtefactId) (p : Path) : Prop := ∃ art, g.artefacts.get a = some art ∧ p ∈ art.files

/-- A reference of an artefact to `id` stands at the place, in a listed file, unless the artefact is JSON. -/
def CitedAt (env : Env) (w : World) (config : Config) (g : Graph) (a : ArtefactId) (loc : Location) (id : Str) : Prop :=
  ∃ ac, LastEntry config ac ∧ ac.id = a ∧
    (ac.parser ≠ .json → Listed g a loc.file ∧ RefersAt env w ac.parser loc id)

end Reqtrace.Spec
