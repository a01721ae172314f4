import Verif.Spec.Formatters
import Verif.Spec.Markdown
import Verif.Spec.Output

/-!
# Reading a tags file

The format of the file is that of the editors: one line per tag, with the name, the file, and the number of the line, all
separated by tabs; what follows on `;"` are extensions.  Lines that start with `!_TAG_` say something about the file.
-/

namespace Reqtrace.Spec

/-- A tag: name, file and line number in decimal notation. -/
structure Tag where
  name : Str
  file : Str
  line : Str

/-- The tag of a line. -/
def TagOf (l : Str) (t : Tag) : Prop :=
  ∃ more, l = t.name ++ c!"\t" ++ t.file ++ c!"\t" ++ t.line ++ c!";\"" ++ more ∧ '\t' ∉ t.name ∧ '\t' ∉ t.file ∧
    ∀ c ∈ t.line, c.isDigit = true

/-- The tags of lines. -/
inductive TagsOf : List Str → List Tag → Prop
  | nil : TagsOf [] []
  | about {l ls ts} : (∃ rest, l = c!"!_TAG_" ++ rest) → TagsOf ls ts → TagsOf (l :: ls) ts
  | tag {l ls t ts} : (∀ rest, l ≠ c!"!_TAG_" ++ rest) → TagOf l t → TagsOf ls ts → TagsOf (l :: ls) (t :: ts)

/-- Each requirement that has a line, with the tag for it. -/
inductive HaveTags : List Requirement → List Tag → Prop
  | nil : HaveTags [] []
  | skip {r rs ts} : (∀ n, ¬ AtLine r n) → HaveTags rs ts → HaveTags (r :: rs) ts
  | line {r rs n ts} : AtLine r n → HaveTags rs ts → HaveTags (r :: rs) (⟨r.id, r.location.file, natStr n⟩ :: ts)

/-- The id and the file can stand in a tags file: the file without tabs and line feeds, the id without blanks,
exclamation marks and control characters. -/
def Taggable (r : Requirement) : Prop := (∀ c ∈ r.id, '!' < c) ∧ '\t' ∉ r.location.file ∧ '\n' ∉ r.location.file

end Reqtrace.Spec
