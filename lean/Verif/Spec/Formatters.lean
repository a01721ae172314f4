import Verif.Models

/-!
# What reports have to contain
-/

namespace Reqtrace.Spec

/-- The requirement has a line position. -/
def AtLine (r : Requirement) (line : Nat) : Prop :=
  r.location.locationInFile = some (.line line) ∨
    ∃ column, r.location.locationInFile = some (.lineAndColumn line column)

/-- The ctags line for a requirement. -/
def tagLine (r : Requirement) (line : Nat) : Str :=
  r.id ++ ['\t'] ++ r.location.file ++ ['\t'] ++ natStr line ++ [';', '"', '\t', 'r', '\n']

/-- `ls` has one line per requirement with a line position, in the order of the requirements. -/
inductive TagLines : List Requirement → List Str → Prop
  | nil : TagLines [] []
  | skip {r rs ls} : (∀ n, ¬ AtLine r n) → TagLines rs ls → TagLines (r :: rs) ls
  | line {r rs ls n} : AtLine r n → TagLines rs ls → TagLines (r :: rs) (tagLine r n :: ls)

/-- All requirements of the artefacts, in artefact order and id order. -/
def requirementsOf (artefacts : BMap ArtefactId Artefact) : List Requirement :=
  artefacts.entries.flatMap fun e => e.2.requirements.entries.map Prod.snd

/-- All errors of the artefacts, in artefact order. -/
def errorsOf (artefacts : BMap ArtefactId Artefact) : List Error :=
  artefacts.entries.flatMap fun e => e.2.errors

/-- The places an error is about. -/
def places : Error → List Location
  | .format loc _ => [loc]
  | .duplicateRequirement a b => [a.location, b.location]
  | .duplicateAttribute loc _ _ => [loc]
  | .coveredWithWrongTitle _ _ _ loc => [loc]
  | .dependWithWrongTitle _ _ _ loc => [loc]
  | .referencedWithoutTitle _ loc => [loc]
  | .dependOnUnknownRequirement _ _ loc => [loc]
  | .coversUnknownRequirement _ _ loc => [loc]
  | _ => []

/-- The ids and texts that say what an error is about. -/
def subjects : Error → List Str
  | .format _ err => [err]
  | .duplicateRequirement a _ => [a.id]
  | .duplicateAttribute _ attr req => [attr, req]
  | .io path err => [path, err]
  | .coveredWithWrongTitle upper _ _ _ => [upper.id]
  | .dependWithWrongTitle _ lower _ _ => [lower.id]
  | .referencedWithoutTitle r _ => [r.id]
  | .requirementWithoutTitle r => [r.id]
  | .dependOnUnknownRequirement r d _ => [r.id, d]
  | .coversUnknownRequirement r c _ => [r.id, c]
  | _ => []

/-- A relation. -/
def relationText (rel : Relation) : Str := rel.upper ++ c!" => [" ++ List.intercalate c!", " rel.lower ++ c!"]"

/-- Further texts that the Markdown report gives. -/
def mdSubjects : Error → List Str
  | .config err => [err]
  | .duplicateArtefact a => [a]
  | .unknownArtefact a => [a]
  | .coveredWithWrongTitle upper lower t _ => [lower.id, upper.title.getD [], t]
  | .dependWithWrongTitle upper lower t _ => [upper.id, lower.title.getD [], t]
  | .unusedRelation rel => [relationText rel]
  | _ => []

/-- A section of the Markdown report about problems: nothing if there are none, otherwise a headline and a part
with its own headline for each. -/
def problemSection (title : Str) (parts : List (Str × Str)) : Str :=
  if parts = [] then []
  else c!"\n\n# " ++ title ++ c!"\n\n" ++ parts.flatMap fun p => c!"\n## " ++ p.1 ++ c!"\n\n" ++ p.2

/-- A character that may stand in an anchor. -/
def AnchorChar (c : Char) : Prop :=
  ('a' ≤ c ∧ c ≤ 'z') ∨ ('A' ≤ c ∧ c ≤ 'Z') ∨ ('0' ≤ c ∧ c ≤ '9') ∨ c = '_' ∨ c = '-'

/-- The text is a Markdown link with the given label to the given anchor, perhaps with a tooltip. -/
def LinksTo (text label anchor : Str) : Prop :=
  (∀ c ∈ anchor, c ≠ ' ' ∧ c ≠ ')') ∧
    (text = c!"[" ++ label ++ c!"](#" ++ anchor ++ c!")" ∨
      ∃ tip, text = c!"[" ++ label ++ c!"](#" ++ anchor ++ c!" \"" ++ tip ++ c!"\")")

/-- The text of the section heading of a requirement in the Markdown report. -/
def headingText (r : Requirement) : Str :=
  r.id ++ (match r.title with
    | some t => c!": " ++ t
    | none => [])

/-- The anchor that GitHub gives a heading: lower case, only letters, digits, `_`, `-` and spaces are kept, spaces
become `-`.  Which characters are letters and digits is a parameter. -/
def headingAnchor (lower : Str → Str) (isWord : Char → Bool) (s : Str) : Str :=
  ((lower s).filter (fun c => isWord c || c == '-' || c == ' ')).map (fun c => if c = ' ' then '-' else c)

end Reqtrace.Spec
