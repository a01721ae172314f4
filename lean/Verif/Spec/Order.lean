import Verif.Models
import Verif.Controller
import Verif.Spec.Location

/-!
# What a comparison must satisfy
-/

namespace Reqtrace.Spec

/-- A comparison that is reversed when its arguments are swapped, is transitive, and says "equal" exactly for what is the same. -/
structure Compares {α : Type} (cmp : α → α → Option Ordering) (same : α → α → Prop) : Prop where
  swap : ∀ a b, cmp b a = (cmp a b).map Ordering.swap
  trans : ∀ a b c o, cmp a b = some o → cmp b c = some o → cmp a c = some o
  equal : ∀ a b, cmp a b = some .eq ↔ same a b

/-- Two texts name the same path without looking at the file system: they differ in repeated slashes, in components `.` after
the first, and in a slash at the end. -/
inductive SamePath : Path → Path → Prop
  | refl (p) : SamePath p p
  | symm {p q} : SamePath p q → SamePath q p
  | trans {p q r} : SamePath p q → SamePath q r → SamePath p r
  | slashes (a b : Str) : SamePath (a ++ c!"//" ++ b) (a ++ c!"/" ++ b)
  | dot (a b : Str) : SamePath (a ++ c!"/./" ++ b) (a ++ c!"/" ++ b)
  | dotAtEnd (a : Str) : SamePath (a ++ c!"/.") (a ++ c!"/")
  | slashAtEnd (a : Str) : a ≠ [] → SamePath (a ++ c!"/") a

/-- Two locations denote the same place: a line is its column 0. -/
def SameSpot (a b : Location) : Prop :=
  SamePath a.file b.file ∧
    match a.locationInFile, b.locationInFile with
    | none, none => True
    | some x, some y => samePlace x y
    | _, _ => False

/-- Two problems look the same: same kind, same texts, same places, requirements of the same id. -/
def SameProblem : Error → Error → Prop
  | .format l t, .format l' t' => SameSpot l l' ∧ t = t'
  | .duplicateRequirement a b, .duplicateRequirement a' b' => a.id = a'.id ∧ b.id = b'.id
  | .duplicateAttribute l t r, .duplicateAttribute l' t' r' => SameSpot l l' ∧ t = t' ∧ r = r'
  | .io p t, .io p' t' => SamePath p p' ∧ t = t'
  | .config t, .config t' => t = t'
  | .duplicateArtefact t, .duplicateArtefact t' => t = t'
  | .unknownArtefact t, .unknownArtefact t' => t = t'
  | .coveredWithWrongTitle a b t l, .coveredWithWrongTitle a' b' t' l' => a.id = a'.id ∧ b.id = b'.id ∧ t = t' ∧ SameSpot l l'
  | .dependWithWrongTitle a b t l, .dependWithWrongTitle a' b' t' l' => a.id = a'.id ∧ b.id = b'.id ∧ t = t' ∧ SameSpot l l'
  | .referencedWithoutTitle r l, .referencedWithoutTitle r' l' => r.id = r'.id ∧ SameSpot l l'
  | .requirementWithoutTitle r, .requirementWithoutTitle r' => r.id = r'.id
  | .dependOnUnknownRequirement r i l, .dependOnUnknownRequirement r' i' l' => r.id = r'.id ∧ i = i' ∧ SameSpot l l'
  | .coversUnknownRequirement r i l, .coversUnknownRequirement r' i' l' => r.id = r'.id ∧ i = i' ∧ SameSpot l l'
  | .emptyGraph, .emptyGraph => True
  | .unusedRelation r, .unusedRelation r' => r = r'
  | _, _ => False

/-- The kinds of problems, in the order in which they are declared -/
def kindsOfProblems : List (Error → Prop) := [
  fun e => ∃ l t, e = .format l t,
  fun e => ∃ a b, e = .duplicateRequirement a b,
  fun e => ∃ l t r, e = .duplicateAttribute l t r,
  fun e => ∃ p t, e = .io p t,
  fun e => ∃ t, e = .config t,
  fun e => ∃ a, e = .duplicateArtefact a,
  fun e => ∃ a, e = .unknownArtefact a,
  fun e => ∃ a b t l, e = .coveredWithWrongTitle a b t l,
  fun e => ∃ a b t l, e = .dependWithWrongTitle a b t l,
  fun e => ∃ r l, e = .referencedWithoutTitle r l,
  fun e => ∃ r, e = .requirementWithoutTitle r,
  fun e => ∃ r i l, e = .dependOnUnknownRequirement r i l,
  fun e => ∃ r i l, e = .coversUnknownRequirement r i l,
  fun e => e = .emptyGraph,
  fun e => ∃ r, e = .unusedRelation r]

/-- Two messages of the controller are the same up to the spelling of paths. -/
def SameComplaint : ControllerError → ControllerError → Prop
  | .config t, .config t' => t = t'
  | .unknownJob t, .unknownJob t' => t = t'
  | .io p t, .io p' t' => SamePath p p' ∧ t = t'
  | _, _ => False

/-- Two locations are equal up to the spelling of the path. -/
def EqualLocation (a b : Location) : Prop := SamePath a.file b.file ∧ a.locationInFile = b.locationInFile

/-- Two references are equal up to the spelling of the path. -/
def EqualReference (a b : Reference) : Prop := a.id = b.id ∧ a.title = b.title ∧ EqualLocation a.location b.location

/-- Two lists are equally long, and what stands at the same position is related. -/
def Pointwise {α : Type} (r : α → α → Prop) (l m : List α) : Prop :=
  l.length = m.length ∧ ∀ (i : Nat) (a b : α), l[i]? = some a → m[i]? = some b → r a b

/-- Two requirements are equal in all fields, up to the spelling of paths. -/
def EqualRequirement (a b : Requirement) : Prop :=
  a.id = b.id ∧ a.title = b.title ∧ EqualLocation a.location b.location ∧ Pointwise EqualReference a.covers b.covers ∧
    Pointwise EqualReference a.depends b.depends ∧ a.tags = b.tags ∧ a.attributes = b.attributes

end Reqtrace.Spec
