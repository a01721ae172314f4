import Verif.Controller

/-!
# Comparison of locations, requirements, relations and errors

`partial_cmp` and `==` as they are derived, `models.rs:157`, `:232`, `:239`, `:274-276`, `:361`, `controller.rs:14-16`, and by
hand for requirements, `models.rs:258-262`.  The program itself does not compare any of these; users of the library can.
-/

namespace Reqtrace

namespace Order

/-- `std::path::Component` on Unix; the order of the variants is that of the enumeration -/
inductive Component where
  | rootDir
  | curDir
  | parentDir
  | normal (s : Str)
  deriving DecidableEq, Repr

/-- `Path::components`: the root or a `.` in front, then what is neither empty nor `.` -/
def components (p : Path) : List Component :=
  (if isAbsolute p then [.rootDir]
   else if (splitOnChar '/' p).head? = some ['.'] then [.curDir]
   else []) ++
  (pathParts p).map fun s => if s = c!".." then .parentDir else .normal s

/-- The derived comparison of `Component` -/
def Component.cmp : Component → Component → Ordering
  | .rootDir, .rootDir => .eq
  | .rootDir, _ => .lt
  | .curDir, .rootDir => .gt
  | .curDir, .curDir => .eq
  | .curDir, _ => .lt
  | .parentDir, .rootDir => .gt
  | .parentDir, .curDir => .gt
  | .parentDir, .parentDir => .eq
  | .parentDir, .normal _ => .lt
  | .normal s, .normal t => compare s t
  | .normal _, _ => .gt

/-- Comparison of the next field, if the ones before are equal (what `#[derive(PartialOrd)]` makes) -/
def andThen (o : Option Ordering) (next : Option Ordering) : Option Ordering :=
  match o with
  | some .eq => next
  | o => o

/-- `PartialOrd` of slices and of iterators -/
def listCmp {α : Type} (f : α → α → Option Ordering) : List α → List α → Option Ordering
  | [], [] => some .eq
  | [], _ :: _ => some .lt
  | _ :: _, [] => some .gt
  | a :: l, b :: m => andThen (f a b) (listCmp f l m)

/-- `PartialOrd` of `Option` -/
def optionCmp {α : Type} (f : α → α → Option Ordering) : Option α → Option α → Option Ordering
  | none, none => some .eq
  | none, some _ => some .lt
  | some _, none => some .gt
  | some a, some b => f a b

/-- `PartialOrd` of `String` and of the ids, `models.rs:15`, `:36` -/
def strCmp (s t : Str) : Option Ordering := some (compare s t)

/-- `PartialOrd` of `PathBuf` -/
def pathCmp (p q : Path) : Option Ordering := listCmp (fun a b => some (a.cmp b)) (components p) (components q)

/-- `models.rs:157`, derived -/
def locationCmp (a b : Location) : Option Ordering :=
  andThen (pathCmp a.file b.file) (optionCmp LocationInFile.partialCmp a.locationInFile b.locationInFile)

/-- `models.rs:258-262` -/
def requirementCmp (a b : Requirement) : Option Ordering := strCmp a.id b.id

/-- `models.rs:361`, derived -/
def relationCmp (a b : Relation) : Option Ordering := andThen (strCmp a.upper b.upper) (listCmp strCmp a.lower b.lower)

/-- The number of the variant, `models.rs:278-338` -/
def variant : Error → Nat
  | .format .. => 0
  | .duplicateRequirement .. => 1
  | .duplicateAttribute .. => 2
  | .io .. => 3
  | .config .. => 4
  | .duplicateArtefact .. => 5
  | .unknownArtefact .. => 6
  | .coveredWithWrongTitle .. => 7
  | .dependWithWrongTitle .. => 8
  | .referencedWithoutTitle .. => 9
  | .requirementWithoutTitle .. => 10
  | .dependOnUnknownRequirement .. => 11
  | .coversUnknownRequirement .. => 12
  | .emptyGraph => 13
  | .unusedRelation .. => 14

/-- `models.rs:274-276`, derived; `Rc` compares what it points to -/
def errorCmp : Error → Error → Option Ordering
  | .format l t, .format l' t' => andThen (locationCmp l l') (strCmp t t')
  | .duplicateRequirement a b, .duplicateRequirement a' b' => andThen (requirementCmp a a') (requirementCmp b b')
  | .duplicateAttribute l t r, .duplicateAttribute l' t' r' => andThen (locationCmp l l') (andThen (strCmp t t') (strCmp r r'))
  | .io p t, .io p' t' => andThen (pathCmp p p') (strCmp t t')
  | .config t, .config t' => strCmp t t'
  | .duplicateArtefact t, .duplicateArtefact t' => strCmp t t'
  | .unknownArtefact a, .unknownArtefact a' => strCmp a a'
  | .coveredWithWrongTitle a b t l, .coveredWithWrongTitle a' b' t' l' =>
    andThen (requirementCmp a a') (andThen (requirementCmp b b') (andThen (strCmp t t') (locationCmp l l')))
  | .dependWithWrongTitle a b t l, .dependWithWrongTitle a' b' t' l' =>
    andThen (requirementCmp a a') (andThen (requirementCmp b b') (andThen (strCmp t t') (locationCmp l l')))
  | .referencedWithoutTitle r l, .referencedWithoutTitle r' l' => andThen (requirementCmp r r') (locationCmp l l')
  | .requirementWithoutTitle r, .requirementWithoutTitle r' => requirementCmp r r'
  | .dependOnUnknownRequirement r i l, .dependOnUnknownRequirement r' i' l' =>
    andThen (requirementCmp r r') (andThen (strCmp i i') (locationCmp l l'))
  | .coversUnknownRequirement r i l, .coversUnknownRequirement r' i' l' =>
    andThen (requirementCmp r r') (andThen (strCmp i i') (locationCmp l l'))
  | .emptyGraph, .emptyGraph => some .eq
  | .unusedRelation r, .unusedRelation r' => relationCmp r r'
  | a, b => some (compare (variant a) (variant b))

/-- `controller.rs:14-26`, derived -/
def controllerErrorCmp : ControllerError → ControllerError → Option Ordering
  | .config t, .config t' => strCmp t t'
  | .config _, _ => some .lt
  | .unknownJob _, .config _ => some .gt
  | .unknownJob t, .unknownJob t' => strCmp t t'
  | .unknownJob _, .io .. => some .lt
  | .io p t, .io p' t' => andThen (pathCmp p p') (strCmp t t')
  | .io .., _ => some .gt

/-! ## `==` -/

/-- `PartialEq` of `PathBuf` -/
def pathEq (p q : Path) : Bool := components p == components q

/-- `models.rs:157`, derived -/
def locationEq (a b : Location) : Bool := pathEq a.file b.file && a.locationInFile == b.locationInFile

/-- `PartialEq` of slices -/
def listEq {α : Type} (f : α → α → Bool) : List α → List α → Bool
  | [], [] => true
  | a :: l, b :: m => f a b && listEq f l m
  | _, _ => false

/-- `models.rs:232`, derived -/
def referenceEq (a b : Reference) : Bool := a.id == b.id && (a.title == b.title && locationEq a.location b.location)

/-- `models.rs:239`, derived -/
def requirementEq (a b : Requirement) : Bool :=
  a.id == b.id && (a.title == b.title && (locationEq a.location b.location && (listEq referenceEq a.covers b.covers &&
    (listEq referenceEq a.depends b.depends && (a.tags == b.tags && a.attributes.entries == b.attributes.entries)))))

/-- `models.rs:361`, derived -/
def relationEq (a b : Relation) : Bool := a.upper == b.upper && a.lower == b.lower

/-- `models.rs:274-276`, derived -/
def errorEq : Error → Error → Bool
  | .format l t, .format l' t' => locationEq l l' && t == t'
  | .duplicateRequirement a b, .duplicateRequirement a' b' => requirementEq a a' && requirementEq b b'
  | .duplicateAttribute l t r, .duplicateAttribute l' t' r' => locationEq l l' && (t == t' && r == r')
  | .io p t, .io p' t' => pathEq p p' && t == t'
  | .config t, .config t' => t == t'
  | .duplicateArtefact t, .duplicateArtefact t' => t == t'
  | .unknownArtefact a, .unknownArtefact a' => a == a'
  | .coveredWithWrongTitle a b t l, .coveredWithWrongTitle a' b' t' l' =>
    requirementEq a a' && (requirementEq b b' && (t == t' && locationEq l l'))
  | .dependWithWrongTitle a b t l, .dependWithWrongTitle a' b' t' l' =>
    requirementEq a a' && (requirementEq b b' && (t == t' && locationEq l l'))
  | .referencedWithoutTitle r l, .referencedWithoutTitle r' l' => requirementEq r r' && locationEq l l'
  | .requirementWithoutTitle r, .requirementWithoutTitle r' => requirementEq r r'
  | .dependOnUnknownRequirement r i l, .dependOnUnknownRequirement r' i' l' => requirementEq r r' && (i == i' && locationEq l l')
  | .coversUnknownRequirement r i l, .coversUnknownRequirement r' i' l' => requirementEq r r' && (i == i' && locationEq l l')
  | .emptyGraph, .emptyGraph => true
  | .unusedRelation r, .unusedRelation r' => relationEq r r'
  | _, _ => false

/-- `controller.rs:14-26`, derived -/
def controllerErrorEq : ControllerError → ControllerError → Bool
  | .config t, .config t' => t == t'
  | .unknownJob t, .unknownJob t' => t == t'
  | .io p t, .io p' t' => pathEq p p' && t == t'
  | _, _ => false

end Order

end Reqtrace
