import Verif.Basic

/-!
# `src/models.rs`: data types
-/

namespace Reqtrace

/-! ## Orders on pairs -/

/-- Rust's lexicographic `Ord` for pairs. -/
instance instOrdPair {α β : Type} [Ord α] [Ord β] : Ord (α × β) := lexOrd

instance {α β : Type} [Ord α] [Ord β] [Std.TransOrd α] [Std.TransOrd β] :
    Std.TransOrd (α × β) :=
  inferInstanceAs (Std.TransCmp (compareLex (compareOn Prod.fst) (compareOn Prod.snd)))

instance {α β : Type} [Ord α] [Ord β] [Std.LawfulEqOrd α] [Std.LawfulEqOrd β] :
    Std.LawfulEqOrd (α × β) where
  compare_self {a} := by
    show (compare a.1 a.1).then (compare a.2 a.2) = .eq
    simp
  eq_of_compare {a b} h := by
    have h : (compare a.1 b.1).then (compare a.2 b.2) = .eq := h
    rw [Ordering.then_eq_eq] at h
    exact Prod.ext (Std.LawfulEqOrd.eq_of_compare h.1) (Std.LawfulEqOrd.eq_of_compare h.2)

/-- `models.rs:15-34` `ArtefactId(String)` -/
abbrev ArtefactId := Str

/-- `models.rs:36-54` `RequirementId(String)` -/
abbrev RequirementId := Str

/-- `std::path::PathBuf`, as text (`display()` is the identity on it; paths are UTF-8 here). -/
abbrev Path := Str

/-- `models.rs:56-62` -/
inductive ArtefactParser where
  | markdown
  | rust
  | monoRequirement
  | json
  deriving DecidableEq, Repr

/-- `models.rs:64-75` -/
structure ArtefactConfig where
  id : ArtefactId
  paths : List Str
  parser : ArtefactParser
  ignoreDerivedRequirements : Option Bool
  referenceWithTitle : Option Bool
  deriving DecidableEq, Repr

/-- `models.rs:361-368`; the derived `Ord` is lexicographic in the order of the fields -/
structure Relation where
  upper : ArtefactId
  lower : List ArtefactId
  deriving DecidableEq, Repr

/-- `models.rs:361` `derive(PartialOrd, Ord)` for `Relation` -/
instance : Ord Relation := ⟨compareLex (compareOn Relation.upper) (compareOn Relation.lower)⟩

instance : Std.TransOrd Relation :=
  inferInstanceAs (Std.TransCmp (compareLex (compareOn Relation.upper) (compareOn Relation.lower)))

instance : Std.LawfulEqOrd Relation where
  compare_self {a} := by
    show (compare a.upper a.upper).then (compare a.lower a.lower) = .eq
    simp
  eq_of_compare {a b} h := by
    have h : (compare a.upper b.upper).then (compare a.lower b.lower) = .eq := h
    rw [Ordering.then_eq_eq] at h
    have h1 : a.upper = b.upper := Std.LawfulEqOrd.eq_of_compare h.1
    have h2 : a.lower = b.lower := Std.LawfulEqOrd.eq_of_compare h.2
    cases a; cases b; simp_all

/-- `models.rs:86-93` -/
inductive Query where
  | parse
  | trace
  deriving DecidableEq, Repr

/-- `models.rs:103-111` -/
inductive Format where
  | gnuError
  | json
  | markdown
  | tags
  | templateFile (path : Path)
  | templateString (text : Str)
  deriving DecidableEq, Repr

/-- `models.rs:95-101` -/
structure Job where
  query : Query
  format : Format
  file : Path
  setReturnCode : Option Bool
  deriving DecidableEq, Repr

/-- `models.rs:77-84` -/
structure Config where
  version : Option Nat
  artefacts : List ArtefactConfig
  relations : List Relation
  jobs : Option (BMap Str Job)
  defaultJobs : Option (List Str)
  deriving Repr

/-- `models.rs:113-118` -/
inductive LocationInFile where
  | line (line : Nat)
  | lineAndColumn (line column : Nat)
  | string (s : Str)
  deriving DecidableEq, Repr

/-- `models.rs:120-145` `impl PartialOrd for LocationInFile` -/
def LocationInFile.partialCmp : LocationInFile → LocationInFile → Option Ordering
  | .line l, .line l' => some (compare l l')
  | .line l, .lineAndColumn l' c' => some (compare (l, 0) (l', c'))
  | .line _, .string _ => none
  | .lineAndColumn l c, .line l' => some (compare (l, c) (l', 0))
  | .lineAndColumn l c, .lineAndColumn l' c' => some (compare (l, c) (l', c'))
  | .lineAndColumn _ _, .string _ => none
  | .string _, .line _ => none
  | .string _, .lineAndColumn _ _ => none
  | .string s, .string s' => some (compare s s')

/-- `models.rs:157-161` -/
structure Location where
  file : Path
  locationInFile : Option LocationInFile
  deriving DecidableEq, Repr

namespace Location

/-- `models.rs:168-173` -/
def newWithNoPos (file : Path) : Location := ⟨file, none⟩

/-- `models.rs:174-179` -/
def newWithLineNo (file : Path) (line : Nat) : Location := ⟨file, some (.line line)⟩

/-- `models.rs:180-185` -/
def newWithLineAndColumn (file : Path) (line column : Nat) : Location :=
  ⟨file, some (.lineAndColumn line column)⟩

/-- `models.rs:186-191` -/
def newWithStr (file : Path) (pos : Str) : Location := ⟨file, some (.string pos)⟩

end Location

/-- Rust's `Display` for `usize`. -/
def natStr (n : Nat) : Str := Nat.toDigits 10 n

/-- `models.rs:147-155` `impl Display for LocationInFile` -/
def LocationInFile.display : LocationInFile → Str
  | .line l => natStr l
  | .lineAndColumn l c => natStr l ++ c!":" ++ natStr c
  | .string s => s

/-- `models.rs:222-230` `impl Display for Location` -/
def Location.display (l : Location) : Str :=
  match l.locationInFile with
  | some loc => l.file ++ c!":" ++ loc.display
  | none => l.file

/-- `models.rs:232-237` -/
structure Reference where
  id : RequirementId
  title : Option Str
  location : Location
  deriving DecidableEq, Repr

/-- `models.rs:239-248` -/
structure Requirement where
  id : RequirementId
  title : Option Str
  location : Location
  covers : List Reference
  depends : List Reference
  tags : List Str
  attributes : BMap Str Str
  deriving DecidableEq, Repr

/-- `models.rs:274-339` -/
inductive Error where
  | format (loc : Location) (err : Str)
  | duplicateRequirement (first again : Requirement)
  | duplicateAttribute (loc : Location) (attr : Str) (req : RequirementId)
  | io (path : Path) (err : Str)
  | config (err : Str)
  | duplicateArtefact (a : Str)
  | unknownArtefact (a : ArtefactId)
  | coveredWithWrongTitle (upper lower : Requirement) (wrongTitle : Str) (location : Location)
  | dependWithWrongTitle (upper lower : Requirement) (wrongTitle : Str) (location : Location)
  | referencedWithoutTitle (referenced : Requirement) (location : Location)
  | requirementWithoutTitle (req : Requirement)
  | dependOnUnknownRequirement (req : Requirement) (depend : RequirementId) (location : Location)
  | coversUnknownRequirement (req : Requirement) (cover : RequirementId) (location : Location)
  | emptyGraph
  | unusedRelation (rel : Relation)
  deriving DecidableEq, Repr

/-- `models.rs:264-272` -/
structure Artefact where
  id : ArtefactId
  files : List Path
  ignoreDerivedRequirements : Bool
  referenceWithTitle : Bool
  requirements : BMap RequirementId Requirement
  errors : List Error
  deriving DecidableEq, Repr

/-- `models.rs:382-389` -/
structure Graph where
  artefacts : BMap ArtefactId Artefact
  relations : List Relation
  deriving DecidableEq, Repr

/-- `models.rs:391-398` -/
inductive CoverageDirection where
  /-- the lower requirement claims to cover the upper -/
  | upwards
  /-- the upper requirement claims it is covered by the lower -/
  | downwards
  deriving DecidableEq, Repr

/-- `models.rs:400-406` -/
structure Coverage where
  upper : RequirementId
  lower : RequirementId
  location : Location
  direction : CoverageDirection
  deriving DecidableEq, Repr

/-- `models.rs:408-420` -/
structure TracedRelation where
  relation : Relation
  covered : List Coverage
  uncovered : List RequirementId
  deriving DecidableEq, Repr

/-- `models.rs:428-441` -/
structure TracedGraph where
  artefacts : BMap ArtefactId Artefact
  tracedRelations : List TracedRelation
  derived : BMap ArtefactId (List RequirementId)
  errors : List Error
  deriving DecidableEq, Repr

/-- `sep.join(..)` of `[String]::join` -/
def joinStr (sep : Str) : List Str → Str
  | [] => []
  | [x] => x
  | x :: y :: t => x ++ sep ++ joinStr sep (y :: t)

/-- `models.rs:370-380` `impl Display for Relation`; also `models.rs:422-426` for `TracedRelation` -/
def Relation.display (r : Relation) : Str :=
  r.upper ++ c!" => [" ++ joinStr c!", " r.lower ++ c!"]"

end Reqtrace
