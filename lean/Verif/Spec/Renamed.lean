import Verif.Spec.Meta
import Verif.Spec.Moved
import Verif.Spec.Reimport

/-!
# The same project with other ids for its requirements, in all its texts
-/

namespace Reqtrace.Spec

open Rs

/-! ## What a file says -/

/-- A problem of a file with other names. -/
def renamedProblem (f : RequirementId → RequirementId) : Error → Error
  | .duplicateAttribute l a id => .duplicateAttribute l a (f id)
  | .requirementWithoutTitle r => .requirementWithoutTitle (renamed f r)
  | e => renamedError f e

/-- The same requirements and errors with other names, the places aside. -/
def SaysRenamed (f : RequirementId → RequirementId) (reqs : List Requirement) (errs : List Error)
    (reqs' : List Requirement) (errs' : List Error) : Prop :=
  reqs'.map forgetReq = reqs.map (fun r => forgetReq (renamed f r)) ∧
  errs'.map forgetError = errs.map (fun e => forgetError (renamedProblem f e))

/-- The one file says what the other one says, with other names. -/
def PathRenamed (f : RequirementId → RequirementId) (env : Env) (w w' : World) (parser : ArtefactParser) (p q : Path) : Prop :=
  ∃ reqs errs reqs' errs', PathMeans env w parser p reqs errs ∧ PathMeans env w' parser q reqs' errs' ∧
    SaysRenamed f reqs errs reqs' errs'

/-! ## Markdown -/

/-- A reference with another name for the requirement, at any place. -/
def RefRenamed (f : RequirementId → RequirementId) (r r' : Reference) : Prop := r'.id = f r.id ∧ r'.title = r.title

/-- The same text, or references with other names. -/
inductive ValueRenamed (f : RequirementId → RequirementId) : Value → Value → Prop
  | text (s) : ValueRenamed f (.text s) (.text s)
  | refs {rs rs'} : Pairs (RefRenamed f) rs rs' → ValueRenamed f (.refs rs) (.refs rs')

/-- The same attribute with other names in it, in any line. -/
def AttrRenamed (f : RequirementId → RequirementId) (a a' : Attr) : Prop :=
  a'.name = a.name ∧ ValueRenamed f a.value a'.value

/-- The same end of a section, in any line. -/
inductive SameCut : Cut → Cut → Prop
  | no : SameCut .no .no
  | heading : SameCut .heading .heading
  | wrong (n n' what) : SameCut (.wrong n what) (.wrong n' what)

/-- The same section with other names in it, in any lines. -/
structure SectionRenamed (f : RequirementId → RequirementId) (s s' : Section) : Prop where
  id : s'.id = f s.id
  title : s'.title = s.title
  attrs : Pairs (AttrRenamed f) s.attrs s'.attrs
  cut : SameCut s.cut s'.cut

/-- Two Markdown files, section by section the same with other names. -/
def MarkdownRenamed (f : RequirementId → RequirementId) (U : Unicode) (p q : Path) (file file' : File) : Prop :=
  ∃ text text' failure ls ls' ss ss', ReadLines file text failure ∧ ReadLines file' text' failure ∧
    ¬ OneByteTail text ∧ ¬ OneByteTail text' ∧ Lines text ls ∧ Lines text' ls' ∧ Document U p ls ss ∧ Document U q ls' ss' ∧
    Pairs (SectionRenamed f) ss ss'

/-! ## Rust -/

/-- The same macro call, perhaps elsewhere.  If it is a coverage mark, it is in items whose name is the other name, and has
the other name of the requirement, or the same mistake. -/
structure OccRenamed (f : RequirementId → RequirementId) (debug : List Tok → Str) (o o' : Occ) : Prop where
  mark : IsMark o.mac ↔ IsMark o'.mac
  inside : IsMark o.mac → ∃ name, Joined o.names name ∧ Joined o'.names (f name)
  items : IsMark o.mac → o.loc.isSome ∧ o'.loc.isSome
  reads : IsMark o.mac → (∃ id title, Reads o.mac id title ∧ Reads o'.mac (f id) title) ∨
    ∃ l c l' c' msg, Mistake debug o.mac l c msg ∧ Mistake debug o'.mac l' c' msg

/-- Two Rust files, macro call by macro call the same with other names. -/
def RustRenamed (f : RequirementId → RequirementId) (syn : Syn) (p q : Path) (file file' : File) : Prop :=
  ∃ text text' forest forest', file = ⟨Utf8.encode text, none⟩ ∧ file' = ⟨Utf8.encode text', none⟩ ∧
    syn.parseFile text = .ok forest ∧ syn.parseFile text' = .ok forest' ∧
    Pairs (OccRenamed f syn.debug) (occs p [] none forest) (occs q [] none forest')

/-! ## Mono-requirements and JSON -/

/-- Two mono-requirement files with the same title; the name of the file is the other name, and the references below are
to the other names. -/
def MonoRenamed (f : RequirementId → RequirementId) (U : Unicode) (p q : Path) (file file' : File) : Prop :=
  ∃ text text' ls ls' refs refs' name name' stem, file = ⟨Utf8.encode text, none⟩ ∧ file' = ⟨Utf8.encode text', none⟩ ∧
    TextLines text ls ∧ TextLines text' ls' ∧ ls'.head? = ls.head? ∧
    Arrows U p 2 ls.tail refs ∧ Arrows U q 2 ls'.tail refs' ∧ Pairs (RefRenamed f) refs refs' ∧
    FileName p name ∧ FileName q name' ∧ Stem name stem ∧ Stem name' (f stem)

/-- Two JSON files, requirement by requirement the same with other names. -/
def JsonRenamed (f : RequirementId → RequirementId) (file file' : File) : Prop :=
  ∃ reqs reqs', JsonFile file reqs ∧ JsonFile file' reqs' ∧
    reqs'.map forgetReq = reqs.map (fun r => forgetReq (renamed f r))

/-- The requirement and its references keep their names. -/
def Unaffected (f : RequirementId → RequirementId) (r : Requirement) : Prop :=
  f r.id = r.id ∧ ∀ ref ∈ r.covers ++ r.depends, f ref.id = ref.id

/-- Two files of a project, before and after the change of names: one of the above; or two files with the same content, in
which there is nothing to change. -/
inductive FileRenamed (f : RequirementId → RequirementId) (env : Env) (p q : Path) (file file' : File) : ArtefactParser → Prop
  | markdown : MarkdownRenamed f env.U p q file file' → FileRenamed f env p q file file' .markdown
  | rust : RustRenamed f env.syn p q file file' → FileRenamed f env p q file file' .rust
  | mono : MonoRenamed f env.U p q file file' → FileRenamed f env p q file file' .monoRequirement
  | json : JsonRenamed f file file' → FileRenamed f env p q file file' .json
  | same {parser reqs errs} : file = file' → SameName parser p q → FileMeans env p file parser reqs errs →
      (∀ r ∈ reqs, Unaffected f r) → (∀ l a id, .duplicateAttribute l a id ∈ errs → f id = id) →
      FileRenamed f env p q file file' parser

/-! ## A project -/

/-- The same artefact, file by file with other names. -/
structure ArtefactTextsRenamed (f : RequirementId → RequirementId) (env : Env) (w w' : World) (base base' : Path)
    (ac ac' : ArtefactConfig) : Prop where
  id : ac.id = ac'.id
  parser : ac.parser = ac'.parser
  ignore : ac.ignoreDerivedRequirements = ac'.ignoreDerivedRequirements
  titles : ac.referenceWithTitle = ac'.referenceWithTitle
  files : ∃ fs fs', FilesOf env w ac base fs ∧ FilesOf env w' ac' base' fs' ∧
    Pairs (PathRenamed f env w w' ac.parser) fs fs'

/-- The same project, file by file with other names, no two the same. -/
structure ProjectRenamed (f : RequirementId → RequirementId) (env : Env) (w w' : World) (base base' : Path)
    (config config' : Config) : Prop where
  injective : ∀ a b, f a = f b → a = b
  relations : config.relations = config'.relations
  jobs : config.jobs = config'.jobs
  defaultJobs : config.defaultJobs = config'.defaultJobs
  artefacts : Pairs (ArtefactTextsRenamed f env w w' base base') config.artefacts config'.artefacts

/-! ## What is found -/

/-- The same artefact with other names, the places aside. -/
structure ArtefactRenamed (f : RequirementId → RequirementId) (a a' : Artefact) : Prop where
  id : a'.id = a.id
  ignore : a'.ignoreDerivedRequirements = a.ignoreDerivedRequirements
  titles : a'.referenceWithTitle = a.referenceWithTitle
  there : ∀ k r, a.requirements.get k = some r → ∃ r', a'.requirements.get (f k) = some r' ∧
    forgetReq r' = forgetReq (renamed f r)
  back : ∀ k' r', a'.requirements.get k' = some r' → ∃ k r, k' = f k ∧ a.requirements.get k = some r
  errors : (a'.errors.map forgetError).Perm (a.errors.map (fun e => forgetError (renamedProblem f e)))

/-- The same artefacts with other names. -/
def ArtefactsRenamed (f : RequirementId → RequirementId) (m m' : BMap ArtefactId Artefact) : Prop :=
  ∀ a, (m.get a = none ∧ m'.get a = none) ∨
    ∃ art art', m.get a = some art ∧ m'.get a = some art' ∧ ArtefactRenamed f art art'

/-- The pairs of requirements of which one covers the other, and the direction of the reference. -/
def coverTriples (tr : TracedRelation) : List (RequirementId × RequirementId × CoverageDirection) :=
  tr.covered.map (fun c => (c.upper, c.lower, c.direction))

/-- The same results with other names, the places and the order aside. -/
structure ResultRenamed (f : RequirementId → RequirementId) (tg tg' : TracedGraph) : Prop where
  artefacts : ArtefactsRenamed f tg.artefacts tg'.artefacts
  length : tg'.tracedRelations.length = tg.tracedRelations.length
  relations : ∀ (i : Nat) (tr tr' : TracedRelation), tg.tracedRelations[i]? = some tr → tg'.tracedRelations[i]? = some tr' →
    tr'.relation = tr.relation ∧
    (coverTriples tr').Perm ((coverTriples tr).map (fun c => (f c.1, f c.2.1, c.2.2))) ∧
    tr'.uncovered.Perm (tr.uncovered.map f)
  derived : ∀ a, (tg.derived.get a = none ∧ tg'.derived.get a = none) ∨
    ∃ d d', tg.derived.get a = some d ∧ tg'.derived.get a = some d' ∧ d'.Perm (d.map f)
  errors : (tg'.errors.map (repaintError nowhere forgetReq)).Perm
    (tg.errors.map (fun e => repaintError nowhere forgetReq (renamedError f e)))

end Reqtrace.Spec
