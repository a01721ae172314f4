import Verif.Spec.Renamed

/-!
# Texts that say the same in other words

What counts of a requirement is its id, its title and its references.  Prose, other attributes, tags and places do not.
-/

namespace Reqtrace.Spec

open Rs

/-- What counts of a requirement: id, title, and the ids and titles of its references. -/
def gistOf (r : Requirement) : Requirement :=
  { r with location := nowhere r.location, covers := r.covers.map (moveRef nowhere),
           depends := r.depends.map (moveRef nowhere), tags := [], attributes := .empty }

/-- The two files have the same requirements as far as it counts, and the one has errors if and only if the other one has. -/
def PathReworded (env : Env) (w w' : World) (parser : ArtefactParser) (p q : Path) : Prop :=
  ∃ reqs errs reqs' errs', PathMeans env w parser p reqs errs ∧ PathMeans env w' parser q reqs' errs' ∧
    reqs'.map gistOf = reqs.map gistOf ∧ (errs' = [] ↔ errs = [])

/-! ## Markdown -/

/-- Lines of a description: no headings, and no paragraph of it starts like an attribute. -/
structure IsProse (l : Str) (more : List Str) : Prop where
  notEmpty : l ≠ ['\n']
  noHeading : ∀ m ∈ l :: more, m.head? ≠ some '#'
  noAttr : ∀ a v, ¬ AttrLine l a v
  noAttrs : NoAttrPara false more

/-- The same attributes, but for the texts of those that are texts and for empty lines. -/
inductive AttrsReworded (U : Unicode) : List Str → List Str → Prop
  | same (ls) : AttrsReworded U ls ls
  | blank {ls ls'} : AttrsReworded U ls ls' → AttrsReworded U (['\n'] :: ls) ls'
  | blank' {ls ls'} : AttrsReworded U ls ls' → AttrsReworded U ls (['\n'] :: ls')
  | text {l l' a v v' more more' rest rest'} : AttrLine l a v → AttrLine l' a v' → a ≠ c!"Covers" → a ≠ c!"Depends" →
      (∀ m ∈ more ++ more', m.head? ≠ some '#' ∧ ∀ a v, ¬ AttrLine m a v) → (AtEnd rest ∨ AtAttr rest) →
      (AtEnd rest' ∨ AtAttr rest') → AttrsReworded U rest rest' →
      AttrsReworded U (l :: (more ++ rest)) (l' :: (more' ++ rest'))
  | refs {l a v items b b' rest rest'} : AttrLine l a v → a = c!"Covers" ∨ a = c!"Depends" →
      (∀ m ∈ items, m.head? ≠ some '#' ∧ ∃ id t, RefLine U m id t) → Blank b → Blank b' → AttrsReworded U rest rest' →
      AttrsReworded U (l :: (items ++ b :: rest)) (l :: (items ++ b' :: rest'))

/-- The same body of a section, but for the description, the texts of attributes and empty lines. -/
inductive BodyReworded (U : Unicode) : List Str → List Str → Prop
  | same (ls) : BodyReworded U ls ls
  | blank {ls ls'} : BodyReworded U ls ls' → BodyReworded U (['\n'] :: ls) ls'
  | blank' {ls ls'} : BodyReworded U ls ls' → BodyReworded U ls (['\n'] :: ls')
  | attrs {ls ls'} : AtEnd ls ∨ AtAttr ls → AtEnd ls' ∨ AtAttr ls' → AttrsReworded U ls ls' → BodyReworded U ls ls'
  | prose {l l' more more' rest rest'} : IsProse l more → IsProse l' more' →
      (AtEnd rest ∨ AtAttr rest ∧ more.getLast? = some ['\n']) →
      (AtEnd rest' ∨ AtAttr rest' ∧ more'.getLast? = some ['\n']) → AttrsReworded U rest rest' →
      BodyReworded U (l :: (more ++ rest)) (l' :: (more' ++ rest'))

/-- Section by section the same in other words. -/
inductive SectionsReworded (U : Unicode) : List Str → List Str → Prop
  | nil : SectionsReworded U [] []
  | cons {h h' level level' id title body body' rest rest'} : ReqHeading U h level id title →
      ReqHeading U h' level' id title → (∀ l ∈ body ++ body', NoHeading U l) → BodyReworded U body body' →
      SectionsReworded U rest rest' → SectionsReworded U (h :: (body ++ rest)) (h' :: (body' ++ rest'))

/-- The same document in other words: other lines before the first requirement, and reworded sections. -/
def DocumentReworded (U : Unicode) (ls ls' : List Str) : Prop :=
  ∃ pre pre' rest rest', ls = pre ++ rest ∧ ls' = pre' ++ rest' ∧ (∀ l ∈ pre ++ pre', NoHeading U l) ∧
    SectionsReworded U rest rest'

/-- Two Markdown files that are the same in other words. -/
def MarkdownReworded (U : Unicode) (file file' : File) : Prop :=
  ∃ text text' ls ls', file = ⟨Utf8.encode text, none⟩ ∧ file' = ⟨Utf8.encode text', none⟩ ∧ ¬ OneByteTail text ∧
    ¬ OneByteTail text' ∧ Lines text ls ∧ Lines text' ls' ∧ DocumentReworded U ls ls'

/-! ## Rust -/

/-- Two coverage marks in items with the same name, for the same requirement with the same title. -/
structure SameMark (e e' : Entry) : Prop where
  inside : ∃ name, Joined e.names name ∧ Joined e'.names name
  items : e.loc.isSome ∧ e'.loc.isSome
  id : e'.ref.id = e.ref.id
  title : e'.ref.title = e.ref.title

/-- Two Rust files with the same marks, whatever else is in them. -/
def RustReworded (syn : Syn) (p q : Path) (file file' : File) : Prop :=
  ∃ text text' forest forest' es errs es' errs', file = ⟨Utf8.encode text, none⟩ ∧ file' = ⟨Utf8.encode text', none⟩ ∧
    syn.parseFile text = .ok forest ∧ syn.parseFile text' = .ok forest' ∧
    AllMarks syn.debug p (occs p [] none forest) es errs ∧ AllMarks syn.debug q (occs q [] none forest') es' errs' ∧
    Pairs SameMark es es' ∧ (errs' = [] ↔ errs = [])

/-! ## A project -/

/-- The same artefact, file by file in other words. -/
structure ArtefactReworded (env : Env) (w w' : World) (base base' : Path) (ac ac' : ArtefactConfig) : Prop where
  id : ac.id = ac'.id
  parser : ac.parser = ac'.parser
  ignore : ac.ignoreDerivedRequirements = ac'.ignoreDerivedRequirements
  titles : ac.referenceWithTitle = ac'.referenceWithTitle
  files : ∃ fs fs', FilesOf env w ac base fs ∧ FilesOf env w' ac' base' fs' ∧ Pairs (PathReworded env w w' ac.parser) fs fs'

/-- The same project, file by file in other words. -/
structure ProjectReworded (env : Env) (w w' : World) (base base' : Path) (config config' : Config) : Prop where
  relations : config.relations = config'.relations
  jobs : config.jobs = config'.jobs
  defaultJobs : config.defaultJobs = config'.defaultJobs
  artefacts : Pairs (ArtefactReworded env w w' base base') config.artefacts config'.artefacts

/-- An artefact has errors. -/
def HasErrors (m : BMap ArtefactId Artefact) (a : ArtefactId) : Prop := ∃ art e, m.get a = some art ∧ e ∈ art.errors

/-- The same is found in both projects: the same coverage in the same order, the same uncovered and derived requirements, the
same errors of tracing, as far as it counts, and errors in the same artefacts. -/
structure SameVerdicts (tg tg' : TracedGraph) : Prop where
  relations : tg'.tracedRelations.map (fun tr => (tr.relation, coverTriples tr, tr.uncovered)) =
    tg.tracedRelations.map (fun tr => (tr.relation, coverTriples tr, tr.uncovered))
  derived : tg'.derived = tg.derived
  errors : tg'.errors.map (repaintError nowhere gistOf) = tg.errors.map (repaintError nowhere gistOf)
  artefacts : ∀ a, HasErrors tg'.artefacts a ↔ HasErrors tg.artefacts a

end Reqtrace.Spec
