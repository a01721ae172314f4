import Verif.Spec.Moved

/-!
# The same things in another order
-/

namespace Reqtrace.Spec

/-! ## Markdown -/

/-- The lines are one section: a requirement heading and lines that are none. -/
def IsSection (U : Unicode) (b : List Str) : Prop :=
  ∃ h body level id title, b = h :: body ∧ ReqHeading U h level id title ∧ ∀ l ∈ body, NoHeading U l

/-- The body of the section is not cut off. -/
def Uncut (U : Unicode) (b : List Str) : Prop := ∀ path, ∃ as, Body U path 2 b.tail as .no

/-- Two documents with the same lines at the start and the same sections, perhaps in another order.  `bs` and `bs'` are the
sections of the two. -/
structure SectionsReordered (U : Unicode) (t t' : Str) (bs bs' : List (List Str)) : Prop where
  lines : ∃ pre, (∀ l ∈ pre, NoHeading U l) ∧ Lines t (pre ++ bs.flatten) ∧ Lines t' (pre ++ bs'.flatten)
  sections : ∀ b ∈ bs, IsSection U b
  perm : bs.Perm bs'

/-- The last section is not cut off. -/
def LastUncut (U : Unicode) (bs : List (List Str)) : Prop := ∀ b, bs.getLast? = some b → Uncut U b

/-- The requirement that is lost, with the places it would have as the only one of the file: that of the last section, if the
section is cut off. -/
inductive Lost (U : Unicode) (path : Path) (bs : List (List Str)) : List Requirement → Prop
  | none : (∀ b, bs.getLast? = some b → ∃ as, Body U path 2 b.tail as .no) → Lost U path bs []
  | last {h body level id title as cut r} : bs.getLast? = some (h :: body) → ReqHeading U h level id title →
      Body U path 2 body as cut → cut ≠ .no → IsRequirement path ⟨1, id, title, as, cut⟩ r → Lost U path bs [r]

/-- The same requirements and errors but for places and order. -/
def SameInOrder (rs rs' : List Requirement) (es es' : List Error) : Prop :=
  (rs.map forgetReq).Perm (rs'.map forgetReq) ∧ (es.map forgetError).Perm (es'.map forgetError)

/-! ## Rust -/

open Rs

/-- The pieces of code one after another. -/
def after : Forest → Forest → Forest
  | .nil, g => g
  | .mac m f, g => .mac m (after f g)
  | .item i l c inner f, g => .item i l c inner (after f g)
  | .node inner f, g => .node inner (after f g)

def allAfter (fs : List Forest) : Forest := fs.foldr after .nil

/-- The same call at another place.  If it is a mark with a wrong number of arguments, also the text for it does not show
the place. -/
structure SameCall (debug : List Tok → Str) (m m' : Mac) : Prop where
  segments : m.segments = m'.segments
  tokens : m.tokens.map (fun t => (t.isIdent, t.text)) = m'.tokens.map (fun t => (t.isIdent, t.text))
  shown : IsMark m → m.tokens.length = 2 ∨ 3 < m.tokens.length → debug m.tokens = debug m'.tokens

/-- The same code at another place. -/
inductive SameCode (debug : List Tok → Str) : Forest → Forest → Prop
  | nil : SameCode debug .nil .nil
  | mac {m m' f f'} : SameCall debug m m' → SameCode debug f f' → SameCode debug (.mac m f) (.mac m' f')
  | item {i l c l' c' inner inner' f f'} : SameCode debug inner inner' → SameCode debug f f' →
      SameCode debug (.item i l c inner f) (.item i l' c' inner' f')
  | node {inner inner' f f'} : SameCode debug inner inner' → SameCode debug f f' →
      SameCode debug (.node inner f) (.node inner' f')

/-- One by one. -/
inductive SamePieces (debug : List Tok → Str) : List Forest → List Forest → Prop
  | nil : SamePieces debug [] []
  | cons {f g fs gs} : SameCode debug f g → SamePieces debug fs gs → SamePieces debug (f :: fs) (g :: gs)

/-- Two files with the same pieces of code in another order. -/
def CodeReordered (debug : List Tok → Str) (fs fs' : List Forest) : Prop :=
  ∃ gs, fs.Perm gs ∧ SamePieces debug gs fs'

/-- There is a mark for a requirement with this id in the code. -/
def MarkedBy (f : Forest) (id : Str) : Prop := ∃ o ∈ occs [] [] none f, IsMark o.mac ∧ Joined o.names id

/-- Marks in different pieces have different names around them. -/
def OwnNames (fs : List Forest) : Prop := fs.Pairwise fun f g => ∀ id, MarkedBy f id → ¬ MarkedBy g id

/-- What a requirement of a Rust file says: the names of the items around its marks, and what they refer to. -/
def namedBy (r : Requirement) : List (Str × Reference) := r.covers.map fun ref => (r.id, moveRef nowhere ref)

/-! ## A project -/

/-- The two files say the same but for places and order. -/
inductive FileShuffled (env : Env) (w w' : World) (p q : Path) : ArtefactParser → Prop
  | same {parser} : env.os.openFile w p = env.os.openFile w' q → SameName parser p q → FileShuffled env w w' p q parser
  | sections {t t' bs bs'} : env.os.openFile w p = .ok ⟨Utf8.encode t, none⟩ →
      env.os.openFile w' q = .ok ⟨Utf8.encode t', none⟩ → SectionsReordered env.U t t' bs bs' → LastUncut env.U bs →
      LastUncut env.U bs' → FileShuffled env w w' p q .markdown
  | code {t t' fs fs'} : env.os.openFile w p = .ok ⟨Utf8.encode t, none⟩ →
      env.os.openFile w' q = .ok ⟨Utf8.encode t', none⟩ → env.syn.parseFile t = .ok (allAfter fs) →
      env.syn.parseFile t' = .ok (allAfter fs') → CodeReordered env.syn.debug fs fs' → OwnNames fs →
      FileShuffled env w w' p q .rust

/-- File by file. -/
inductive FilesShuffled (env : Env) (w w' : World) (parser : ArtefactParser) : List Path → List Path → Prop
  | nil : FilesShuffled env w w' parser [] []
  | cons {p q ps qs} : FileShuffled env w w' p q parser → FilesShuffled env w w' parser ps qs →
      FilesShuffled env w w' parser (p :: ps) (q :: qs)

/-- The files are Rust files, made of these pieces of code. -/
inductive CodeFiles (env : Env) (w : World) : List Path → List (List Forest) → Prop
  | nil : CodeFiles env w [] []
  | cons {p ps t fs fss} : env.os.openFile w p = .ok ⟨Utf8.encode t, none⟩ → env.syn.parseFile t = .ok (allAfter fs) →
      CodeFiles env w ps fss → CodeFiles env w (p :: ps) (fs :: fss)

/-- The files of an artefact, with what stands in them in another order, or with pieces of code also in other files. -/
inductive FilesReordered (env : Env) (w w' : World) : ArtefactParser → List Path → List Path → Prop
  | order {parser fs gs fs'} : FilesShuffled env w w' parser fs gs → gs.Perm fs' → FilesReordered env w w' parser fs fs'
  | spread {fs fs' fss fss'} : CodeFiles env w fs fss → CodeFiles env w' fs' fss' →
      CodeReordered env.syn.debug fss.flatten fss'.flatten → OwnNames fss.flatten → FilesReordered env w w' .rust fs fs'

/-- The same artefact with its files and what stands in them in another order. -/
structure ArtefactShuffled (env : Env) (w w' : World) (base base' : Path) (ac ac' : ArtefactConfig) : Prop where
  id : ac.id = ac'.id
  parser : ac.parser = ac'.parser
  ignore : ac.ignoreDerivedRequirements = ac'.ignoreDerivedRequirements
  titles : ac.referenceWithTitle = ac'.referenceWithTitle
  files : ∃ fs fs', FilesOf env w ac base fs ∧ FilesOf env w' ac' base' fs' ∧ FilesReordered env w w' ac.parser fs fs'

inductive ArtefactsShuffled (env : Env) (w w' : World) (base base' : Path) :
    List ArtefactConfig → List ArtefactConfig → Prop
  | nil : ArtefactsShuffled env w w' base base' [] []
  | cons {ac ac' acs acs'} : ArtefactShuffled env w w' base base' ac ac' →
      ArtefactsShuffled env w w' base base' acs acs' → ArtefactsShuffled env w w' base base' (ac :: acs) (ac' :: acs')

/-- The same project with its files and what stands in them in another order. -/
structure ProjectShuffled (env : Env) (w w' : World) (base base' : Path) (config config' : Config) : Prop where
  relations : config.relations = config'.relations
  jobs : config.jobs = config'.jobs
  defaultJobs : config.defaultJobs = config'.defaultJobs
  artefacts : ArtefactsShuffled env w w' base base' config.artefacts config'.artefacts

/-- What an artefact is without places, files and errors. -/
def onlyRequirements (a : Artefact) : Artefact := { forgetArtefact a with files := [], errors := [] }

/-- The same graph but for places and for the order of the files and errors. -/
def SameGraph (g g' : Graph) : Prop :=
  g.relations = g'.relations ∧ g.artefacts.mapValues onlyRequirements = g'.artefacts.mapValues onlyRequirements ∧
  ∀ id a a', g.artefacts.get id = some a → g'.artefacts.get id = some a' →
    (a.errors.map forgetError).Perm (a'.errors.map forgetError)

/-- The same result of tracing but for the places; coverages, requirements and errors are in the same order. -/
def SameTrace (tg tg' : TracedGraph) : Prop :=
  tg.artefacts.mapValues onlyRequirements = tg'.artefacts.mapValues onlyRequirements ∧
  tg.tracedRelations.map (fun tr => (tr.relation, tr.covered.map (fun c => (c.upper, c.lower, c.direction)), tr.uncovered)) =
    tg'.tracedRelations.map (fun tr => (tr.relation, tr.covered.map (fun c => (c.upper, c.lower, c.direction)), tr.uncovered)) ∧
  tg.derived = tg'.derived ∧
  tg.errors.map (repaintError nowhere forgetReq) = tg'.errors.map (repaintError nowhere forgetReq)

/-- No id is given twice in an artefact of the graph. -/
def NoDuplicates (g : Graph) : Prop :=
  ∀ id a, g.artefacts.get id = some a → ∀ r r', Error.duplicateRequirement r r' ∉ a.errors

end Reqtrace.Spec
