import Verif.Spec.CodeTree

/-!
# Specification: from the texts of a project to the verdict

Requirements are told apart by the artefact that they belong to; `R a r` says that artefact `a` has the requirement `r`.
-/

namespace Reqtrace.Spec

open RustLayout GlobText

/-- The Rust files that the patterns mean have these marked items, and all their marks are well formed.  The library lists
a file once for a pattern, and no file is meant by two patterns. -/
structure MarkedTree (env : Env) (w : World) (there : Path → Prop) (base : Path) (code : ArtefactConfig)
    (items : Path → List Requirement) : Prop where
  directory : PlainDirectory base
  patterns : code.paths ≠ [] ∧ ∀ p ∈ code.paths, Proper p
  once : ∀ p ∈ code.paths, ∀ fs : List Path, env.os.glob w (patternOf base p) = .ok (fs.map .ok) → fs.Nodup
  disjoint : code.paths.Pairwise fun p q => ∀ f, there f → Means base p f → ¬ Means base q f
  files : ∀ f, IsMeant there base code f → ∃ text forest marks,
    env.os.openFile w f = .ok ⟨Utf8.encode text, none⟩ ∧ IsCode text forest ∧
    AllMarks env.syn.debug f (occs f [] none forest) marks [] ∧ Grouped (items f) marks

/-- The files of the artefact say these requirements, and are well formed. -/
inductive Says (env : Env) (w : World) (there : Path → Prop) (base : Path) (ac : ArtefactConfig) :
    List Requirement → Prop
  | document {p reqs} : ac.parser ≠ .rust → ac.paths = [p] → Holds env w ac.parser (target base p) reqs →
      Says env w there base ac reqs
  | code {fs : List Path} {items} : ac.parser = .rust → MarkedTree env w there base ac items → fs.Nodup →
      (∀ f, f ∈ fs ↔ IsMeant there base ac f) → Says env w there base ac (fs.flatMap items)

/-- A project: the text of the configuration file says this configuration, in which each artefact is there once, and the
files of each artefact say these requirements. -/
structure TextProject (env : Env) (w : World) (opt : Arguments) (there : Path → Prop) (config : Config)
    (reqsOf : ArtefactId → List Requirement) : Prop where
  text : ∃ t, env.os.openFile w opt.configFile = .ok ⟨Utf8.encode t, none⟩ ∧ TomlText.IsConfigText t config
  version : ∀ v, config.version = some v → v = 0
  once : (config.artefacts.map (·.id)).Nodup
  says : ∀ ac ∈ config.artefacts, Says env w there opt.baseDir ac (reqsOf ac.id)
  only : ∀ a, reqsOf a ≠ [] → Configured config a

/-- These are the requirements in the files of the configured artefacts, and nothing is wrong with the files.  If an
artefact is configured twice, the last entry counts. -/
structure AllHold (env : Env) (w : World) (config : Config) (base : Path) (R : ArtefactId → Requirement → Prop) : Prop where
  files : ∀ ac, LastEntry config ac → ∃ reqs, CleanArtefact env w ac base reqs ∧ ∀ r, r ∈ reqs ↔ R ac.id r
  only : ∀ a r, R a r → Configured config a

/-- One of the two requirements refers to the other: the lower one covers the upper one, or the upper one depends on the
lower one. -/
def Linked (upper lower : Requirement) : Prop :=
  (∃ ref ∈ lower.covers, ref.id = upper.id) ∨ ∃ ref ∈ upper.depends, ref.id = lower.id

/-- Some requirement of a lower artefact covers the requirement. -/
def CoveredAlong (R : ArtefactId → Requirement → Prop) (rel : Relation) (u : Requirement) : Prop :=
  ∃ a ∈ rel.lower, ∃ l, R a l ∧ Linked u l

/-- The artefact is one whose requirements must all cover something: the configuration says so or, if it says nothing, the
artefact is a lower one of some relation. -/
def MustCover (config : Config) (ac : ArtefactConfig) : Prop :=
  ac.ignoreDerivedRequirements = some false ∨
    ac.ignoreDerivedRequirements = none ∧ ∃ rel ∈ config.relations, ac.id ∈ rel.lower

/-- Everything is traced.  Of the entries of an artefact in the configuration the last one counts. -/
structure AllTraced (config : Config) (R : ArtefactId → Requirement → Prop) : Prop where
  /-- No id is in two artefacts. -/
  unique : ∀ a b r s, R a r → R b s → r.id = s.id → a = b
  /-- What a requirement covers is there, in the upper artefact of a relation. -/
  covers : ∀ a r, R a r → ∀ ref ∈ r.covers,
    ∃ rel ∈ config.relations, a ∈ rel.lower ∧ ∃ u, R rel.upper u ∧ u.id = ref.id
  /-- What a requirement depends on is there, in a lower artefact of a relation. -/
  depends : ∀ a r, R a r → ∀ ref ∈ r.depends,
    ∃ rel ∈ config.relations, rel.upper = a ∧ ∃ b ∈ rel.lower, ∃ l, R b l ∧ l.id = ref.id
  /-- References give the right title or, where the configuration does not ask for titles, none. -/
  titles : ∀ a r, R a r → ∀ ref, ref ∈ r.covers ∨ ref ∈ r.depends →
    ∀ ac, LastEntry config ac → ∀ s, R ac.id s → s.id = ref.id →
    ref.title ≠ none ∧ ref.title = s.title ∨ ref.title = none ∧ ac.referenceWithTitle ≠ some true
  /-- Along each relation something is covered, and nothing is not covered. -/
  used : ∀ rel ∈ config.relations, ∃ u, R rel.upper u ∧ CoveredAlong R rel u
  covered : ∀ rel ∈ config.relations, ∀ u, R rel.upper u → CoveredAlong R rel u
  /-- What must cover something does. -/
  derived : ∀ ac, LastEntry config ac → MustCover config ac → ∀ l, R ac.id l →
    ∃ rel ∈ config.relations, ac.id ∈ rel.lower ∧ ∃ u, R rel.upper u ∧ Linked u l

/-- No id is twice in an artefact, requirements have titles where the configuration asks for titles, and everything is
traced. -/
structure AllRight (config : Config) (reqsOf : ArtefactId → List Requirement) : Prop where
  ids : ∀ ac ∈ config.artefacts, ((reqsOf ac.id).map (·.id)).Nodup
  titles : ∀ ac ∈ config.artefacts, ac.referenceWithTitle = some true → ∀ r ∈ reqsOf ac.id, r.title ≠ none
  traced : AllTraced config fun a r => r ∈ reqsOf a

end Reqtrace.Spec
