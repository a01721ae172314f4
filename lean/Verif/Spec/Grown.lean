import Verif.Spec.Shuffled
import Verif.Spec.Meta
import Verif.Spec.Project

/-!
# A file with one thing more at its end
-/

namespace Reqtrace.Spec

open Rs

/-- The second file is the first one with something more at its end, which says the requirement `n`. -/
inductive FileGrows (env : Env) (w w' : World) (p : Path) : ArtefactParser → Requirement → Prop
  /-- In a Markdown file, of whole lines and with nothing cut off at its end: a text that alone is a document with one
  requirement, and begins with its heading. -/
  | section {t s ls ss h body level id title n} : env.os.openFile w p = .ok ⟨Utf8.encode t, none⟩ →
      env.os.openFile w' p = .ok ⟨Utf8.encode (t ++ s), none⟩ →
      WholeLines t → Lines t ls → Document env.U p ls ss → kept none ss = ss →
      Lines s (h :: body) → ReqHeading env.U h level id title → FileMeans env p ⟨Utf8.encode s, none⟩ .markdown [n] [] →
      FileGrows env w w' p .markdown (shiftReq ls.length n)
  /-- In a Rust file: a piece of code with marks within items of other names, all within the same item and none of them
  wrong. -/
  | code {t t' f g es n} : env.os.openFile w p = .ok ⟨Utf8.encode t, none⟩ →
      env.os.openFile w' p = .ok ⟨Utf8.encode t', none⟩ → env.syn.parseFile t = .ok f →
      env.syn.parseFile t' = .ok (after f g) → (∀ id, MarkedBy f id → ¬ MarkedBy g id) →
      AllMarks env.syn.debug p (occs p [] none g) es [] → IsRun n es → FileGrows env w w' p .rust n

/-- The project is as before, but for one file of one artefact, which has one requirement more at its end. -/
structure ProjectGrows (env : Env) (w w' : World) (base : Path) (config : Config) (x : ArtefactId) (n : Requirement) :
    Prop where
  matching : SameMatches env w w'
  artefact : ∃ before ac after pre p post, config.artefacts = before ++ ac :: after ∧ ac.id = x ∧
    (∀ b ∈ after, b.id ≠ x) ∧ (ac.referenceWithTitle = some true → n.title ≠ none) ∧
    FilesOf env w ac base (pre ++ p :: post) ∧ FileGrows env w w' p ac.parser n ∧ (∀ q ∈ pre ++ post, SameFile env w w' q) ∧
    ∀ b ∈ before ++ after, ∀ fs, FilesOf env w b base fs → ∀ q ∈ fs, SameFile env w w' q

/-- Nothing is wrong with the references, coverage and derivation, but that `u` is not covered along `rel`, which then
may be unused. -/
structure CleanBut (g : Graph) (rel : Relation) (u : Requirement) : Prop where
  unique : ∀ a b r s, Defines g a r → Defines g b s → r.id = s.id → a = b
  used : ∀ rel' ∈ g.relations, rel' ≠ rel → ∃ a u' l ref d, Establishes g rel' a u' l ref d
  covers : ∀ a l, Defines g a l → ∀ ref ∈ l.covers, ∃ rel ∈ g.relations, ∃ u, Establishes g rel a u l ref .upwards
  depends : ∀ a u, Defines g a u → ∀ ref ∈ u.depends,
    ∃ rel ∈ g.relations, rel.upper = a ∧ ∃ b l, Establishes g rel b u l ref .downwards
  titles : ∀ rel ∈ g.relations, ∀ a u l ref d, Establishes g rel a u l ref d →
    ref.title = (referenced u l d).title ∧ ref.title ≠ none ∨
    ref.title = none ∧ ∀ art, g.artefacts.get (referencedArt rel a d) = some art → art.referenceWithTitle = false
  covered : ∀ rel' ∈ g.relations, ∀ u', Defines g rel'.upper u' → rel' ≠ rel ∨ u' ≠ u →
    ∃ a l ref d, Establishes g rel' a u' l ref d
  derived : NothingDerived g
  relation : rel ∈ g.relations
  upper : Defines g rel.upper u
  missing : ∀ a l ref d, ¬ Establishes g rel a u l ref d

/-- The requirement, put into the artefact `x`, covers only what there is, along relations there are, and names it with
its title or, where this is allowed, with none.  It depends on nothing. -/
structure RightMark (g : Graph) (x : ArtefactId) (n : Requirement) : Prop where
  leads : ∀ ref ∈ n.covers, ∃ rel ∈ g.relations, x ∈ rel.lower ∧ ∃ u, Defines g rel.upper u ∧ ref.id = u.id
  titles : ∀ ref ∈ n.covers, ∀ rel ∈ g.relations, x ∈ rel.lower → ∀ u, Defines g rel.upper u → ref.id = u.id →
    ref.title = u.title ∧ ref.title ≠ none ∨
    ref.title = none ∧ ∀ art, g.artefacts.get rel.upper = some art → art.referenceWithTitle = false
  depends : n.depends = []

end Reqtrace.Spec
