import Verif.Spec.Grown

/-!
# A section that is written anew
-/

namespace Reqtrace.Spec

open Rs

/-- In the file `p` a section, and nothing else, is written anew; its id stays.  `s` is the section before and `s'` after. -/
inductive SectionEdited (env : Env) (w w' : World) (p : Path) (s s' : Section) : Prop
  | edited {text text' pre h h' body body' post level level'} : env.os.openFile w p = .ok ⟨Utf8.encode text, none⟩ →
      env.os.openFile w' p = .ok ⟨Utf8.encode text', none⟩ → Lines text (pre ++ h :: (body ++ post)) →
      Lines text' (pre ++ h' :: (body' ++ post)) → ¬ OneByteTail text' →
      s.line = pre.length + 1 → s'.line = pre.length + 1 → s'.id = s.id →
      ReqHeading env.U h level s.id s.title → ReqHeading env.U h' level' s'.id s'.title →
      (∀ l ∈ body, NoHeading env.U l) → (∀ l ∈ body', NoHeading env.U l) → Ends env.U post →
      Body env.U p (pre.length + 2) body s.attrs s.cut → Body env.U p (pre.length + 2) body' s'.attrs s'.cut →
      (post = [] → s.cut = .no ∧ s'.cut = .no) → SectionEdited env w w' p s s'

/-- In the file `p` the text of one requirement is written anew; it was `old` and is `new`. -/
inductive FileEdited (env : Env) (w w' : World) (p : Path) : ArtefactParser → Requirement → Requirement → Prop
  | section {s s' old new} : SectionEdited env w w' p s s' → IsRequirement p s old → IsRequirement p s' new →
      FileEdited env w w' p .markdown old new
  | mono {old new errs errs'} : PathMeans env w .monoRequirement p [old] errs → PathMeans env w' .monoRequirement p [new] errs' →
      FileEdited env w w' p .monoRequirement old new
  /-- In a Rust file: a piece of code with the marks within one item, whose name the other pieces do not have.  What comes
  after it may then be at another place. -/
  | code {t t' f g g' h h' es es' errs errs' old new} : env.os.openFile w p = .ok ⟨Utf8.encode t, none⟩ →
      env.os.openFile w' p = .ok ⟨Utf8.encode t', none⟩ → env.syn.parseFile t = .ok (after f (after g h)) →
      env.syn.parseFile t' = .ok (after f (after g' h')) → SameCode env.syn.debug h h' → OwnNames [f, g, h] →
      OwnNames [f, g', h'] → AllMarks env.syn.debug p (occs p [] none g) es errs → IsRun old es →
      AllMarks env.syn.debug p (occs p [] none g') es' errs' → IsRun new es' → FileEdited env w w' p .rust old new

/-- The project is as before, but for one file of one artefact, in which the text of one requirement is written anew. -/
structure ProjectEdited (env : Env) (w w' : World) (base : Path) (config : Config) (x : ArtefactId) (old new : Requirement) :
    Prop where
  matching : SameMatches env w w'
  artefact : ∃ before ac after pre p post, config.artefacts = before ++ ac :: after ∧ ac.id = x ∧ (∀ b ∈ after, b.id ≠ x) ∧
    FilesOf env w ac base (pre ++ p :: post) ∧ FileEdited env w w' p ac.parser old new ∧
    (∀ q ∈ pre ++ post, SameFile env w w' q) ∧
    ∀ b ∈ before ++ after, ∀ fs, FilesOf env w b base fs → ∀ q ∈ fs, SameFile env w w' q

/-- The one is the other one, the same at another place, or that written anew. -/
def Rewritten (old new r r' : Requirement) : Prop := forgetReq r = forgetReq r' ∨ r = old ∧ r' = new

/-- What there is with an id, before and after. -/
def Corresponds (old new : Requirement) (m m' : BMap RequirementId Requirement) : Prop :=
  ∀ k, (m.get k = none ↔ m'.get k = none) ∧ ∀ r, m.get k = some r → ∃ r', m'.get k = some r' ∧ Rewritten old new r r'

/-- The graph before and after; the new requirement counts, unless an id was given twice before. -/
structure GraphRewritten (g g' : Graph) (x : ArtefactId) (old new : Requirement) : Prop where
  relations : g'.relations = g.relations
  others : ∀ a, a ≠ x → g'.artefacts.get a = g.artefacts.get a
  artefact : ∃ art art', g.artefacts.get x = some art ∧ g'.artefacts.get x = some art' ∧
    art'.ignoreDerivedRequirements = art.ignoreDerivedRequirements ∧ art'.referenceWithTitle = art.referenceWithTitle ∧
    Corresponds old new art.requirements art'.requirements ∧
    ((∀ first again, Error.duplicateRequirement first again ∈ art.errors → first.id ≠ old.id) →
      art.requirements.get old.id = some old ∧ art'.requirements.get old.id = some new)

end Reqtrace.Spec
