import Verif.Spec.Edited

/-!
# A section that is taken out
-/

namespace Reqtrace.Spec

open Rs

/-- From the file `p` a section, and nothing else, is taken out.  If it is the last one, nothing of those before it is cut
off at the end of the file afterwards. -/
inductive SectionRemoved (env : Env) (w w' : World) (p : Path) (s : Section) : Prop
  | removed {text text' pre h body post level} : env.os.openFile w p = .ok ⟨Utf8.encode text, none⟩ →
      env.os.openFile w' p = .ok ⟨Utf8.encode text', none⟩ → Lines text (pre ++ h :: (body ++ post)) →
      Lines text' (pre ++ post) → s.line = pre.length + 1 → ReqHeading env.U h level s.id s.title →
      (∀ l ∈ body, NoHeading env.U l) → Ends env.U post → Body env.U p (pre.length + 2) body s.attrs s.cut →
      (post = [] → s.cut = .no ∧ ∀ ss, Document env.U p pre ss → kept none ss = ss) → SectionRemoved env w w' p s

/-- From the file `p` what says the requirement `old` is taken out. -/
inductive FileReduced (env : Env) (w w' : World) (p : Path) : ArtefactParser → Requirement → Prop
  | section {s old} : SectionRemoved env w w' p s → IsRequirement p s old → FileReduced env w w' p .markdown old
  /-- In a Rust file: a piece of code anywhere between the others, with marks within an item whose name the others do not
  have.  What comes after it is then at another place. -/
  | code {t t' f g h h' es old} : env.os.openFile w p = .ok ⟨Utf8.encode t, none⟩ →
      env.os.openFile w' p = .ok ⟨Utf8.encode t', none⟩ → env.syn.parseFile t = .ok (after f (after g h)) →
      env.syn.parseFile t' = .ok (after f h') → SameCode env.syn.debug h h' → OwnNames [f, g, h] →
      AllMarks env.syn.debug p (occs p [] none g) es [] → IsRun old es → FileReduced env w w' p .rust old

/-- The project is as before, but for one file of one artefact, from which one requirement is taken out. -/
structure ProjectReduced (env : Env) (w w' : World) (base : Path) (config : Config) (x : ArtefactId) (old : Requirement) :
    Prop where
  matching : SameMatches env w w'
  artefact : ∃ before ac after pre p post, config.artefacts = before ++ ac :: after ∧ ac.id = x ∧ (∀ b ∈ after, b.id ≠ x) ∧
    FilesOf env w ac base (pre ++ p :: post) ∧ FileReduced env w w' p ac.parser old ∧
    (∀ q ∈ pre ++ post, SameFile env w w' q) ∧
    ∀ b ∈ before ++ after, ∀ fs, FilesOf env w b base fs → ∀ q ∈ fs, SameFile env w w' q

/-- The graph before and after: the requirement `old` of the artefact `x` is no longer there, the other ones of that artefact
may be at other places. -/
structure GraphReduced (g g' : Graph) (x : ArtefactId) (old : Requirement) : Prop where
  relations : g'.relations = g.relations
  others : ∀ a, a ≠ x → g'.artefacts.get a = g.artefacts.get a
  artefact : ∃ art art', g.artefacts.get x = some art ∧ g'.artefacts.get x = some art' ∧ art'.id = art.id ∧
    art'.ignoreDerivedRequirements = art.ignoreDerivedRequirements ∧ art'.referenceWithTitle = art.referenceWithTitle ∧
    (∀ e' ∈ art'.errors, ∃ e ∈ art.errors, forgetError e = forgetError e') ∧ art.requirements.get old.id = some old ∧
    ∀ k, (art'.requirements.get k).map forgetReq = if k = old.id then none else (art.requirements.get k).map forgetReq

/-- No other requirement has the id. -/
def OnlyOne (g : Graph) (x : ArtefactId) (old : Requirement) : Prop := ∀ a r, Defines g a r → r.id = old.id → a = x

/-- A coverage, but for its place. -/
def Covers (tr : TracedRelation) (up low : RequirementId) (d : CoverageDirection) : Prop :=
  ∃ c ∈ tr.covered, c.upper = up ∧ c.lower = low ∧ c.direction = d

/-- The requirement with the first id is reported for its reference to the second one, which is not known. -/
def CoversUnknown (tg : TracedGraph) (id up : RequirementId) : Prop :=
  ∃ r loc, Error.coversUnknownRequirement r up loc ∈ tg.errors ∧ r.id = id

def DependsOnUnknown (tg : TracedGraph) (id low : RequirementId) : Prop :=
  ∃ r loc, Error.dependOnUnknownRequirement r low loc ∈ tg.errors ∧ r.id = id

/-- What tracing finds without the requirement `old`, by what it found with it. -/
structure TraceReduced (g : Graph) (tg tg' : TracedGraph) (old : Requirement) : Prop where
  relations : tg'.tracedRelations.map (·.relation) = tg.tracedRelations.map (·.relation)
  covered : ∀ (i : Nat) (tr tr' : TracedRelation), tg.tracedRelations[i]? = some tr → tg'.tracedRelations[i]? = some tr' →
    ∀ up low d, Covers tr' up low d ↔ Covers tr up low d ∧ up ≠ old.id ∧ low ≠ old.id
  /-- Uncovered is what was, and what only the requirement covered. -/
  uncovered : ∀ (i : Nat) (tr tr' : TracedRelation), tg.tracedRelations[i]? = some tr → tg'.tracedRelations[i]? = some tr' →
    ∀ id, id ∈ tr'.uncovered ↔ id ≠ old.id ∧
      (id ∈ tr.uncovered ∨ (∃ d, Covers tr id old.id d) ∧ ∀ low d, Covers tr id low d → low = old.id)
  /-- Derived is what was, and what covered only the requirement. -/
  derived : ∀ a, (tg'.derived.get a).isSome = (tg.derived.get a).isSome ∧
    ∀ d d', tg.derived.get a = some d → tg'.derived.get a = some d' → ∀ id, id ∈ d' ↔ id ≠ old.id ∧
      (id ∈ d ∨ (∃ art, g.artefacts.get a = some art ∧ art.ignoreDerivedRequirements = false) ∧ (∃ r, Owns g a r ∧ r.id = id) ∧
        (∃ tr ∈ tg.tracedRelations, ∃ dir, Covers tr old.id id dir) ∧
        ∀ tr ∈ tg.tracedRelations, ∀ up dir, Covers tr up id dir → up = old.id)
  /-- References to the requirement are references to an unknown one. -/
  covers : ∀ id up, CoversUnknown tg' id up ↔ id ≠ old.id ∧
    (CoversUnknown tg id up ∨ up = old.id ∧ ∃ a r, Owns g a r ∧ r.id = id ∧ ∃ ref ∈ r.covers, ref.id = old.id)
  depends : ∀ id low, DependsOnUnknown tg' id low ↔ id ≠ old.id ∧
    (DependsOnUnknown tg id low ∨ low = old.id ∧ ∃ a r, Owns g a r ∧ r.id = id ∧ ∃ ref ∈ r.depends, ref.id = old.id)

/-- Nothing depends on the requirement: no reference leads to it, and what it covers or is covered by it has another
coverage. -/
structure Dispensable (g : Graph) (old : Requirement) : Prop where
  references : ∀ a r, Defines g a r → r ≠ old → ∀ ref ∈ r.covers ++ r.depends, ref.id ≠ old.id
  relations : ∀ rel ∈ g.relations, ∃ a u l ref d, Establishes g rel a u l ref d ∧ u ≠ old ∧ l ≠ old
  uppers : ∀ rel ∈ g.relations, ∀ u, Defines g rel.upper u → u ≠ old → ∃ a l ref d, Establishes g rel a u l ref d ∧ l ≠ old
  lowers : ∀ a art, g.artefacts.get a = some art → art.ignoreDerivedRequirements = false → ∀ l, Owns g a l → l ≠ old →
    ∃ rel ∈ g.relations, ∃ u ref d, Establishes g rel a u l ref d ∧ u ≠ old

end Reqtrace.Spec
