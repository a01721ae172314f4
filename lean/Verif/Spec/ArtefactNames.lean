import Verif.Spec.Meta
import Verif.Spec.Report
import Verif.Spec.Whole

/-!
# The same project with other ids for its artefacts
-/

namespace Reqtrace.Spec

/-- The same relation between artefacts with other names. -/
def renamedRelation (f : ArtefactId → ArtefactId) (rel : Relation) : Relation := ⟨f rel.upper, rel.lower.map f⟩

/-- All that tracing asks of an artefact is the same, the name aside. -/
structure SameContent (a a' : Artefact) : Prop where
  requirements : a'.requirements = a.requirements
  ignore : a'.ignoreDerivedRequirements = a.ignoreDerivedRequirements
  titles : a'.referenceWithTitle = a.referenceWithTitle

/-- `g'` is `g` with other names for its artefacts, no two the same. -/
structure RenamesArtefacts (f : ArtefactId → ArtefactId) (g g' : Graph) : Prop where
  injective : ∀ a b, f a = f b → a = b
  relations : g'.relations = g.relations.map (renamedRelation f)
  there : ∀ a art, g.artefacts.get a = some art → ∃ art', g'.artefacts.get (f a) = some art' ∧ SameContent art art'
  back : ∀ b art', g'.artefacts.get b = some art' → ∃ a art, b = f a ∧ g.artefacts.get a = some art

/-- An error of tracing with other names for the artefacts. -/
def artefactError (f : ArtefactId → ArtefactId) : Error → Error
  | .unusedRelation rel => .unusedRelation (renamedRelation f rel)
  | e => e

/-- The entry for an artefact with another id. -/
def renamedEntry (f : ArtefactId → ArtefactId) (ac : ArtefactConfig) : ArtefactConfig := { ac with id := f ac.id }

/-- The configuration with other names for the artefacts. -/
def renamedConfig (f : ArtefactId → ArtefactId) (config : Config) : Config :=
  { config with artefacts := config.artefacts.map (renamedEntry f), relations := config.relations.map (renamedRelation f) }

/-- The complaints that name the artefact: that it has no path, or not one. -/
inductive NamesArtefact (a b : ArtefactId) : Error → Error → Prop
  | none : NamesArtefact a b (.config (c!"No Paths for artefact " ++ a)) (.config (c!"No Paths for artefact " ++ b))
  | notOne (rest) : NamesArtefact a b (.config (c!"Expected only 1 file for artefact " ++ a ++ c!" with parser " ++ rest))
      (.config (c!"Expected only 1 file for artefact " ++ b ++ c!" with parser " ++ rest))

/-- The same artefact with another name: the same files, requirements and errors, unless its only error is that its paths
are none or too many; this error has its name. -/
structure ArtefactCalled (f : ArtefactId → ArtefactId) (a a' : Artefact) : Prop where
  id : a'.id = f a.id
  files : a'.files = a.files
  content : SameContent a a'
  errors : a'.errors = a.errors ∨
    ∃ e e', NamesArtefact a.id (f a.id) e e' ∧ a.errors = [e] ∧ a'.errors = [e'] ∧ a.requirements = .empty

/-- The same artefacts with other names. -/
structure ArtefactsCalled (f : ArtefactId → ArtefactId) (m m' : BMap ArtefactId Artefact) : Prop where
  there : ∀ a art, m.get a = some art → ∃ art', m'.get (f a) = some art' ∧ ArtefactCalled f art art'
  back : ∀ b art', m'.get b = some art' → ∃ a art, b = f a ∧ m.get a = some art

/-- The same results with other names for the artefacts, in the same order. -/
structure ResultCalled (f : ArtefactId → ArtefactId) (tg tg' : TracedGraph) : Prop where
  relations : tg'.tracedRelations = tg.tracedRelations.map fun tr => { tr with relation := renamedRelation f tr.relation }
  derived : ∀ a, tg'.derived.get (f a) = tg.derived.get a
  errors : tg'.errors = tg.errors.map (artefactError f)

end Reqtrace.Spec
