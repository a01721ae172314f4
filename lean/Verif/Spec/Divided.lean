import Verif.Spec.Controller
import Verif.Spec.Output
import Verif.Spec.Reimport
import Verif.Spec.Report
import Verif.Spec.Input

/-!
# How requirements are divided among artefacts
-/

namespace Reqtrace.Spec

/-- `rel'` is `rel` with the lower artefacts divided; the upper one is not. -/
structure RelationDivided (f : ArtefactId → ArtefactId) (g g' : Graph) (rel rel' : Relation) : Prop where
  upper : f rel'.upper = rel.upper
  whole : ∀ b r, Defines g' b r → f b = rel.upper → b = rel'.upper
  lower : ∀ b art, g'.artefacts.get b = some art → (b ∈ rel'.lower ↔ f b ∈ rel.lower)

/-- In `g'` the requirements of artefacts of `g` are divided among several artefacts with the same settings; `f` tells of
which artefact each is a piece. -/
structure Divides (f : ArtefactId → ArtefactId) (g g' : Graph) : Prop where
  defines : ∀ a r, Defines g a r ↔ ∃ b, f b = a ∧ Defines g' b r
  settings : ∀ b art', g'.artefacts.get b = some art' → ∃ art, g.artefacts.get (f b) = some art ∧
    art'.ignoreDerivedRequirements = art.ignoreDerivedRequirements ∧ art'.referenceWithTitle = art.referenceWithTitle
  relations : Pairs (RelationDivided f g g') g.relations g'.relations

/-- The same coverages and the same uncovered requirements. -/
def SameRelation (tr tr' : TracedRelation) : Prop :=
  (∀ c, c ∈ tr'.covered ↔ c ∈ tr.covered) ∧ tr'.uncovered = tr.uncovered

/-- The same results, but for the artefacts in which derived requirements and unused relations are. -/
structure SameDivided (f : ArtefactId → ArtefactId) (tg tg' : TracedGraph) : Prop where
  relations : Pairs SameRelation tg.tracedRelations tg'.tracedRelations
  derived : ∀ a id, (∃ d, tg.derived.get a = some d ∧ id ∈ d) ↔ ∃ b d, f b = a ∧ tg'.derived.get b = some d ∧ id ∈ d
  errors : ∀ e, (∀ rel, e ≠ .unusedRelation rel) → (e ∈ tg'.errors ↔ e ∈ tg.errors)

/-- The relation with `a` divided into `n1` and `n2`. -/
def divideRelation (a n1 n2 : ArtefactId) (rel : Relation) : Relation :=
  { rel with lower := rel.lower.flatMap fun b => if b = a then [n1, n2] else [b] }

/-- The configuration with the paths of `a` divided among `n1` and `n2`. -/
def divideConfig (a n1 n2 : ArtefactId) (ps qs : List Str) (config : Config) : Config := { config with
  artefacts := config.artefacts.flatMap fun ac =>
    if ac.id = a then [{ ac with id := n1, paths := ps }, { ac with id := n2, paths := qs }] else [ac]
  relations := config.relations.map (divideRelation a n1 n2) }

/-- The paths of the artefact `ac` can be divided: it reads Rust files, all of its patterns can be searched, it is configured
once and covered by nothing, and `n1` and `n2` are no names of other artefacts. -/
structure MayDivide (env : Env) (w : World) (base : Path) (config : Config) (ac : ArtefactConfig) (n1 n2 : ArtefactId)
    (ps qs : List Str) : Prop where
  entry : ac ∈ config.artefacts
  once : ∀ b ∈ config.artefacts, b.id = ac.id → b = ac
  parser : ac.parser = .rust
  paths : ac.paths = ps ++ qs
  some : ps ≠ [] ∧ qs ≠ []
  searched : ∃ fs, Matched env w base ac.paths fs
  different : n1 ≠ n2
  names : ∀ b ∈ config.artefacts, b.id ≠ ac.id → b.id ≠ n1 ∧ b.id ≠ n2
  leaf : ∀ rel ∈ config.relations, rel.upper ≠ ac.id

/-- From which artefact it was divided. -/
def undivide (a n1 n2 b : ArtefactId) : ArtefactId := if b = n1 ∨ b = n2 then a else b

end Reqtrace.Spec
