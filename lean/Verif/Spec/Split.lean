import Verif.Spec.Trace
import Verif.Spec.Controller

/-!
# One relation or two
-/

namespace Reqtrace.Spec

/-- The lower artefacts of the relation are those of `ls` and of `ms`. -/
def LowerUnion (rel : Relation) (ls ms : List ArtefactId) : Prop := ∀ b, b ∈ rel.lower ↔ b ∈ ls ∨ b ∈ ms

/-- The relations with `rel` split into two. -/
def splitRelations (pre : List Relation) (rel : Relation) (ls ms : List ArtefactId) (post : List Relation) : List Relation :=
  pre ++ { rel with lower := ls } :: { rel with lower := ms } :: post

/-- What tracing with one relation says, compared with two. -/
structure SplitResult (n : Nat) (rel : Relation) (tg tg' : TracedGraph) : Prop where
  before : tg'.tracedRelations.take n = tg.tracedRelations.take n
  after : tg'.tracedRelations.drop (n + 2) = tg.tracedRelations.drop (n + 1)
  relation : ∃ tr tr1 tr2, tg.tracedRelations[n]? = some tr ∧ tg'.tracedRelations[n]? = some tr1 ∧
    tg'.tracedRelations[n + 1]? = some tr2 ∧ tr.relation = rel ∧ (∀ c, c ∈ tr.covered ↔ c ∈ tr1.covered ∨ c ∈ tr2.covered) ∧
    tr.uncovered = tr1.uncovered.filter (fun id => id ∈ tr2.uncovered)
  derived : tg'.derived = tg.derived
  errors : ∀ e, (∀ r, e ≠ .unusedRelation r) → (e ∈ tg'.errors ↔ e ∈ tg.errors)

end Reqtrace.Spec
