import Verif.Spec.Edited
import Verif.Spec.Input

/-!
# References that are added to a text
-/

namespace Reqtrace.Spec

/-- Each reference of the first list is in the second one, with the same title, at whatever place. -/
def RefsIn (refs refs' : List Reference) : Prop := ∀ ref ∈ refs, ∃ ref' ∈ refs', ref'.id = ref.id ∧ ref'.title = ref.title

/-- The reference has the title of what it names or, where this is allowed, none. -/
def RightTitle (g : Graph) (ref : Reference) (b : ArtefactId) (r : Requirement) : Prop :=
  ref.title = r.title ∧ ref.title ≠ none ∨
  ref.title = none ∧ ∀ art, g.artefacts.get b = some art → art.referenceWithTitle = false

/-- All that the requirement refers to, as part of the artefact `x`, is there, along relations there are, and is named
rightly. -/
structure RightRefs (g : Graph) (x : ArtefactId) (n : Requirement) : Prop where
  covers : ∀ ref ∈ n.covers, ∃ rel ∈ g.relations, x ∈ rel.lower ∧ ∃ u, Defines g rel.upper u ∧ ref.id = u.id
  coverTitles : ∀ ref ∈ n.covers, ∀ rel ∈ g.relations, x ∈ rel.lower → ∀ u, Defines g rel.upper u → ref.id = u.id →
    RightTitle g ref rel.upper u
  depends : ∀ ref ∈ n.depends, ∃ rel ∈ g.relations, rel.upper = x ∧ ∃ a ∈ rel.lower, ∃ l, Defines g a l ∧ ref.id = l.id
  dependTitles : ∀ ref ∈ n.depends, ∀ rel ∈ g.relations, rel.upper = x → ∀ a ∈ rel.lower, ∀ l, Defines g a l →
    ref.id = l.id → RightTitle g ref a l

/-- The requirement, as part of the artefact `x`, covers `u` along `rel`, or is `u` and depends on something below. -/
def Fills (g : Graph) (x : ArtefactId) (n : Requirement) (rel : Relation) (u : Requirement) : Prop :=
  (x ∈ rel.lower ∧ ∃ ref ∈ n.covers, ref.id = u.id) ∨
  (rel.upper = x ∧ n.id = u.id ∧ ∃ ref ∈ n.depends, ∃ a ∈ rel.lower, ∃ l, Defines g a l ∧ ref.id = l.id)

/-- The files of the artefact `x` can be read and are understood, with different ids and titles where they are asked for. -/
def ReadsClean (env : Env) (w : World) (base : Path) (config : Config) (x : ArtefactId) : Prop :=
  ∃ ac reqs, LastEntry config ac ∧ ac.id = x ∧ CleanArtefact env w ac base reqs

end Reqtrace.Spec
