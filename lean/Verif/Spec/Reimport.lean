import Verif.Spec.Output
import Verif.Spec.MdWriter

/-!
# Reading the Markdown list of requirements as a Markdown artefact
-/

namespace Reqtrace.Spec

/-- No line of the text is a heading or starts an attribute. -/
def PlainText (s : Str) : Prop := ∀ ls, Lines s ls → ∀ l ∈ ls, l.head? ≠ some '#' ∧ ∀ a v, ¬ AttrLine l a v

/-- A reference that can stand in a list. -/
def PlainReference (U : Unicode) (r : Reference) : Prop := IsIdent U r.id ∧ ∀ t, r.title = some t → OneLine t

/-- The requirement can be written as Markdown: its id and its references have the documented form, its texts stand in
lines of their own that look like nothing else. -/
structure Writable (U : Unicode) (r : Requirement) : Prop where
  id : IsIdent U r.id
  title : ∀ t, r.title = some t → OneLine t
  location : '\n' ∉ placeLink r.location
  covers : ∀ ref ∈ r.covers, PlainReference U ref
  depends : ∀ ref ∈ r.depends, PlainReference U ref
  description : ∀ d, r.attributes.get c!"Description" = some d → PlainText (d ++ c!"\n")
  attributes : ∀ a v, r.attributes.get a = some v → a ≠ c!"Description" → ¬ Blank v →
    IsWord a ∧ a ≠ c!"Covers" ∧ a ≠ c!"Depends" ∧ a ≠ c!"Origin" ∧ ∀ w, TrimsTo v w → PlainText (w ++ c!"\n")

/-- `new` is what is read where `old` was written, apart from the description. -/
structure ReadAgain (old new : Requirement) : Prop where
  id : new.id = old.id
  title : new.title = some (old.title.getD [])
  covers : new.covers.map (fun r => (r.id, r.title)) = old.covers.map (fun r => (r.id, r.title))
  depends : new.depends.map (fun r => (r.id, r.title)) = old.depends.map (fun r => (r.id, r.title))
  attributes : ∀ a v, a ≠ c!"Description" → old.attributes.get a = some v → ¬ Blank v →
    ∃ v' w, new.attributes.get a = some v' ∧ TrimsTo v w ∧ TrimsTo v' w
  others : ∀ a v', new.attributes.get a = some v' → a = c!"Origin" ∨
    a ≠ c!"Description" ∧ ∃ v, old.attributes.get a = some v ∧ ¬ Blank v
  origin : ∃ e, Blank e ∧ new.attributes.get c!"Origin" = some (placeLink old.location ++ descriptionText old ++ e)

/-- One for the other, in order. -/
inductive Pairs {α β : Type} (P : α → β → Prop) : List α → List β → Prop
  | nil : Pairs P [] []
  | cons {a b as bs} : P a b → Pairs P as bs → Pairs P (a :: as) (b :: bs)

end Reqtrace.Spec
