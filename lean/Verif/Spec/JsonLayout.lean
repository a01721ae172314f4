import Verif.Spec.Json
import Verif.Spec.RustText

/-!
# Specification: the same JSON value in another order
-/

namespace Reqtrace.Spec.JsonText

mutual
/-- The same value, with the members of objects in any order.  Objects in which a name is there twice are not
reordered. -/
inductive Same : Json → Json → Prop
  | refl (v) : Same v v
  | array {vs vs'} : SameItems vs vs' → Same (.arr vs) (.arr vs')
  | object {ms ns ms'} : (ms.map Prod.fst).Nodup → ms.Perm ns → SameMembers ns ms' → Same (.obj ms) (.obj ms')
/-- One by one the same. -/
inductive SameItems : List Json → List Json → Prop
  | nil : SameItems [] []
  | cons {v v' vs vs'} : Same v v' → SameItems vs vs' → SameItems (v :: vs) (v' :: vs')
/-- One by one the same. -/
inductive SameMembers : List (Str × Json) → List (Str × Json) → Prop
  | nil : SameMembers [] []
  | cons {k v v' ms ms'} : Same v v' → SameMembers ms ms' → SameMembers ((k, v) :: ms) ((k, v') :: ms')
end

/-- Two texts of the same value, in any layout and with the members in any order. -/
def Rewritten (t t' : Str) : Prop := ∃ v v', Document t v ∧ Document t' v' ∧ Same v v'

/-- Two files with the same content, or with the same requirements in JSON, in any layout and with the members in any
order. -/
inductive FileRewritten (env : Env) (w w' : World) : ArtefactParser → Path → Path → Prop
  | same {parser p q reqs errs} : env.os.openFile w p = env.os.openFile w' q → SameName parser p q →
      PathMeans env w parser p reqs errs → FileRewritten env w w' parser p q
  | json {p q t t' reqs} : env.os.openFile w p = .ok ⟨Utf8.encode t, none⟩ → env.os.openFile w' q = .ok ⟨Utf8.encode t', none⟩ →
      JsonFile ⟨Utf8.encode t, none⟩ reqs → Rewritten t t' → FileRewritten env w w' .json p q

/-- The names of the members of requirements, references and locations. -/
def requirementNames : List Str :=
  [c!"id", c!"title", c!"location", c!"covers", c!"depends", c!"tags", c!"attributes"]
def referenceNames : List Str := [c!"id", c!"title", c!"location"]
def locationNames : List Str := [c!"file", c!"location_in_file"]

end Reqtrace.Spec.JsonText
