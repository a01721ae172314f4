import Verif.Spec.Whole
import Verif.Spec.Trace

/-!
# What the documents in `doc/requirements` and the README say about formats

The texts are those of `FORMATS.md`, `REQUIREMENTS.md` and `README.md`.
-/

namespace Reqtrace.Spec

/-- All ids have the documented form (`FMT_ID_v2`). -/
def GoodIds (U : Unicode) (r : Requirement) : Prop :=
  IsIdent U r.id ∧ ∀ ref ∈ r.covers ++ r.depends, IsIdent U ref.id

/-- If the line is the start of a list of references, then the ids in it have the documented form. -/
def ShortIds (U : Unicode) (line : Str) : Prop :=
  ∀ name v t ps ids, AttrLine line name v → (name = c!"Covers" ∨ name = c!"Depends") → TrimsTo v t → Parts t ps →
    PartIds ps ids → ∀ id ∈ ids, IsIdent U id

/-- The example of `FORMATS.md`. -/
def docExample : List Str := [
  c!"# Headline\n",
  c!"## REQ_ID: Requirement Title\n",
  c!"Description paragraph\n",
  c!"### Heading in the description\n",
  c!"another Description Paragraph\n",
  c!"\n",
  c!"Covers: REQ_COV\n",
  c!"\n",
  c!"## Headline outside the description\n"]

/-- What it "would lead to": one requirement that covers `REQ_COV` by id, with this description. -/
def DocExampleResult (r : Requirement) : Prop :=
  r.id = c!"REQ_ID" ∧ r.title = some c!"Requirement Title" ∧
  r.covers.map (fun ref => (ref.id, ref.title)) = [(c!"REQ_COV", none)] ∧
  r.attributes.get c!"Description" =
    some c!"Description paragraph\n# Heading in the description\nanother Description Paragraph\n"

/-- The value of a JSON text is an object with these values of `version` and `requirements`. -/
def DocJson (text : Str) (version : Nat) (reqs : List Requirement) : Prop :=
  ∃ v a ms, JsonText.Document text v ∧ v = .obj ms ∧ (c!"version", .num version) ∈ ms ∧
    (c!"requirements", a) ∈ ms ∧ JsonText.IsArray JsonText.IsRequirement a reqs

/-- The program reads the file for one of the artefacts. -/
def Consumed (env : Env) (w : World) (config : Config) (base : Path) (p : Path) : Prop :=
  ∃ ac ∈ config.artefacts, ∃ fs, FilesOf env w ac base fs ∧ p ∈ fs

/-- The error says in which file it is. -/
def InFile (p : Path) : Error → Prop
  | .format loc _ | .duplicateAttribute loc _ _ => loc.file = p
  | .io q _ => q = p
  | _ => False

/-- The error says in which line of the file it is. -/
def InLine (p : Path) : Error → Prop
  | .format loc _ | .duplicateAttribute loc _ _ =>
    loc.file = p ∧ ∃ n, loc.locationInFile = some (.line n) ∨ ∃ k, loc.locationInFile = some (.lineAndColumn n k)
  | _ => False

end Reqtrace.Spec
