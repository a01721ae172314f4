import Verif.Spec.Input
import Verif.Spec.Toml
import Verif.Spec.RustText

/-!
# Specification: requirements in a Markdown document, marks in Rust code
-/

namespace Reqtrace.Spec

open RustLayout

/-- The files are code, all their coverage marks are well formed, and these are the marks, with what they name, and the
items in which they stand. -/
inductive MarkedFiles (env : Env) (w : World) : List Path → List Entry → List Requirement → Prop
  | nil : MarkedFiles env w [] [] []
  | cons {p ps text f es es' items items'} : env.os.openFile w p = .ok ⟨Utf8.encode text, none⟩ → IsCode text f →
      AllMarks env.syn.debug p (occs p [] none f) es [] → Grouped items es → MarkedFiles env w ps es' items' →
      MarkedFiles env w (p :: ps) (es ++ es') (items ++ items')

/-- A project as in the introduction of the README: the configuration has an artefact for a Markdown document and one for
Rust code, and the relation that the code covers the document.  The document has these requirements, which refer to
nothing; the code has these marks in these items. -/
structure TwoLayers (env : Env) (w : World) (opt : Arguments) (config : Config) (upper code : ArtefactConfig)
    (reqs : List Requirement) (marks : List Entry) (items : List Requirement) : Prop where
  text : ∃ t, env.os.openFile w opt.configFile = .ok ⟨Utf8.encode t, none⟩ ∧ TomlText.IsConfigText t config
  version : ∀ v, config.version = some v → v = 0
  artefacts : config.artefacts = [upper, code] ∨ config.artefacts = [code, upper]
  relations : config.relations = [⟨upper.id, [code.id]⟩]
  different : upper.id ≠ code.id
  markdown : upper.parser = .markdown
  rust : code.parser = .rust
  top : upper.ignoreDerivedRequirements ≠ some false
  document : ∃ p, upper.paths = [p] ∧ Holds env w .markdown (target opt.baseDir p) reqs
  ids : (reqs.map (·.id)).Nodup
  plain : ∀ r ∈ reqs, r.covers = [] ∧ r.depends = []
  titles : upper.referenceWithTitle = some true → ∀ r ∈ reqs, r.title ≠ none
  files : ∃ fs, FilesOf env w code opt.baseDir fs ∧ MarkedFiles env w fs marks items
  itemIds : (items.map (·.id)).Nodup
  untitled : code.referenceWithTitle ≠ some true
  apart : ∀ r ∈ reqs, ∀ i ∈ items, r.id ≠ i.id

/-- The mark names the requirement by its id, and with its title or, where this is allowed, without. -/
def Names (upper : ArtefactConfig) (e : Entry) (r : Requirement) : Prop :=
  e.ref.id = r.id ∧ (e.ref.title = r.title ∧ e.ref.title ≠ none ∨ e.ref.title = none ∧ upper.referenceWithTitle ≠ some true)

end Reqtrace.Spec
