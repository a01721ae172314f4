import Verif.Spec.TwoLayers
import Verif.Spec.Glob

/-!
# Specification: requirements in a Markdown document, marks in the Rust files of a directory tree
-/

namespace Reqtrace.Spec

open RustLayout GlobText

/-- The file is there and meant by a pattern of the artefact. -/
def IsMeant (there : Path → Prop) (base : Path) (code : ArtefactConfig) (f : Path) : Prop :=
  there f ∧ ∃ p ∈ code.paths, Means base p f

/-- A project with a Markdown document of requirements, which refer to nothing, and a tree of Rust files: the
configuration has an artefact for the document, one for all the files that some patterns mean, and the relation that the
code covers the document.  For every file that is meant, these are its marks, in these items. -/
structure CodeTree (env : Env) (w : World) (opt : Arguments) (there : Path → Prop) (config : Config)
    (upper code : ArtefactConfig) (reqs : List Requirement) (marks : Path → List Entry)
    (items : Path → List Requirement) : Prop where
  text : ∃ t, env.os.openFile w opt.configFile = .ok ⟨Utf8.encode t, none⟩ ∧ TomlText.IsConfigText t config
  version : ∀ v, config.version = some v → v = 0
  artefacts : config.artefacts = [upper, code] ∨ config.artefacts = [code, upper]
  relations : config.relations = [⟨upper.id, [code.id]⟩]
  different : upper.id ≠ code.id
  markdown : upper.parser = .markdown
  rust : code.parser = .rust
  top : upper.ignoreDerivedRequirements ≠ some false
  document : ∃ p, upper.paths = [p] ∧ Holds env w .markdown (target opt.baseDir p) reqs
  ids : (reqs.map (·.id)).Nodup
  plain : ∀ r ∈ reqs, r.covers = [] ∧ r.depends = []
  titles : upper.referenceWithTitle = some true → ∀ r ∈ reqs, r.title ≠ none
  untitled : code.referenceWithTitle ≠ some true
  directory : PlainDirectory opt.baseDir
  patterns : code.paths ≠ [] ∧ ∀ p ∈ code.paths, Proper p
  /-- The library lists a file once for a pattern, and no file is meant by two patterns. -/
  once : ∀ p ∈ code.paths, ∀ fs : List Path, env.os.glob w (patternOf opt.baseDir p) = .ok (fs.map .ok) → fs.Nodup
  disjoint : code.paths.Pairwise fun p q => ∀ f, there f → Means opt.baseDir p f → ¬ Means opt.baseDir q f
  files : ∀ f, IsMeant there opt.baseDir code f → ∃ text forest,
    env.os.openFile w f = .ok ⟨Utf8.encode text, none⟩ ∧ IsCode text forest ∧
    AllMarks env.syn.debug f (occs f [] none forest) (marks f) [] ∧ Grouped (items f) (marks f)
  itemIds : ∀ f, IsMeant there opt.baseDir code f → ((items f).map (·.id)).Nodup
  filesApart : ∀ f g, IsMeant there opt.baseDir code f → IsMeant there opt.baseDir code g → f ≠ g →
    ∀ i ∈ items f, ∀ j ∈ items g, i.id ≠ j.id
  apart : ∀ f, IsMeant there opt.baseDir code f → ∀ r ∈ reqs, ∀ i ∈ items f, r.id ≠ i.id

end Reqtrace.Spec
