import Verif.Spec.Controller
import Verif.Spec.Files
import Verif.Spec.Project

/-!
# What an artefact is made of
-/

namespace Reqtrace.Spec

/-- The pattern that is searched for a configured path. -/
def patternOf (base p : Str) : Str := if p.head? = some '/' then p else base ++ ['/'] ++ p

/-- All files that match the patterns, pattern by pattern. -/
inductive Matched (env : Env) (w : World) (base : Path) : List Str → List Path → Prop
  | nil : Matched env w base [] []
  | cons {p ps fs gs} : env.os.glob w (patternOf base p) = .ok (fs.map .ok) → Matched env w base ps gs →
      Matched env w base (p :: ps) (fs ++ gs)

/-- The files of an artefact: for the Rust parser those that match its patterns, of which there is at least one;
otherwise the one that its single path denotes. -/
def FilesOf (env : Env) (w : World) (ac : ArtefactConfig) (base : Path) (fs : List Path) : Prop :=
  (ac.parser = .rust ∧ ac.paths ≠ [] ∧ Matched env w base ac.paths fs) ∨
  (ac.parser ≠ .rust ∧ ∃ p, ac.paths = [p] ∧ fs = [target base p])

/-- The file can be opened and read to its end, is text in UTF-8, and says these requirements and nothing wrong. -/
def Holds (env : Env) (w : World) (parser : ArtefactParser) (p : Path) (reqs : List Requirement) : Prop :=
  ∃ text, env.os.openFile w p = .ok ⟨Utf8.encode text, none⟩ ∧
    FileMeans env p ⟨Utf8.encode text, none⟩ parser reqs []

/-- The files, one after the other, hold these requirements. -/
inductive HoldAll (env : Env) (w : World) (parser : ArtefactParser) : List Path → List Requirement → Prop
  | nil : HoldAll env w parser [] []
  | cons {p ps r rs} : Holds env w parser p r → HoldAll env w parser ps rs → HoldAll env w parser (p :: ps) (r ++ rs)

/-- The files of the artefact are known, hold these requirements and nothing else, all with different ids, and with a
title if the configuration asks for titles. -/
structure CleanArtefact (env : Env) (w : World) (ac : ArtefactConfig) (base : Path) (reqs : List Requirement) : Prop where
  files : ∃ fs, FilesOf env w ac base fs ∧ HoldAll env w ac.parser fs reqs
  ids : (reqs.map (·.id)).Nodup
  titles : ac.referenceWithTitle = some true → ∀ r ∈ reqs, r.title ≠ none

/-- Two states of the file system in which the program finds the same files for every pattern. -/
def SameMatches (env : Env) (w w' : World) : Prop := ∀ p, env.os.glob w p = env.os.glob w' p

/-- Opening and reading the file gives the same in both states. -/
def SameFile (env : Env) (w w' : World) (p : Path) : Prop := env.os.openFile w p = env.os.openFile w' p

/-- The graph has exactly the requirements in the files of the configured artefacts, and nothing was wrong with them. -/
def CleanInput (env : Env) (w : World) (config : Config) (base : Path) (g : Graph) : Prop :=
  g.relations = config.relations ∧
  (∀ a, (∃ art, g.artefacts.get a = some art) ↔ Configured config a) ∧
  ∀ ac, LastEntry config ac → ∃ reqs, CleanArtefact env w ac base reqs ∧
    ∀ r, Defines g ac.id r ↔ r ∈ reqs

/-- Nothing is wrong with the input, its references, coverage and derivation. -/
def CleanProject (env : Env) (w : World) (config : Config) (base : Path) (g : Graph) : Prop :=
  CleanInput env w config base g ∧ Sound g ∧ FullyCovered g ∧ NothingDerived g

end Reqtrace.Spec
