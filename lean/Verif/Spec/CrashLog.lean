import Verif.Spec.Crash
import Verif.Spec.Log
import Verif.Spec.Whole

/-!
# What is found before the program crashes
-/

namespace Reqtrace.Spec

open Rs

/-- A coverage mark outside of all items -/
def Stray (o : Occ) : Prop := IsMark o.mac ∧ (∃ id title, Reads o.mac id title) ∧ o.loc = none

/-- The problems that are found in a file before its parser panics. -/
inductive FoundUntil (env : Env) (path : Path) (file : File) : ArtefactParser → List Error → Prop
  /-- those in the lines before the last one, which is a single character -/
  | markdown {text c failure reqs errs} : ReadLines file (text ++ [c]) failure → WholeLines text → c ≠ '\n' → c.toNat < 128 →
      FileMeans env path ⟨Utf8.encode text, none⟩ .markdown reqs errs → FoundUntil env path file .markdown errs
  /-- none, if the file cannot be read as text -/
  | mono : (∀ text, file ≠ ⟨Utf8.encode text, none⟩) → FoundUntil env path file .monoRequirement []
  /-- those of the marks before the first one outside of all items -/
  | rust {text tree before o after es errs} : file = ⟨Utf8.encode text, none⟩ → env.syn.parseFile text = .ok tree →
      occs path [] none tree = before ++ o :: after → (∀ b ∈ before, ¬ Stray b) → Stray o →
      AllMarks env.syn.debug path before es errs → FoundUntil env path file .rust errs

/-- The problems that are found in the files of an artefact before a parser panics: all those of the files before, and
those of the file up to the panic. -/
inductive ReadUntil (env : Env) (w : World) (base : Path) (ac : ArtefactConfig) : List Error → Prop
  | mk {fs p more reqs errs file found} : FilesOf env w ac base (fs ++ p :: more) → PathsMean env w ac.parser fs reqs errs →
      env.os.openFile w p = .ok file → FoundUntil env p file ac.parser found → ReadUntil env w base ac (errs ++ found)

end Reqtrace.Spec
