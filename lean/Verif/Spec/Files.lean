import Verif.Controller
import Verif.Spec.Document
import Verif.Spec.Json
import Verif.Spec.MonoReq
import Verif.Spec.Rust

/-!
# What a file says, by its bytes
-/

namespace Reqtrace.Spec

/-- The text of a file that is read line by line, and the error that ends the reading: all of it if it is text in UTF-8;
otherwise the lines before the first one that cannot be read or is not UTF-8. -/
inductive ReadLines : File → Str → Option Str → Prop
  | all (t) : ReadLines ⟨Utf8.encode t, none⟩ t none
  | failed {t b e} : WholeLines t → 10 ∉ b → ReadLines ⟨Utf8.encode t ++ b, some e⟩ t (some e)
  | invalid {t b rest e} : WholeLines t → 10 ∉ b.dropLast → (b.getLast? = some 10 ∨ rest = [] ∧ e = none) →
      (∀ s, b ≠ Utf8.encode s) →
      ReadLines ⟨Utf8.encode t ++ b ++ rest, e⟩ t (some c!"stream did not contain valid UTF-8")

/-- The text of a file that is read as a whole, or the error. -/
inductive ReadWhole : File → Source → Prop
  | all (t) : ReadWhole ⟨Utf8.encode t, none⟩ ⟨t, none⟩
  | failed (b e) : ReadWhole ⟨b, some e⟩ ⟨[], some e⟩
  | invalid {b} : (∀ t, b ≠ Utf8.encode t) → ReadWhole ⟨b, none⟩ ⟨[], some c!"stream did not contain valid UTF-8"⟩

/-- The file is JSON text for these requirements. -/
def JsonFile (file : File) (reqs : List Requirement) : Prop :=
  ∃ text v, file = ⟨Utf8.encode text, none⟩ ∧ JsonText.Document text v ∧ JsonText.IsArray JsonText.IsRequirement v reqs

/-- The requirements and errors of an opened file. -/
inductive FileMeans (env : Env) (path : Path) (file : File) : ArtefactParser → List Requirement → List Error → Prop
  | markdown {text failure ls ss reqs} : ReadLines file text failure → ¬ OneByteTail text → Lines text ls →
      Document env.U path ls ss → AreRequirements path (kept failure ss) reqs →
      FileMeans env path file .markdown reqs (documentErrors path failure ss)
  | mono {text ls refs name stem} : file = ⟨Utf8.encode text, none⟩ → TextLines text ls →
      Arrows env.U path 2 ls.tail refs → FileName path name → Stem name stem →
      FileMeans env path file .monoRequirement [⟨stem, ls.head?, ⟨path, none⟩, [], refs, [], .empty⟩] []
  | monoNoName {text ls refs} : file = ⟨Utf8.encode text, none⟩ → TextLines text ls →
      Arrows env.U path 2 ls.tail refs → (∀ name, ¬ FileName path name) →
      FileMeans env path file .monoRequirement [⟨c!"README", ls.head?, ⟨path, none⟩, [], refs, [], .empty⟩]
        [.config (c!"file for 'MonoReq' parser `" ++ path ++ c!" has no stem")]
  | rust {src reqs errs} : ReadWhole file src → RustFile env.syn path src reqs errs →
      FileMeans env path file .rust reqs errs
  | json {reqs} : JsonFile file reqs → FileMeans env path file .json reqs []
  | jsonWrong : (∀ reqs, ¬ JsonFile file reqs) →
      FileMeans env path file .json [] [.format ⟨path, none⟩ (env.jsonErr file)]

end Reqtrace.Spec
