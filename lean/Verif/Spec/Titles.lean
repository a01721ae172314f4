import Verif.Spec.Places
import Verif.Spec.Trace
import Verif.Spec.Grown

/-!
# Other titles
-/

namespace Reqtrace.Spec

/-- `h` changes nothing about a requirement but its title. -/
def Retitles (h : Requirement → Requirement) : Prop := ∀ r, ∃ t, h r = { r with title := t }

/-- The requirement `r` with the title `t`, all others unchanged. -/
def retitle (r : Requirement) (t : Option Str) (s : Requirement) : Requirement := if s = r then { s with title := t } else s

/-- The error says that a reference has a wrong title. -/
def IsWrongTitle : Error → Prop
  | .coveredWithWrongTitle .. => True
  | .dependWithWrongTitle .. => True
  | _ => False

/-- The error is about a reference that leads along a relation to a requirement which has, with the changed titles, another
title than the reference says. -/
inductive WrongNow (g : Graph) (h : Requirement → Requirement) : Error → Prop
  | covers {rel b u l ref t} : rel ∈ g.relations → Establishes g rel b u l ref .upwards → ref.title = some t →
      (h u).title ≠ some t → WrongNow g h (.coveredWithWrongTitle (h u) (h l) t ref.location)
  | depends {rel b u l ref t} : rel ∈ g.relations → Establishes g rel b u l ref .downwards → ref.title = some t →
      (h l).title ≠ some t → WrongNow g h (.dependWithWrongTitle (h u) (h l) t ref.location)

/-- A reference to the requirement `r` along a relation has another title than `t`. -/
def SaysOtherTitle (g : Graph) (r : Requirement) (t : Option Str) : Prop :=
  ∃ rel ∈ g.relations, ∃ b u l ref dir t', Establishes g rel b u l ref dir ∧
    (if dir = .upwards then u else l) = r ∧ ref.title = some t' ∧ t ≠ some t'

/-- In the file `p` the title of the requirement `r`, and nothing else, becomes `t`. -/
inductive FileRetitles (env : Env) (w w' : World) (p : Path) : ArtefactParser → Requirement → Str → Prop
  /-- In the heading of a section in a Markdown file. -/
  | heading {text text' pre h h' post level level' old r t reqs errs} : env.os.openFile w p = .ok ⟨Utf8.encode text, none⟩ →
      env.os.openFile w' p = .ok ⟨Utf8.encode text', none⟩ → Lines text (pre ++ h :: post) → Lines text' (pre ++ h' :: post) →
      ReqHeading env.U h level r.id old → ReqHeading env.U h' level' r.id t →
      PathMeans env w .markdown p reqs errs → r ∈ reqs → r.location = lineOf p (pre.length + 1) →
      FileRetitles env w w' p .markdown r t
  /-- In the first line of a file with one requirement. -/
  | firstLine {text text' ls old r t errs} : env.os.openFile w p = .ok ⟨Utf8.encode text, none⟩ →
      env.os.openFile w' p = .ok ⟨Utf8.encode text', none⟩ → TextLines text (old :: ls) → TextLines text' (t :: ls) →
      PathMeans env w .monoRequirement p [r] errs → FileRetitles env w w' p .monoRequirement r t

/-- The project is as before, but for one file of one artefact, in which the requirement `r` gets the title `t`. -/
structure ProjectRetitles (env : Env) (w w' : World) (base : Path) (config : Config) (x : ArtefactId) (r : Requirement)
    (t : Str) : Prop where
  matching : SameMatches env w w'
  artefact : ∃ before ac after pre p post, config.artefacts = before ++ ac :: after ∧ ac.id = x ∧ (∀ b ∈ after, b.id ≠ x) ∧
    FilesOf env w ac base (pre ++ p :: post) ∧ FileRetitles env w w' p ac.parser r t ∧
    (∀ q ∈ pre ++ post, SameFile env w w' q) ∧
    ∀ b ∈ before ++ after, ∀ fs, FilesOf env w b base fs → ∀ q ∈ fs, SameFile env w w' q

end Reqtrace.Spec
