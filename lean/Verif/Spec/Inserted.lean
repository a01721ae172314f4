import Verif.Spec.Removed
import Verif.Spec.Repaired

/-!
# A section that is put in at any place
-/

namespace Reqtrace.Spec

/-- The project is as before, but for one file of one artefact, which has one section, or mark, more.  No Markdown file of the
artefact ends with a single character on a line of its own. -/
structure ProjectInserted (env : Env) (w w' : World) (base : Path) (config : Config) (x : ArtefactId) (n : Requirement) :
    Prop where
  less : ProjectReduced env w' w base config x n
  whole : ∀ ac fs p text, LastEntry config ac → ac.id = x → ac.parser = .markdown → FilesOf env w' ac base fs → p ∈ fs →
    env.os.openFile w' p = .ok ⟨Utf8.encode text, none⟩ → ¬ OneByteTail text

/-- All that `n` refers to, as part of the artefact `x`, is right; its own references give its coverage along each relation
from `x`, and unless derived requirements are ignored it covers something. -/
structure SelfStanding (g : Graph) (x : ArtefactId) (n : Requirement) : Prop where
  refs : RightRefs g x n
  covered : ∀ rel ∈ g.relations, rel.upper = x → Fills g x n rel n
  derived : ∀ art, g.artefacts.get x = some art → art.ignoreDerivedRequirements = false → ∃ rel ∈ g.relations, x ∈ rel.lower ∧
    ((∃ ref ∈ n.covers, ∃ u, Defines g rel.upper u ∧ ref.id = u.id) ∨ rel.upper = x ∧ ∃ ref ∈ n.depends, ref.id = n.id)

end Reqtrace.Spec
