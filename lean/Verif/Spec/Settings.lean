import Verif.Spec.Trace
import Verif.Spec.Controller

/-!
# The settings of artefacts
-/

namespace Reqtrace.Spec

/-- The graphs have the same relations and artefacts with the same requirements; settings, files and errors may differ. -/
structure SameButSettings (g g' : Graph) : Prop where
  relations : g'.relations = g.relations
  requirements : ∀ a, (g'.artefacts.get a).map (·.requirements) = (g.artefacts.get a).map (·.requirements)

/-- The error is that a reference has no title. -/
def isUntitled : Error → Bool
  | .referencedWithoutTitle .. => true
  | _ => false

/-- Every artefact that requires titles does so in `g` also, and every one that ignores derived requirements in `g` does so
in `g'` also. -/
structure LaxerGraph (g g' : Graph) : Prop where
  titles : ∀ a art art', g.artefacts.get a = some art → g'.artefacts.get a = some art' → art'.referenceWithTitle = true →
    art.referenceWithTitle = true
  derived : ∀ a art art', g.artefacts.get a = some art → g'.artefacts.get a = some art' → art.ignoreDerivedRequirements = true →
    art'.ignoreDerivedRequirements = true

/-- `k` changes nothing about the entry of an artefact but its settings. -/
structure Resets (k : ArtefactConfig → ArtefactConfig) : Prop where
  id : ∀ ac, (k ac).id = ac.id
  paths : ∀ ac, (k ac).paths = ac.paths
  parser : ∀ ac, (k ac).parser = ac.parser

/-- The configuration with other settings. -/
def resetConfig (k : ArtefactConfig → ArtefactConfig) (config : Config) : Config := { config with artefacts := config.artefacts.map k }

/-- `k` switches settings only such that less is asked for: derived requirements are ignored, titles are not required. -/
structure Relaxes (k : ArtefactConfig → ArtefactConfig) : Prop extends Resets k where
  derived : ∀ ac, (k ac).ignoreDerivedRequirements = ac.ignoreDerivedRequirements ∨ (k ac).ignoreDerivedRequirements = some true
  titles : ∀ ac, (k ac).referenceWithTitle = ac.referenceWithTitle ∨ (k ac).referenceWithTitle ≠ some true

end Reqtrace.Spec
