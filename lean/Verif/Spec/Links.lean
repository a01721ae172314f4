import Verif.Spec.Output

/-!
# The links in the Markdown report of a trace
-/

namespace Reqtrace.Spec

/-- The Markdown report of a trace, with any texts as links to requirements. -/
def TraceWith (link : Requirement → Str) (g : Graph) (text : Str) : Prop :=
  ∃ body : RequirementId → Str, (∀ id a r, shown g id = some (a, r) → ShownSection link g a r (body id)) ∧
    text = inputErrorsText link g ++ tracingErrorsText link g ++
      problemSection c!"Uncovered Requirements" ((g.relations.filter (fun rel => uncovered g rel ≠ [])).map fun rel =>
        (relationText rel, (uncovered g rel).flatMap (shownItem link g))) ++
      problemSection c!"Derived Requirements" ((g.artefacts.entries.filter (fun e => derived g e.1 e.2 ≠ [])).map fun e =>
        (e.1, (derived g e.1 e.2).flatMap (shownItem link g))) ++
      c!"\n\n# Requirements\n\n" ++ g.artefacts.entries.flatMap (fun e =>
        c!"## " ++ e.2.id ++ c!"\n" ++ e.2.requirements.entries.flatMap (fun r => body r.1))

/-- The report has a link to the requirement: another text for this link, and this link only, gives another report. -/
def HasLinkTo (g : Graph) (r : Requirement) : Prop :=
  ∃ link link' t t', (∀ s, s ≠ r → link s = link' s) ∧ TraceWith link g t ∧ TraceWith link' g t' ∧ t ≠ t'

/-- The text has the heading of a section about the requirement. -/
def HasSection (text : Str) (r : Requirement) : Prop := c!"\n### " ++ headingText r ++ c!"\n\n" <:+: text

instance : DecidablePred AnchorChar := fun c => by unfold AnchorChar; infer_instance

/-- What the link to a requirement shows of it: its id, and its title after a dash, in lower case, with dashes for
spaces and without everything but letters, digits, `_` and `-` of ASCII. -/
def shownInAnchor (lower : Str → Str) (r : Requirement) : Str :=
  ((lower (r.id ++ (match r.title with
    | some t => c!"-" ++ t
    | none => []))).map (fun c => if c = ' ' then '-' else c)).filter (fun c => AnchorChar c)

/-- The requirements to which an error has a link. -/
def linkedFrom : Error → List Requirement
  | .coveredWithWrongTitle upper lower _ _ => [upper, lower]
  | .dependWithWrongTitle upper lower _ _ => [upper, lower]
  | .dependOnUnknownRequirement r _ _ => [r]
  | .coversUnknownRequirement r _ _ => [r]
  | .referencedWithoutTitle r _ => [r]
  | .requirementWithoutTitle r => [r]
  | _ => []

end Reqtrace.Spec
