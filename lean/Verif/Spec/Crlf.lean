import Verif.Spec.Document

/-!
# Documents that mean the same with CR LF line ends

An empty line that has a carriage return is not empty for the parser.  `CrSafe` describes the documents in which no
empty line matters: none below a requirement heading or in a description, and a list of references ends with at most one.
There are no states of the parser here, only what the lines above a line are.
-/

namespace Reqtrace.Spec

/-- What a line stands in. -/
inductive Within where
  /-- not in a requirement, or behind a line that ended it -/
  | nothing
  /-- directly below the heading of a requirement -/
  | heading
  /-- a description -/
  | prose
  /-- an attribute that is a text -/
  | text
  /-- a list of references -/
  | list
  /-- below the blank line after a list of references -/
  | gap

/-- The line ends with a colon, but for white space. -/
def ColonEnd (l : Str) : Prop := ∃ u w, l = u ++ ':' :: w ∧ Blank w

/-- An attribute may start here. -/
def AttrMayStart : Within → Prop
  | .heading | .text | .gap => True
  | _ => False

/-- Lines, the first of which stands within something, without empty lines that matter. -/
inductive CrSafe (U : Unicode) : Within → List Str → Prop
  | nil (m) : CrSafe U m []
  /-- a requirement starts -/
  | requirement {m l ls level id title} : ReqHeading U l level id title → CrSafe U .heading ls → CrSafe U m (l :: ls)
  /-- another heading -/
  | title {m l ls} : l.head? = some '#' → NoHeading U l → ¬ ColonEnd l → CrSafe U .nothing ls → CrSafe U m (l :: ls)
  /-- any line, perhaps empty, outside of requirements -/
  | outside {l ls} : l.head? ≠ some '#' → CrSafe U .nothing ls → CrSafe U .nothing (l :: ls)
  /-- a list of references starts -/
  | refs {m l ls a v} : AttrMayStart m → AttrLine l a v → (a = c!"Covers" ∨ a = c!"Depends") → CrSafe U .list ls →
      CrSafe U m (l :: ls)
  /-- a text starts -/
  | text {m l ls a v} : AttrMayStart m → AttrLine l a v → a ≠ c!"Covers" → a ≠ c!"Depends" → CrSafe U .text ls →
      CrSafe U m (l :: ls)
  /-- a description starts -/
  | description {l ls} : l ≠ ['\n'] → l.head? ≠ some '#' → (∀ a v, ¬ AttrLine l a v) → CrSafe U .prose ls →
      CrSafe U .heading (l :: ls)
  /-- a description goes on -/
  | prose {l ls} : l ≠ ['\n'] → l.head? ≠ some '#' → CrSafe U .prose ls → CrSafe U .prose (l :: ls)
  /-- a text goes on, perhaps with an empty line -/
  | more {l ls} : l.head? ≠ some '#' → (∀ a v, ¬ AttrLine l a v) → CrSafe U .text ls → CrSafe U .text (l :: ls)
  /-- a list of references goes on -/
  | item {l ls id title} : l.head? ≠ some '#' → RefLine U l id title → ¬ ColonEnd l → CrSafe U .list ls →
      CrSafe U .list (l :: ls)
  /-- a list of references ends, perhaps with an empty line -/
  | blank {l ls} : Blank l → CrSafe U .gap ls → CrSafe U .list (l :: ls)
  /-- a line that should be a reference -/
  | noRef {l ls} : l.head? ≠ some '#' → ¬ Blank l → (∀ id t, ¬ RefLine U l id t) → ¬ ColonEnd l →
      CrSafe U .nothing ls → CrSafe U .list (l :: ls)
  /-- a line that should be an attribute -/
  | noAttr {l ls} : l ≠ ['\n'] → l.head? ≠ some '#' → (∀ a v, ¬ AttrLine l a v) → CrSafe U .nothing ls →
      CrSafe U .gap (l :: ls)

/-- The text without carriage returns. -/
def noCr (s : Str) : Str := s.filter (· ≠ '\r')

/-- The second requirement is the first one, except for carriage returns in the texts of attributes. -/
def SameButCr (r r' : Requirement) : Prop :=
  r'.id = r.id ∧ r'.title = r.title ∧ r'.location = r.location ∧ r'.covers = r.covers ∧ r'.depends = r.depends ∧
    r'.tags = r.tags ∧ ∀ a, (r'.attributes.get a).map noCr = r.attributes.get a

/-- The requirements are the same one by one, except for carriage returns in the texts of attributes. -/
inductive AllSameButCr : List Requirement → List Requirement → Prop
  | nil : AllSameButCr [] []
  | cons {r r' rs rs'} : SameButCr r r' → AllSameButCr rs rs' → AllSameButCr (r :: rs) (r' :: rs')

end Reqtrace.Spec
