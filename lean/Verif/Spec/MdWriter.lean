import Verif.Spec.Markdown

/-!
# A canonical Markdown requirement document

The documented layout (`doc/requirements/FORMATS.md`, `FMT_MD_START` to `FMT_MD_ATTRIBUTES`): a
heading, one paragraph of description, long lists of references, text attributes of one line, all
separated by empty lines.
-/

namespace Reqtrace.Spec

/-- A requirement to write. -/
structure Item where
  level : Nat
  id : Str
  title : Str
  /-- the lines of the description, without line feeds -/
  desc : List Str
  covers : List (Str × Option Str)
  depends : List (Str × Option Str)
  attrs : List (Str × Str)

/-- A title or value that stands in one line, without white space around it, and is not empty. -/
def OneLine (s : Str) : Prop :=
  s ≠ [] ∧ '\n' ∉ s ∧ (∀ c u, s = c :: u → isWs c = false) ∧ (∀ c u, s = u ++ [c] → isWs c = false)

/-- `[A-Z][a-z]+` -/
def IsWord (s : Str) : Prop :=
  ∃ c low, s = c :: low ∧ c.isUpper = true ∧ low ≠ [] ∧ ∀ d ∈ low, d.isLower = true

/-- The item is in the documented format. -/
structure Item.Ok (U : Unicode) (it : Item) : Prop where
  level : 0 < it.level
  id : IsIdent U it.id
  title : OneLine it.title
  /-- no description line is empty or looks like a heading, the first does not start an attribute -/
  desc : ∀ l ∈ it.desc, l ≠ [] ∧ '\n' ∉ l ∧ l.head? ≠ some '#'
  descStart : ∀ l ls, it.desc = l :: ls → ∀ a v, ¬ AttrLine (l ++ ['\n']) a v
  refs : ∀ r ∈ it.covers ++ it.depends, IsIdent U r.1 ∧ ∀ t, r.2 = some t → OneLine t
  attrs : ∀ a ∈ it.attrs, IsWord a.1 ∧ OneLine a.2 ∧
    a.1 ≠ c!"Covers" ∧ a.1 ≠ c!"Depends" ∧ a.1 ≠ c!"Description"
  /-- each attribute is given once -/
  once : (it.attrs.map (·.1)).Nodup

/-- One item of a long list. -/
def writeRef (r : Str × Option Str) : Str :=
  c!"*   " ++ r.1 ++ (match r.2 with | some t => c!": " ++ t | none => []) ++ ['\n']

/-- A long list. -/
def writeRefs (name : Str) (refs : List (Str × Option Str)) : List Str :=
  if refs = [] then [] else (name ++ c!":\n") :: refs.map writeRef ++ [['\n']]

/-- The description. -/
def writeDesc (desc : List Str) : List Str :=
  if desc = [] then [] else desc.map (· ++ ['\n']) ++ [['\n']]

/-- A text attribute. -/
def writeAttr (a : Str × Str) : List Str := [a.1 ++ c!": " ++ a.2 ++ ['\n'], ['\n']]

/-- The lines of a requirement. -/
def Item.write (it : Item) : List Str :=
  (List.replicate it.level '#' ++ c!" " ++ it.id ++ c!": " ++ it.title ++ ['\n']) :: ['\n'] ::
    (writeDesc it.desc ++ writeRefs c!"Covers" it.covers ++ writeRefs c!"Depends" it.depends ++
      it.attrs.flatMap writeAttr)

/-- The references that were written, the first in line `n`. -/
def refsAt (path : Path) : Nat → List (Str × Option Str) → List Reference
  | _, [] => []
  | n, r :: rs => ⟨r.1, r.2, ⟨path, some (.line n)⟩⟩ :: refsAt path (n + 1) rs

/-- `r` is the item, written from line `n` on.  The texts end with the line feed of the empty line
behind them. -/
structure Item.Is (it : Item) (path : Path) (n : Nat) (r : Requirement) : Prop where
  id : r.id = it.id
  title : r.title = some it.title
  location : r.location = ⟨path, some (.line n)⟩
  covers : r.covers = refsAt path (n + 2 + (writeDesc it.desc).length + 1) it.covers
  depends : r.depends = refsAt path
    (n + 2 + (writeDesc it.desc).length + (writeRefs c!"Covers" it.covers).length + 1) it.depends
  tags : r.tags = []
  desc : r.attributes.get c!"Description" =
    if it.desc = [] then none else some ((it.desc.map (· ++ ['\n'])).flatten ++ ['\n'])
  attr : ∀ a ∈ it.attrs, r.attributes.get a.1 = some (a.2 ++ ['\n'])
  others : ∀ name v, r.attributes.get name = some v →
    name = c!"Description" ∨ name ∈ it.attrs.map (·.1)

/-- `rs` are the items, written one after the other from line `n` on. -/
inductive Items (path : Path) : Nat → List Item → List Requirement → Prop
  | nil (n) : Items path n [] []
  | cons {n it its r rs} : it.Is path n r → Items path (n + it.write.length) its rs →
      Items path n (it :: its) (r :: rs)

end Reqtrace.Spec
