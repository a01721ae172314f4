import Verif.Glob
import Verif.Spec.Patterns

/-!
# Specification: the files that a pattern means
-/

namespace Reqtrace.Spec.GlobText

/-- The characters that stand for others in a pattern -/
def Wild (c : Char) : Prop := c = '*' ∨ c = '?' ∨ c = '['

/-- The character is one of those in brackets: single ones, and ranges. -/
inductive InClass : Str → Char → Prop
  | range {a b c r} : a ≤ c → c ≤ b → InClass (a :: '-' :: b :: r) c
  | single {c r} : (∀ b s, r ≠ '-' :: b :: s) → InClass (c :: r) c
  | afterRange {a b c r} : InClass r c → InClass (a :: '-' :: b :: r) c
  | afterSingle {a c r} : (∀ b s, r ≠ '-' :: b :: s) → InClass r c → InClass (a :: r) c

/-- What can stand in brackets: at least one character, and closing brackets only at the beginning -/
def IsClass (s : Str) : Prop := ∃ c r, s = c :: r ∧ ']' ∉ r

/-- A name fits a pattern. -/
inductive NameFits : Str → Str → Prop
  | nil : NameFits [] []
  | char {c p n} : ¬ Wild c → NameFits p n → NameFits (c :: p) (c :: n)
  | one {c p n} : NameFits p n → NameFits ('?' :: p) (c :: n)
  | many {m p n} : NameFits p n → NameFits ('*' :: p) (m ++ n)
  | within {s c p n} : IsClass s → s.head? ≠ some '!' → InClass s c → NameFits p n →
    NameFits ('[' :: (s ++ ']' :: p)) (c :: n)
  | except {s c p n} : IsClass s → ¬ InClass s c → NameFits p n → NameFits ('[' :: '!' :: (s ++ ']' :: p)) (c :: n)

/-- A sequence of names fits a sequence of patterns, in which `**` stands for any number of names. -/
inductive PathFits : List Str → List Str → Prop
  | nil : PathFits [] []
  | name {p n ps ns} : p ≠ c!"**" → NameFits p n → PathFits ps ns → PathFits (p :: ps) (n :: ns)
  | recursive {ms ps ns} : PathFits ps ns → PathFits (c!"**" :: ps) (ms ++ ns)

/-- The path fits the pattern. -/
def Fits (pattern f : Str) : Prop := PathFits (splitOnChar '/' pattern) (splitOnChar '/' f)

/-- A name of a pattern is well-formed: brackets are closed, and no `**` is part of it. -/
inductive WellFormed : Str → Prop
  | nil : WellFormed []
  | char {c p} : ¬ Wild c → WellFormed p → WellFormed (c :: p)
  | one {p} : WellFormed p → WellFormed ('?' :: p)
  | many {p} : p.head? ≠ some '*' → WellFormed p → WellFormed ('*' :: p)
  | within {s p} : IsClass s → s.head? ≠ some '!' → WellFormed p → WellFormed ('[' :: (s ++ ']' :: p))
  | except {s p} : IsClass s → WellFormed p → WellFormed ('[' :: '!' :: (s ++ ']' :: p))

/-- A name that is not special to the file system, or `**`; names that begin with a dot have no wildcards. -/
def ProperName (s : Str) : Prop :=
  s = c!"**" ∨ (s ≠ [] ∧ s ≠ c!"." ∧ s ≠ c!".." ∧ (s.head? = some '.' → ∀ c ∈ s, ¬ Wild c) ∧ WellFormed s)

/-- A pattern of proper names, relative or absolute, that ends in a name -/
def Proper (pattern : Str) : Prop :=
  ∃ ss last, last ≠ c!"**" ∧ (∀ s ∈ ss ++ [last], ProperName s) ∧
    (splitOnChar '/' pattern = ss ++ [last] ∨ splitOnChar '/' pattern = [] :: (ss ++ [last]))

/-- A directory: the current one, or one that is given by proper names without wildcards -/
def PlainDirectory (dir : Str) : Prop := dir = c!"." ∨ (Proper dir ∧ ∀ c ∈ dir, ¬ Wild c)

/-- The path from a directory to below it; the current directory is not part of it. -/
def below (dir r : Str) : Str := if dir = c!"." then r else dir ++ c!"/" ++ r

/-- The path is meant by the pattern of an artefact: one that begins with a slash is for whole paths, others are for what
is below the base directory. -/
def Means (base pattern f : Str) : Prop :=
  if pattern.head? = some '/' then Fits pattern f else ∃ r, f = below base r ∧ Fits pattern r

/-- What a relative pattern finds below a base directory: also what is below other directories, if their paths fit the
base directory, taken as a pattern. -/
def Reaches (base pattern f : Str) : Prop :=
  if pattern.head? = some '/' ∨ base = c!"." then Fits pattern f
  else ∃ d r, f = d ++ c!"/" ++ r ∧ Fits base d ∧ Fits pattern r

end Reqtrace.Spec.GlobText
