import Verif.Spec.Markdown

/-!
# Mono-requirement files, declaratively
-/

namespace Reqtrace.Spec

/-- The lines of a text without their line ends, which are LF or CR LF. -/
inductive TextLines : Str → List Str → Prop
  | nil : TextLines [] []
  | last (l) : l ≠ [] → '\n' ∉ l → TextLines l [l]
  | lf (l) {rest ls} : '\n' ∉ l → l.getLast? ≠ some '\r' → TextLines rest ls →
      TextLines (l ++ c!"\n" ++ rest) (l :: ls)
  | crlf (l) {rest ls} : '\n' ∉ l → TextLines rest ls → TextLines (l ++ c!"\r\n" ++ rest) (l :: ls)

/-- From here to the end of the line the text reads `=> ID` or `=> ID: title`.  A title of nothing but
white space counts as its last character. -/
def ArrowEnd (U : Unicode) (s id : Str) (title : Option Str) : Prop :=
  IsIdent U id ∧ ∃ w tail, Blank w ∧ s = c!"=>" ++ w ++ id ++ tail ∧
    ((Blank tail ∧ title = none) ∨
     (∃ rest t, tail = ':' :: rest ∧ title = some t ∧
        ((t ≠ [] ∧ TrimsTo rest t) ∨ (∃ u c, Blank rest ∧ rest = u ++ [c] ∧ t = [c]))))

/-- The line ends in `=> ID` or `=> ID: title`; the leftmost arrow with that property counts. -/
def ArrowLine (U : Unicode) (line id : Str) (title : Option Str) : Prop :=
  ∃ pre s, line = pre ++ s ∧ ArrowEnd U s id title ∧
    ∀ pre' s', line = pre' ++ s' → pre'.length < pre.length → ∀ id' title', ¬ ArrowEnd U s' id' title'

/-- The references that the lines state, the first of which has number `n`. -/
inductive Arrows (U : Unicode) (path : Path) : Nat → List Str → List Reference → Prop
  | nil (n) : Arrows U path n [] []
  | skip {n l ls rs} : (∀ id title, ¬ ArrowLine U l id title) → Arrows U path (n + 1) ls rs →
      Arrows U path n (l :: ls) rs
  | take {n l ls rs id title} : ArrowLine U l id title → Arrows U path (n + 1) ls rs →
      Arrows U path n (l :: ls) (⟨id, title, ⟨path, some (.line n)⟩⟩ :: rs)

/-- What may follow the file name in a path: components that are empty or `.`. -/
inductive Trail : Str → Prop
  | nil : Trail []
  | slash {t} : Trail t → Trail ('/' :: t)
  | dot {t} : Trail t → (t = [] ∨ t.head? = some '/') → Trail ('/' :: '.' :: t)

/-- The last component of the path, apart from empty ones and `.`, is the file name. -/
def FileName (path name : Str) : Prop :=
  name ≠ [] ∧ name ≠ c!"." ∧ name ≠ c!".." ∧ '/' ∉ name ∧
    ∃ dir trail, path = dir ++ name ++ trail ∧ (dir = [] ∨ dir.getLast? = some '/') ∧ Trail trail

/-- The file name without its extension. -/
def Stem (name stem : Str) : Prop :=
  (∃ ext, name = stem ++ '.' :: ext ∧ stem ≠ [] ∧ '.' ∉ ext) ∨ (stem = name ∧ '.' ∉ name.tail)

/-- The documented title: the first line with a word character, without the other characters around. -/
def DocTitle (word : Char → Bool) : List Str → Option Str → Prop
  | [], t => t = none
  | l :: ls, t => ((∀ c ∈ l, word c = false) ∧ DocTitle word ls t) ∨
      ∃ a s b, l = a ++ s ++ b ∧ t = some s ∧ (∀ c ∈ a, word c = false) ∧ (∀ c ∈ b, word c = false) ∧
        (∃ c u, s = c :: u ∧ word c = true) ∧ (∃ c u, s = u ++ [c] ∧ word c = true)

end Reqtrace.Spec
