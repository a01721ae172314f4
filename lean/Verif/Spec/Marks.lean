import Verif.Spec.Rust

/-!
# The macro for coverage marks (`src/lib.rs:6-12`)

The arms of `requirement_covered!`, for titles and ids that are plain string literals.  (The fragment `literal` also takes
numbers, characters, other kinds of strings, and `true` and `false`.)
-/

namespace Reqtrace.Spec

open Rs

/-- A string literal without quotes or escapes in it, and its value. -/
def PlainString (t : Tok) (v : Str) : Prop := t.isIdent = false ∧ t.text = '"' :: (v ++ ['"']) ∧ '"' ∉ v ∧ '\\' ∉ v

/-- The tokens are an argument that the macro accepts, and what it says: the id and the title.
`lib.rs:7` `($id:ident)`, `:8` `($id:ident,$title:literal)`, `:9` `($id:literal,$title:literal)`,
`:10` `($id:ident:$title:literal)`, `:11` `($id:literal:$title:literal)`. -/
inductive MacroArm : List Tok → Str → Option Str → Prop
  | id {t} : t.isIdent = true → MacroArm [t] t.text none
  | idTitle {t sep u v} : t.isIdent = true → sep.text = c!"," ∨ sep.text = c!":" → PlainString u v →
      MacroArm [t, sep, u] t.text (some v)
  | stringTitle {t sep u w v} : PlainString t w → sep.text = c!"," ∨ sep.text = c!":" → PlainString u v →
      MacroArm [t, sep, u] w (some v)

end Reqtrace.Spec
