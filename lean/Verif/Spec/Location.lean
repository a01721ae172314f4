import Verif.Models
import Verif.Regex

/-!
# What the text of a location means
-/

namespace Reqtrace.Spec

/-- Non-empty text of decimal digits (of any script). -/
def Digits (U : Unicode) (d : Str) : Prop := d ≠ [] ∧ ∀ c ∈ d, U.digit c = true

/-- The text ends in a colon and digits, with some text before. -/
def EndsInField (U : Unicode) (file : Str) : Prop :=
  ∃ f d, f ≠ [] ∧ Digits U d ∧ file = f ++ ':' :: d

/-- `d` is the decimal notation of `n`, perhaps with leading zeros. -/
def Notation (d : Str) (n : Nat) : Prop := ∃ k, d = List.replicate k '0' ++ natStr n

/-- What the digits mean as a number of the program, or the message. -/
inductive Count (d : Str) : Except Str Nat → Prop
  | ok {n} : Notation d n → n < 2 ^ 64 → Count d (.ok n)
  | large {p r n} : d = p ++ r → Notation p n → 2 ^ 64 ≤ n → Count d (.error c!"number too large to fit in target type")
  | foreign {p c r} : d = p ++ c :: r → (p = [] ∨ ∃ n, Notation p n ∧ n < 2 ^ 64) → c.isDigit = false →
      Count d (.error c!"invalid digit found in string")

/-- What a text means as a location, or the message. -/
inductive LocationText (U : Unicode) (s : Str) : Except Str Location → Prop
  | invalid : s = [] ∨ '\n' ∈ s → LocationText U s (.error c!"Invalid Location")
  | file : s ≠ [] → '\n' ∉ s → ¬ EndsInField U s → LocationText U s (.ok ⟨s, none⟩)
  | line {f d n} : s = f ++ c!":" ++ d → f ≠ [] → '\n' ∉ f → ¬ EndsInField U f → Digits U d → Count d (.ok n) →
      LocationText U s (.ok ⟨f, some (.line n)⟩)
  | badLine {f d e} : s = f ++ c!":" ++ d → f ≠ [] → '\n' ∉ f → ¬ EndsInField U f → Digits U d → Count d (.error e) →
      LocationText U s (.error (c!"Error parsing line " ++ d ++ c!": " ++ e))
  | column {f d e n k} : s = f ++ c!":" ++ d ++ c!":" ++ e → f ≠ [] → '\n' ∉ f → Digits U d → Digits U e →
      Count d (.ok n) → Count e (.ok k) → LocationText U s (.ok ⟨f, some (.lineAndColumn n k)⟩)
  | badLineOfColumn {f d e m} : s = f ++ c!":" ++ d ++ c!":" ++ e → f ≠ [] → '\n' ∉ f → Digits U d → Digits U e →
      Count d (.error m) → LocationText U s (.error (c!"Error parsing line " ++ d ++ c!": " ++ m))
  | badColumn {f d e n m} : s = f ++ c!":" ++ d ++ c!":" ++ e → f ≠ [] → '\n' ∉ f → Digits U d → Digits U e →
      Count d (.ok n) → Count e (.error m) → LocationText U s (.error (c!"Error parsing column " ++ e ++ c!": " ++ m))

/-- Two positions denote the same place: a line is its column 0. -/
def samePlace : LocationInFile → LocationInFile → Prop
  | .line l, .line l' => l = l'
  | .line l, .lineAndColumn l' c' => l = l' ∧ c' = 0
  | .lineAndColumn l c, .line l' => l = l' ∧ c = 0
  | .lineAndColumn l c, .lineAndColumn l' c' => l = l' ∧ c = c'
  | .string s, .string s' => s = s'
  | _, _ => False

end Reqtrace.Spec
