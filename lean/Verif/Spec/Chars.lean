import Verif.Models

/-!
# Characters and numbers
-/

namespace Reqtrace.Spec

/-- The characters with the property White_Space in `PropList.txt` of Unicode. -/
def whiteSpace : List Nat :=
  [0x09, 0x0A, 0x0B, 0x0C, 0x0D, 0x20, 0x85, 0xA0, 0x1680, 0x2000, 0x2001, 0x2002, 0x2003, 0x2004, 0x2005, 0x2006, 0x2007,
   0x2008, 0x2009, 0x200A, 0x2028, 0x2029, 0x202F, 0x205F, 0x3000]

/-- The text is the number in decimal notation, without leading zeros. -/
def Decimal (s : Str) (n : Nat) : Prop :=
  s ≠ [] ∧ (∀ c ∈ s, c ∈ c!"0123456789") ∧ s.foldl (fun v c => 10 * v + (c.toNat - '0'.toNat)) 0 = n ∧
    (s.head? = some '0' → s = c!"0")

end Reqtrace.Spec
