import Verif.Json

/-!
# JSON texts, and what a list of requirements looks like in JSON

The grammar is that of RFC 8259.
-/

namespace Reqtrace.Spec.JsonText

/-- White space -/
def Ws (s : Str) : Prop := ∀ c ∈ s, c = ' ' ∨ c = '\n' ∨ c = '\t' ∨ c = '\r'

/-- A hexadecimal digit and its value -/
def Hex (c : Char) (n : Nat) : Prop :=
  ('0' ≤ c ∧ c ≤ '9' ∧ c.toNat = n + 48) ∨ ('a' ≤ c ∧ c ≤ 'f' ∧ c.toNat = n + 87) ∨
    ('A' ≤ c ∧ c ≤ 'F' ∧ c.toNat = n + 55)

/-- Four hexadecimal digits and their value -/
def Hex4 (s : Str) (n : Nat) : Prop :=
  ∃ a b c d w x y z, s = [a, b, c, d] ∧ Hex a w ∧ Hex b x ∧ Hex c y ∧ Hex d z ∧ n = 4096 * w + 256 * x + 16 * y + z

/-- How a character can be written in a string -/
inductive Chr : Str → Char → Prop
  | plain {c} : c ≠ '"' → c ≠ '\\' → 32 ≤ c.toNat → Chr [c] c
  | quote : Chr c!"\\\"" '"'
  | backslash : Chr c!"\\\\" '\\'
  | slash : Chr c!"\\/" '/'
  | b : Chr c!"\\b" (Char.ofNat 8)
  | f : Chr c!"\\f" (Char.ofNat 12)
  | n : Chr c!"\\n" '\n'
  | r : Chr c!"\\r" '\r'
  | t : Chr c!"\\t" '\t'
  | unicode {s n} : Hex4 s n → n < 0xD800 ∨ 0xDFFF < n → Chr (c!"\\u" ++ s) (Char.ofNat n)
  | surrogates {s n t m} : Hex4 s n → Hex4 t m → 0xD800 ≤ n → n ≤ 0xDBFF → 0xDC00 ≤ m → m ≤ 0xDFFF →
      Chr (c!"\\u" ++ s ++ c!"\\u" ++ t) (Char.ofNat (0x10000 + (n - 0xD800) * 0x400 + (m - 0xDC00)))

/-- What stands between the quotes, and the text that it means -/
inductive Chars : Str → Str → Prop
  | nil : Chars [] []
  | cons {s c t u} : Chr s c → Chars t u → Chars (s ++ t) (c :: u)

def Digits (s : Str) : Prop := s ≠ [] ∧ ∀ c ∈ s, c.isDigit = true

def Integer (s : Str) : Prop := Digits s ∧ (s.head? = some '0' → s = c!"0")

def Fraction (s : Str) : Prop := s = [] ∨ ∃ d, Digits d ∧ s = '.' :: d

def Exponent (s : Str) : Prop :=
  s = [] ∨ ∃ e sign d, (e = 'e' ∨ e = 'E') ∧ (sign = [] ∨ sign = c!"+" ∨ sign = c!"-") ∧ Digits d ∧ s = e :: (sign ++ d)

/-- The number that digits mean -/
def decimal (s : Str) : Nat := s.foldl (fun n c => 10 * n + (c.toNat - 48)) 0

/-- Numbers.  Those that are not just digits keep their text. -/
inductive Number : Str → Json → Prop
  | nat {s} : Integer s → Number s (.num (decimal s))
  | real {sign i f e} : sign = [] ∨ sign = c!"-" → Integer i → Fraction f → Exponent e →
      ¬ (sign = [] ∧ f = [] ∧ e = []) → Number (sign ++ i ++ f ++ e) (.real (sign ++ i ++ f ++ e))

mutual
/-- Values -/
inductive Value : Str → Json → Prop
  | null : Value c!"null" .null
  | true : Value c!"true" (.bool .true)
  | false : Value c!"false" (.bool .false)
  | number {s v} : Number s v → Value s v
  | string {s t} : Chars s t → Value ('"' :: s ++ ['"']) (.str t)
  | emptyArray {w} : Ws w → Value ('[' :: w ++ [']']) (.arr [])
  | array {s vs} : Elements s vs → Value ('[' :: s ++ [']']) (.arr vs)
  | emptyObject {w} : Ws w → Value ('{' :: w ++ ['}']) (.obj [])
  | object {s ms} : Members s ms → Value ('{' :: s ++ ['}']) (.obj ms)
/-- One or more values with commas between -/
inductive Elements : Str → List Json → Prop
  | one {a s b v} : Ws a → Value s v → Ws b → Elements (a ++ s ++ b) [v]
  | cons {a s b v t vs} : Ws a → Value s v → Ws b → Elements t vs → Elements (a ++ s ++ b ++ ',' :: t) (v :: vs)
/-- One or more members with commas between -/
inductive Members : Str → List (Str × Json) → Prop
  | one {a k name b c s v d} : Ws a → Chars k name → Ws b → Ws c → Value s v → Ws d →
      Members (a ++ '"' :: k ++ '"' :: b ++ ':' :: c ++ s ++ d) [(name, v)]
  | cons {a k name b c s v d t ms} : Ws a → Chars k name → Ws b → Ws c → Value s v → Ws d → Members t ms →
      Members (a ++ '"' :: k ++ '"' :: b ++ ':' :: c ++ s ++ d ++ ',' :: t) ((name, v) :: ms)
end

/-- A document: a value, and white space around it -/
def Document (s : Str) (v : Json) : Prop := ∃ a t b, s = a ++ t ++ b ∧ Ws a ∧ Value t v ∧ Ws b

/-! ## Requirements -/

/-- A struct has a value (or nothing) for a field: in an object, the field must not be there twice and other members
do not matter; an array must have one item per field, in order. -/
inductive Field (names : List Str) : Json → Str → Option Json → Prop
  | missing {ms n} : (∀ m ∈ ms, m.1 ≠ n) → Field names (.obj ms) n none
  | member {a n v b} : (∀ m ∈ a, m.1 ≠ n) → (∀ m ∈ b, m.1 ≠ n) → Field names (.obj (a ++ (n, v) :: b)) n (some v)
  | item {vs : List Json} {i : Nat} {n v} : vs.length = names.length → names[i]? = some n → vs[i]? = some v → Field names (.arr vs) n (some v)

/-- A field that may be missing or `null` -/
inductive Optional {α : Type} (P : Json → α → Prop) : Option Json → Option α → Prop
  | missing : Optional P none none
  | null : Optional P (some .null) none
  | some {j a} : P j a → Optional P (some j) (some a)

/-- All items of an array -/
inductive Each {α : Type} (P : Json → α → Prop) : List Json → List α → Prop
  | nil : Each P [] []
  | cons {j a js as} : P j a → Each P js as → Each P (j :: js) (a :: as)

def IsArray {α : Type} (P : Json → α → Prop) (j : Json) (as : List α) : Prop := ∃ js, j = .arr js ∧ Each P js as

def IsText (j : Json) (s : Str) : Prop := j = .str s

/-- An object with texts as values; the last one of each name counts. -/
def IsMap (j : Json) (m : BMap Str Str) : Prop :=
  ∃ kvs : List (Str × Str), j = .obj (kvs.map fun e => (e.1, .str e.2)) ∧
    ∀ k, m.get k = ((kvs.filter (fun e => e.1 = k)).getLast?).map Prod.snd

/-- Numbers have 64 bits. -/
def largest : Nat := 18446744073709551615

inductive IsPosition : Json → LocationInFile → Prop
  | line {n} : n ≤ largest → IsPosition (.obj [(c!"Line", .num n)]) (.line n)
  | lineAndColumn {n k} : n ≤ largest → k ≤ largest →
      IsPosition (.obj [(c!"LineAndColumn", .arr [.num n, .num k])]) (.lineAndColumn n k)
  | string {s} : IsPosition (.obj [(c!"String", .str s)]) (.string s)

/-- The field must be there. -/
def Required {α : Type} (P : Json → α → Prop) (v : Option Json) (a : α) : Prop := ∃ j, v = some j ∧ P j a

/-- The value of a field. -/
def Get {β : Type} (names : List Str) (j : Json) (name : Str) (P : Option Json → β → Prop) (b : β) : Prop :=
  ∃ v, Field names j name v ∧ P v b

def IsLocation (j : Json) (l : Location) : Prop :=
  let names := [c!"file", c!"location_in_file"]
  Get names j c!"file" (Required IsText) l.file ∧
  Get names j c!"location_in_file" (Optional IsPosition) l.locationInFile

def IsReference (j : Json) (r : Reference) : Prop :=
  let names := [c!"id", c!"title", c!"location"]
  Get names j c!"id" (Required IsText) r.id ∧
  Get names j c!"title" (Optional IsText) r.title ∧
  Get names j c!"location" (Required IsLocation) r.location

def IsRequirement (j : Json) (r : Requirement) : Prop :=
  let names := [c!"id", c!"title", c!"location", c!"covers", c!"depends", c!"tags", c!"attributes"]
  Get names j c!"id" (Required IsText) r.id ∧
  Get names j c!"title" (Optional IsText) r.title ∧
  Get names j c!"location" (Required IsLocation) r.location ∧
  Get names j c!"covers" (Required (IsArray IsReference)) r.covers ∧
  Get names j c!"depends" (Required (IsArray IsReference)) r.depends ∧
  Get names j c!"tags" (Required (IsArray IsText)) r.tags ∧
  Get names j c!"attributes" (Required IsMap) r.attributes

/-- Numbers that fit into a `usize` of 64 bits. -/
def PositionFits : Option LocationInFile → Prop
  | some (.line l) => l ≤ 2 ^ 64 - 1
  | some (.lineAndColumn l c) => l ≤ 2 ^ 64 - 1 ∧ c ≤ 2 ^ 64 - 1
  | _ => True

/-- All numbers of a requirement fit into a `usize` of 64 bits. -/
def RequirementFits (r : Requirement) : Prop :=
  PositionFits r.location.locationInFile ∧ (∀ c ∈ r.covers, PositionFits c.location.locationInFile) ∧
  ∀ d ∈ r.depends, PositionFits d.location.locationInFile

end Reqtrace.Spec.JsonText
