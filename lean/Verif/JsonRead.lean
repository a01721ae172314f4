import Verif.Json
import Verif.Location
import Verif.Markdown

/-!
# Reading JSON: `serde_json::from_reader` and the derived `Deserialize` of `src/models.rs`

`serde_json` reads the text and builds the requirements in one go.  The model first reads a value (RFC 8259) and
then builds the requirements from it.  The differences are in which of several errors is reported (the text of errors
is a parameter), and in the values of unknown members, in which `serde_json` does not look at unpaired surrogates.
-/

namespace Reqtrace

namespace JsonRead

/-- `serde_json::de::Deserializer::parse_whitespace` -/
def isWs (c : Char) : Bool := c == ' ' || c == '\n' || c == '\t' || c == '\r'

def skipWs (s : Str) : Str := s.dropWhile isWs

/-- The value of a hexadecimal digit -/
def hexValue (c : Char) : Option Nat :=
  if c.isDigit then some (c.toNat - 48)
  else if 'a' ≤ c ∧ c ≤ 'f' then some (c.toNat - 87)
  else if 'A' ≤ c ∧ c ≤ 'F' then some (c.toNat - 55)
  else none

/-- Four hexadecimal digits -/
def hex4 : Str → Option (Nat × Str)
  | a :: b :: c :: d :: r => do
    let a ← hexValue a
    let b ← hexValue b
    let c ← hexValue c
    let d ← hexValue d
    return (4096 * a + 256 * b + 16 * c + d, r)
  | _ => none

/-- `serde_json::read::parse_escape`, after the backslash -/
def escaped : Str → Option (Char × Str)
  | '"' :: r => some ('"', r)
  | '\\' :: r => some ('\\', r)
  | '/' :: r => some ('/', r)
  | 'b' :: r => some (Char.ofNat 8, r)
  | 'f' :: r => some (Char.ofNat 12, r)
  | 'n' :: r => some (Char.ofNat 10, r)
  | 'r' :: r => some (Char.ofNat 13, r)
  | 't' :: r => some (Char.ofNat 9, r)
  | 'u' :: r => do
    let (n, r) ← hex4 r
    if 0xD800 ≤ n ∧ n ≤ 0xDBFF then
      match r with
      | '\\' :: 'u' :: r => do
        let (m, r) ← hex4 r
        if 0xDC00 ≤ m ∧ m ≤ 0xDFFF then
          return (Char.ofNat (0x10000 + (n - 0xD800) * 0x400 + (m - 0xDC00)), r)
        else none
      | _ => none
    else if 0xDC00 ≤ n ∧ n ≤ 0xDFFF then none
    else return (Char.ofNat n, r)
  | _ => none

/-- The rest of a string literal, after the opening quote.  `fuel` is a bound for the number of characters. -/
def string : Nat → Str → Option (Str × Str)
  | 0, _ => none
  | _ + 1, [] => none
  | fuel + 1, c :: r =>
    if c = '"' then some ([], r)
    else if c = '\\' then do
      let (d, r) ← escaped r
      let (t, r) ← string fuel r
      return (d :: t, r)
    else if c.toNat < 32 then none
    else do
      let (t, r) ← string fuel r
      return (c :: t, r)

/-- An optional fraction -/
def fraction : Str → Option (Str × Str)
  | '.' :: r =>
    if r.takeWhile Char.isDigit = [] then none
    else some ('.' :: r.takeWhile Char.isDigit, r.dropWhile Char.isDigit)
  | r => some ([], r)

/-- The digits of an exponent -/
def exponentDigits (pre : Str) (r : Str) : Option (Str × Str) :=
  if r.takeWhile Char.isDigit = [] then none
  else some (pre ++ r.takeWhile Char.isDigit, r.dropWhile Char.isDigit)

/-- An optional exponent -/
def exponent : Str → Option (Str × Str)
  | c :: r =>
    if c = 'e' ∨ c = 'E' then
      match r with
      | '+' :: r => exponentDigits [c, '+'] r
      | '-' :: r => exponentDigits [c, '-'] r
      | r => exponentDigits [c] r
    else some ([], c :: r)
  | [] => some ([], [])

/-- An optional minus -/
def minus : Str → Str × Str
  | '-' :: r => (c!"-", r)
  | r => ([], r)

/-- A number -/
def number (s : Str) : Option (Json × Str) := do
  let (sign, s) := minus s
  let ds := s.takeWhile Char.isDigit
  if ds = [] ∨ (ds.head? = some '0' ∧ ds ≠ c!"0") then none
  else
    let (f, r) ← fraction (s.dropWhile Char.isDigit)
    let (e, r) ← exponent r
    if sign = [] ∧ f = [] ∧ e = [] then return (.num (Nat.ofDigitChars 10 ds 0), r)
    else return (.real (sign ++ ds ++ f ++ e), r)

mutual
/-- A value.  `fuel` is a bound for the number of characters. -/
def value : Nat → Str → Option (Json × Str)
  | 0, _ => none
  | fuel + 1, s =>
    match skipWs s with
    | '"' :: r => do
      let (t, r) ← string (r.length + 1) r
      return (.str t, r)
    | '[' :: r =>
      match skipWs r with
      | ']' :: r => some (.arr [], r)
      | r => do
        let (vs, r) ← items fuel r
        return (.arr vs, r)
    | '{' :: r =>
      match skipWs r with
      | '}' :: r => some (.obj [], r)
      | r => do
        let (ms, r) ← members fuel r
        return (.obj ms, r)
    | 'n' :: 'u' :: 'l' :: 'l' :: r => some (.null, r)
    | 't' :: 'r' :: 'u' :: 'e' :: r => some (.bool true, r)
    | 'f' :: 'a' :: 'l' :: 's' :: 'e' :: r => some (.bool false, r)
    | r => number r
/-- One or more items of an array and the closing bracket -/
def items : Nat → Str → Option (List Json × Str)
  | 0, _ => none
  | fuel + 1, s => do
    let (v, r) ← value fuel s
    match skipWs r with
    | ']' :: r => return ([v], r)
    | ',' :: r => do
      let (vs, r) ← items fuel r
      return (v :: vs, r)
    | _ => none
/-- One or more members of an object and the closing brace -/
def members : Nat → Str → Option (List (Str × Json) × Str)
  | 0, _ => none
  | fuel + 1, s =>
    match skipWs s with
    | '"' :: r => do
      let (k, r) ← string (r.length + 1) r
      match skipWs r with
      | ':' :: r => do
        let (v, r) ← value fuel r
        match skipWs r with
        | '}' :: r => return ([(k, v)], r)
        | ',' :: r => do
          let (ms, r) ← members fuel r
          return ((k, v) :: ms, r)
        | _ => none
      | _ => none
    | _ => none
end

/-- A whole text: a value, and nothing after it -/
def document (s : Str) : Option Json := do
  let (v, r) ← value (s.length + 1) s
  if skipWs r = [] then return v else none

/-! ## Derived `Deserialize` -/

/-- `String`, `PathBuf` and the id types -/
def toStr : Json → Option Str
  | .str s => some s
  | _ => none

/-- `usize` -/
def toUsize : Json → Option Nat
  | .num n => if n ≤ usizeMax then some n else none
  | _ => none

/-- `Option<T>` as a member: `null` or missing is `None` -/
def toOpt {α : Type} (f : Json → Option α) : Option Json → Option (Option α)
  | none => some none
  | some .null => some none
  | some v => (f v).map some

/-- A member that must be there -/
def required {α : Type} (f : Json → Option α) (v : Option Json) : Option α := v.bind f

/-- All values, or none -/
def all {α : Type} (f : Json → Option α) : List Json → Option (List α)
  | [] => some []
  | v :: vs => do
    let a ← f v
    let as ← all f vs
    return a :: as

/-- `Vec<T>` -/
def toVec {α : Type} (f : Json → Option α) : Json → Option (List α)
  | .arr vs => all f vs
  | _ => none

/-- `BTreeMap<String, String>`: of equal keys, the last one counts -/
def toMap : Json → Option (BMap Str Str)
  | .obj ms => do
    let vs ← all toStr (ms.map Prod.snd)
    return BMap.ofList ((ms.map Prod.fst).zip vs)
  | _ => none

/-- The members of a struct with the given fields: from an object, where a field may occur once and others are
ignored, or from an array of exactly the fields. -/
def fields (names : List Str) : Json → Option (Str → Option Json)
  | .obj ms =>
    if names.all (fun n => ((ms.map Prod.fst).filter (· == n)).length ≤ 1) then some (fun n => ms.lookup n) else none
  | .arr vs => if vs.length = names.length then some (fun n => (names.zip vs).lookup n) else none
  | _ => none

/-- `models.rs:113-118`: an enum is an object with one member -/
def toLocationInFile : Json → Option LocationInFile
  | .obj [(k, v)] =>
    if k = c!"Line" then (toUsize v).map .line
    else if k = c!"LineAndColumn" then
      match v with
      | .arr [l, c] => do return .lineAndColumn (← toUsize l) (← toUsize c)
      | _ => none
    else if k = c!"String" then (toStr v).map .string
    else none
  | _ => none

/-- `models.rs:157-161` -/
def toLocation (v : Json) : Option Location := do
  let f ← fields [c!"file", c!"location_in_file"] v
  return { file := ← required toStr (f c!"file")
           locationInFile := ← toOpt toLocationInFile (f c!"location_in_file") }

/-- `models.rs:232-237` -/
def toReference (v : Json) : Option Reference := do
  let f ← fields [c!"id", c!"title", c!"location"] v
  return { id := ← required toStr (f c!"id")
           title := ← toOpt toStr (f c!"title")
           location := ← required toLocation (f c!"location") }

/-- `models.rs:239-248` -/
def toRequirement (v : Json) : Option Requirement := do
  let f ← fields [c!"id", c!"title", c!"location", c!"covers", c!"depends", c!"tags", c!"attributes"] v
  return { id := ← required toStr (f c!"id")
           title := ← toOpt toStr (f c!"title")
           location := ← required toLocation (f c!"location")
           covers := ← required (toVec toReference) (f c!"covers")
           depends := ← required (toVec toReference) (f c!"depends")
           tags := ← required (toVec toStr) (f c!"tags")
           attributes := ← required toMap (f c!"attributes") }

/-- `controller.rs:83` `serde_json::from_reader(r)` for `Vec<Rc<Requirement>>`; `errText` is the text of the
error -/
def fromReader (errText : Str) (src : Source) : Except Str (List Requirement) :=
  match src.failure with
  | some _ => .error errText
  | none =>
    match (document src.text).bind (toVec toRequirement) with
    | some reqs => .ok reqs
    | none => .error errText

end JsonRead

end Reqtrace
