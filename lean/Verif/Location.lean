import Verif.Models
import Verif.Regex

/-!
# `src/models.rs`: reading a location
-/

namespace Reqtrace

/-- `models.rs:163-165` `LOCATION_RE`:
`^(?P<file>.+?)(?::(?P<line>\d+))?(?::(?P<column>\d+))?$`, with `file`, `line`, `column` as groups
1, 2, 3 -/
def locationRe (U : Unicode) : Re :=
  .bol ⬝ .grp 1 (.plus false .dot) ⬝
    .opt (.chr ':' ⬝ .grp 2 (.plus true (.cls U.digit))) ⬝
    .opt (.chr ':' ⬝ .grp 3 (.plus true (.cls U.digit))) ⬝ .eol

/-- `usize::MAX` on a 64 bit platform -/
def usizeMax : Nat := 2 ^ 64 - 1

/-- The loop of `<usize as FromStr>::from_str`: the first character that is no digit or makes the number too large
ends it -/
def readDigits : Nat → Str → Except Str Nat
  | n, [] => .ok n
  | n, c :: t =>
    if c.isDigit then
      if n * 10 + (c.toNat - '0'.toNat) ≤ usizeMax then readDigits (n * 10 + (c.toNat - '0'.toNat)) t
      else .error c!"number too large to fit in target type"
    else .error c!"invalid digit found in string"

/-- `<usize as FromStr>::from_str`: an optional `+`, then ASCII digits; the error is its `Display`
text -/
def parseUsize (s : Str) : Except Str Nat :=
  if s = [] then .error c!"cannot parse integer from empty string"
  else
    match s with
    | '+' :: c :: t => readDigits 0 (c :: t)
    | _ => readDigits 0 s

/-- `models.rs:199-201`, `:204-206`: parse a captured number, with context for the error -/
def parseField (what : Str) (s : Str) : Except Str Nat :=
  match parseUsize s with
  | .ok n => .ok n
  | .error e => .error (c!"Error parsing " ++ what ++ c!" " ++ s ++ c!": " ++ e)

/-- `models.rs:197-213`: the position, from the groups `line` and `column` -/
def parsePos (line column : Option Str) : Except Str (Option LocationInFile) :=
  match line with
  | some line => do
    let l ← parseField c!"line" line
    match column with
    | some column => do
      let c ← parseField c!"column" column
      return some (.lineAndColumn l c)
    | none => return some (.line l)
  | none => return none

/-- `models.rs:193-219` `Location::parse`; the outer level is the panic of `caps["file"]` -/
def Location.parse (U : Unicode) (location : Str) : PanicM (Except Str Location) :=
  match (locationRe U).captures location with
  | none => return .error c!"Invalid Location"
  | some caps => do
    let file ← caps.idx 1
    return (parsePos (caps.get 2) (caps.get 3)).map (fun pos => ⟨file, pos⟩)

end Reqtrace
