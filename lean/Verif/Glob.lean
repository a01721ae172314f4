import Verif.Controller

/-!
# Patterns of paths

`controller.rs:42,44` calls `glob::glob` (glob 0.3), which is a parameter of the model (`Os.glob`).  This is how its
patterns are understood; `GlobWorks` says that the library finds, in a given state of the file system, what matches.

Left out (`compile` is `none`, and nothing is assumed): invalid patterns, empty names, `..`, `.` other than in front,
names that begin with a dot and have wildcards, and patterns that end in `**` (they find directories).
-/

namespace Reqtrace

namespace Glob

/-- A part of a name in a pattern (`glob::PatternToken`) -/
inductive Token where
  | char (c : Char)
  | one
  | many
  | within (except : Bool) (ranges : List (Char × Char))
  deriving DecidableEq, Repr

/-- `glob::parse_char_specifiers` -/
def ranges : Str → List (Char × Char)
  | [] => []
  | [a] => [(a, a)]
  | [a, b] => [(a, a), (b, b)]
  | a :: b :: c :: r => if b = '-' then (a, c) :: ranges r else (a, a) :: ranges (b :: c :: r)

/-- The text up to the next closing bracket, and what follows it -/
def bracket : Str → Option (Str × Str)
  | [] => none
  | c :: r => if c = ']' then some ([], r) else do
    let (s, r) ← bracket r
    return (c :: s, r)

/-- The characters in brackets: at least one, which may be a closing bracket -/
def inside (except : Bool) : Str → Option (Token × Str)
  | [] => none
  | c :: r => (bracket r).map fun (s, r) => (.within except (ranges (c :: s)), r)

/-- What follows an opening bracket -/
def charClass (s : Str) : Option (Token × Str) :=
  if s.head? = some '!' then inside true s.tail else inside false s

/-- `glob::Pattern::new`, for one name; `fuel` is a bound for the number of characters. -/
def tokens : (fuel : Nat) → Str → Option (List Token)
  | _, [] => some []
  | 0, _ => none
  | fuel + 1, c :: r =>
    if c = '*' then if r.head? = some '*' then none else (tokens fuel r).map (.many :: ·)
    else if c = '?' then (tokens fuel r).map (.one :: ·)
    else if c = '[' then do
      let (t, r) ← charClass r
      (tokens fuel r).map (t :: ·)
    else (tokens fuel r).map (.char c :: ·)

/-- One character and one token other than `*` -/
def Token.matches (c : Char) : Token → Bool
  | .char d => c == d
  | .one => true
  | .many => false
  | .within except rs => rs.any (fun e => e.1 ≤ c && c ≤ e.2) != except

/-- `glob::Pattern::matches_from`, for one name -/
def matchName : List Token → Str → Bool
  | [], n => n.isEmpty
  | .many :: ts, [] => matchName ts []
  | .many :: ts, c :: n => matchName ts (c :: n) || matchName (.many :: ts) n
  | _ :: _, [] => false
  | t :: ts, c :: n => t.matches c && matchName ts n
  termination_by ts n => ts.length + n.length

/-- A name in a pattern, or `**` -/
inductive Component where
  | recursive
  | name (ts : List Token)

def isWild (c : Char) : Bool := c == '*' || c == '?' || c == '['

def component (s : Str) : Option Component :=
  if s = c!"**" then some .recursive
  else if s = [] ∨ s = c!"." ∨ s = c!".." ∨ (s.head? = some '.' ∧ s.any isWild) then none
  else (tokens s.length s).map .name

def components : List Str → Option (List Component)
  | [] => some []
  | s :: ss => do
    let c ← component s
    let cs ← components ss
    return c :: cs

/-- `**` is not at the end. -/
def endsInName : List Str → Bool
  | [] => false
  | [s] => s != c!"**"
  | _ :: ss => endsInName ss

/-- The names of a pattern.  A leading `.` is dropped, the paths that are found do not have it; the name before a
leading slash is empty. -/
def compile (pattern : Str) : Option (List Component) :=
  let ss := splitOnChar '/' pattern
  if endsInName ss then
    match ss with
    | ['.'] :: s :: ss => components (s :: ss)
    | [] :: s :: ss => (components (s :: ss)).map (.name [] :: ·)
    | ss => components ss
  else none

/-- `**` stands for any number of names. -/
def matchPath : List Component → List Str → Bool
  | [], ns => ns.isEmpty
  | .recursive :: cs, [] => matchPath cs []
  | .recursive :: cs, n :: ns => matchPath cs (n :: ns) || matchPath (.recursive :: cs) ns
  | .name _ :: _, [] => false
  | .name ts :: cs, n :: ns => matchName ts n && matchPath cs ns
  termination_by cs ns => cs.length + ns.length

end Glob

/-- `glob::glob` finds, among the paths that are there, exactly those that match. -/
def Os.GlobWorks (os : Os) (w : World) (there : Path → Prop) : Prop :=
  ∀ pattern cs, Glob.compile pattern = some cs → ∃ fs : List Path, os.glob w pattern = .ok (fs.map .ok) ∧
    ∀ f, f ∈ fs ↔ there f ∧ Glob.matchPath cs (splitOnChar '/' f) = true

end Reqtrace
