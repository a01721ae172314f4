import Verif.Controller

/-!
# The text of a configuration file

`main.rs:63` reads the file with `toml::from_slice` (toml 0.5), which is a parameter of the model (`Env.tomlTree`).  This
is a reader for the part of TOML that a configuration needs: comments; names that are bare or in quotes; texts in double
or single quotes on one line; numbers, `true` and `false`; lists of texts, over several lines if need be; tables with
texts in one line; `[name]`, `[name.name]` and `[[name]]`.  What it refuses may be TOML nevertheless; `ReadsToml` says
that the library gives the same result for what it accepts.
-/

namespace Reqtrace

namespace Toml

/-- White space within a line -/
def isBlank (c : Char) : Bool := c == ' ' || c == '\t'

def skip (s : Str) : Str := s.dropWhile isBlank

/-- A character of a bare name -/
def isBare (c : Char) : Bool := c.isAlphanum || c == '_' || c == '-'

/-- A character that may stand for itself in a text or a comment -/
def isPlain (c : Char) : Bool := 32 ≤ c.toNat && c.toNat != 127

/-- The rest of a line: nothing but white space and perhaps a comment; `comment` says whether it has begun. -/
def lineEnd : (comment : Bool) → Str → Option Str
  | _, [] => some []
  | comment, c :: r =>
    if c = '\n' then some r
    else if c = '\r' then if r.head? = some '\n' then some r.tail else none
    else if comment then if isPlain c || c == '\t' then lineEnd true r else none
    else if isBlank c then lineEnd false r
    else if c = '#' then lineEnd true r
    else none

/-- Between the elements of a list: white space, ends of lines and comments -/
def gap : (comment : Bool) → Str → Str
  | _, [] => []
  | comment, c :: r =>
    if c = '\n' then gap false r
    else if c = '\r' && r.head? == some '\n' then gap false r
    else if comment then if isPlain c || c == '\t' then gap true r else c :: r
    else if isBlank c then gap false r
    else if c = '#' then gap true r
    else c :: r

/-- After a backslash -/
def escaped : Str → Option (Char × Str)
  | '"' :: r => some ('"', r)
  | '\\' :: r => some ('\\', r)
  | 'b' :: r => some (Char.ofNat 8, r)
  | 't' :: r => some ('\t', r)
  | 'n' :: r => some ('\n', r)
  | 'f' :: r => some (Char.ofNat 12, r)
  | 'r' :: r => some ('\r', r)
  | 'u' :: r => do
    let (n, r) ← JsonRead.hex4 r
    if 0xD800 ≤ n ∧ n ≤ 0xDFFF then none else return (Char.ofNat n, r)
  | _ => none

/-- The rest of a text in double quotes; `fuel` is a bound for the number of characters. -/
def basic : (fuel : Nat) → Str → Option (Str × Str)
  | 0, _ => none
  | _ + 1, [] => none
  | fuel + 1, c :: r =>
    if c = '"' then some ([], r)
    else if c = '\\' then do
      let (d, r) ← escaped r
      let (t, r) ← basic fuel r
      return (d :: t, r)
    else if isPlain c then do
      let (t, r) ← basic fuel r
      return (c :: t, r)
    else none

/-- The rest of a text in single quotes -/
def literal : Str → Option (Str × Str)
  | [] => none
  | c :: r =>
    if c = '\'' then some ([], r)
    else if isPlain c then do
      let (t, r) ← literal r
      return (c :: t, r)
    else none

/-- A text -/
def string : Str → Option (Str × Str)
  | '"' :: r => basic (r.length + 1) r
  | '\'' :: r => literal r
  | _ => none

/-- A name; empty names are left out -/
def key (s : Str) : Option (Str × Str) :=
  match s with
  | '"' :: _ | '\'' :: _ => do
    let (k, r) ← string s
    if k = [] then none else return (k, r)
  | s =>
    let k := s.takeWhile isBare
    if k = [] then none else some (k, s.dropWhile isBare)

/-- The elements of a list and the closing bracket -/
def strings : (fuel : Nat) → Str → Option (List Str × Str)
  | 0, _ => none
  | fuel + 1, s =>
    match gap false s with
    | ']' :: r => some ([], r)
    | s => do
      let (t, r) ← string s
      match gap false r with
      | ']' :: r => return ([t], r)
      | ',' :: r => do
        let (ts, r) ← strings fuel r
        return (t :: ts, r)
      | _ => none

/-- The entries of a table in one line and the closing brace -/
def entries : (fuel : Nat) → Str → Option (List (Str × Str) × Str)
  | 0, _ => none
  | fuel + 1, s => do
    let (k, r) ← key (skip s)
    match skip r with
    | '=' :: r => do
      let (t, r) ← string (skip r)
      match skip r with
      | '}' :: r => return ([(k, t)], r)
      | ',' :: r => do
        let (es, r) ← entries fuel r
        return ((k, t) :: es, r)
      | _ => none
    | _ => none

/-- A number without sign that fits into 63 bits -/
def number (s : Str) : Option (Json × Str) :=
  let ds := s.takeWhile Char.isDigit
  if ds = [] ∨ (ds.head? = some '0' ∧ ds ≠ c!"0") then none
  else
    let n := Nat.ofDigitChars 10 ds 0
    if n < 2 ^ 63 then some (.num n, s.dropWhile Char.isDigit) else none

/-- A value -/
def value (s : Str) : Option (Json × Str) :=
  match s with
  | '[' :: r => do
    let (ts, r) ← strings (r.length + 1) r
    return (.arr (ts.map .str), r)
  | '{' :: r =>
    match skip r with
    | '}' :: r => some (.obj [], r)
    | _ => do
      let (es, r) ← entries (r.length + 1) r
      if (es.map Prod.fst).Nodup then return (.obj (es.map fun e => (e.1, .str e.2)), r) else none
  | 't' :: 'r' :: 'u' :: 'e' :: r => some (.bool true, r)
  | 'f' :: 'a' :: 'l' :: 's' :: 'e' :: r => some (.bool false, r)
  | '"' :: _ | '\'' :: _ => do
    let (t, r) ← string s
    return (.str t, r)
  | s => number s

/-- The heading of a table -/
inductive Header where
  /-- `[name]` -/
  | table (k : Str)
  /-- `[name.name]` -/
  | sub (k l : Str)
  /-- `[[name]]` -/
  | element (k : Str)
  deriving DecidableEq, Repr

/-- A line that says something -/
inductive Stmt where
  | header (h : Header)
  | pair (k : Str) (v : Json)

/-- The name, or the two names, in a heading, after the first bracket -/
def header (s : Str) : Option (Header × Str) :=
  match s with
  | '[' :: r => do
    let (k, r) ← key (skip r)
    match skip r with
    | ']' :: ']' :: r => return (.element k, r)
    | _ => none
  | r => do
    let (k, r) ← key (skip r)
    match skip r with
    | ']' :: r => return (.table k, r)
    | '.' :: r => do
      let (l, r) ← key (skip r)
      match skip r with
      | ']' :: r => return (.sub k l, r)
      | _ => none
    | _ => none

/-- What a line says, if anything, and what follows it -/
def statement (s : Str) : Option (Option Stmt × Str) :=
  match lineEnd false s with
  | some r => some (none, r)
  | none =>
    match skip s with
    | '[' :: r => do
      let (h, r) ← header r
      let r ← lineEnd false r
      return (some (.header h), r)
    | s => do
      let (k, r) ← key s
      match skip r with
      | '=' :: r => do
        let (v, r) ← value (skip r)
        let r ← lineEnd false r
        return (some (.pair k v), r)
      | _ => none

/-- All lines; `fuel` is a bound for the number of characters. -/
def statements : (fuel : Nat) → Str → Option (List Stmt)
  | _, [] => some []
  | 0, _ => none
  | fuel + 1, s => do
    let (st, r) ← statement s
    let sts ← statements fuel r
    return match st with
      | none => sts
      | some st => st :: sts

/-- The entries before the first heading, and those below each heading -/
def groups : List Stmt → List (Str × Json) × List (Header × List (Str × Json))
  | [] => ([], [])
  | .pair k v :: sts => ((k, v) :: (groups sts).1, (groups sts).2)
  | .header h :: sts => ([], (h, (groups sts).1) :: (groups sts).2)

/-- The value of a name of the document -/
inductive Node where
  | value (v : Json)
  | tables (l : List Json)
  | subs (l : List (Str × Json))

def Node.json : Node → Json
  | .value v => v
  | .tables l => .arr l
  | .subs l => .obj l

/-- Changes the value of a name, or adds it at the end -/
def update (k : Str) (f : Option Node → Option Node) : List (Str × Node) → Option (List (Str × Node))
  | [] => (f none).map fun n => [(k, n)]
  | (k', n) :: ns =>
    if k' = k then (f (some n)).map fun n => (k', n) :: ns
    else (update k f ns).map ((k', n) :: ·)

/-- Adds what stands below a heading.  A table that is already there is refused. -/
def place (ns : List (Str × Node)) : Header × List (Str × Json) → Option (List (Str × Node))
  | (.table k, es) => update k (fun
      | none => some (.value (.obj es))
      | some _ => none) ns
  | (.sub k l, es) => update k (fun
      | none => some (.subs [(l, .obj es)])
      | some (.subs ss) => if l ∈ ss.map Prod.fst then none else some (.subs (ss ++ [(l, .obj es)]))
      | some _ => none) ns
  | (.element k, es) => update k (fun
      | none => some (.tables [.obj es])
      | some (.tables l) => some (.tables (l ++ [.obj es]))
      | some _ => none) ns

/-- One heading after the other -/
def placeAll : List (Str × Node) → List (Header × List (Str × Json)) → Option (List (Str × Node))
  | ns, [] => some ns
  | ns, g :: gs => do placeAll (← place ns g) gs

/-- The tree of a document -/
def read (s : Str) : Option Json := do
  let sts ← statements (s.length + 1) s
  let (es, gs) := groups sts
  if (es.map Prod.fst).Nodup ∧ ∀ g ∈ gs, (g.2.map Prod.fst).Nodup then
    let ns ← placeAll (es.map fun e => (e.1, .value e.2)) gs
    return .obj (ns.map fun n => (n.1, n.2.json))
  else none

end Toml

/-- `toml::from_slice` understands at least what is read above. -/
def Env.ReadsToml (env : Env) : Prop :=
  ∀ t j, Toml.read t = some j → env.tomlTree (Utf8.encode t) = .ok j

end Reqtrace
