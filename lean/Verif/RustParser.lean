import Verif.Markdown

/-!
# `src/parsers/rust.rs`

`syn` is not modelled: `synParse` stands for `syn::parse_file`, and what it delivers is the part of
the syntax tree that the visitor distinguishes.
-/

namespace Reqtrace

namespace Rs

/-- A token of a macro call (`proc_macro2::TokenTree`): whether it is an identifier, its text
(`to_string()`) and where it starts. -/
structure Tok where
  isIdent : Bool
  text : Str
  line : Nat
  column : Nat
  deriving DecidableEq, Repr

/-- A macro call in expression position (`syn::ExprMacro`): the segments of its path, where the first
of them starts, and its tokens. -/
structure Mac where
  segments : List Str
  line : Nat
  column : Nat
  tokens : List Tok
  deriving DecidableEq, Repr

/-- The items that make a scope (`rust.rs:194-259`). -/
inductive Item where
  | fn (ident : Str)
  | implMethod (ident : Str)
  /-- the type, and the trait with the negative `!` -/
  | impl (type_ : Str) (trait_ : Option (Bool × Str))
  | trait (ident : Str)
  | traitMethod (ident : Str)
  | mod (ident : Str)
  deriving DecidableEq, Repr

/-- A sequence of syntax nodes, each with its parts, in the order in which `syn::visit` visits them.
A macro call other than a coverage mark has no parts that `syn` visits. -/
inductive Forest where
  | nil
  | mac (m : Mac) (rest : Forest)
  /-- an item that makes a scope, and where its name (for `impl` its type) starts -/
  | item (i : Item) (line column : Nat) (inner rest : Forest)
  /-- any other node -/
  | node (inner rest : Forest)
  deriving DecidableEq, Repr

/-- `rust.rs:195`, `:204`, `:213-226`, `:235`, `:244`, `:253`: the text pushed on the scope -/
def Item.symbol : Item → Str
  | .fn ident | .implMethod ident | .trait ident | .traitMethod ident | .mod ident => ident
  | .impl type_ none => type_
  | .impl type_ (some (true, trait_)) => c!"(" ++ type_ ++ c!" as !" ++ trait_ ++ c!")"
  | .impl type_ (some (false, trait_)) => c!"(" ++ type_ ++ c!" as " ++ trait_ ++ c!")"

/-- `rust.rs:57-63`, without the path; vectors used as stacks have their top at the end -/
structure Parser where
  requirements : List Requirement
  errors : List Error
  scope : List Str
  locations : List Location
  deriving DecidableEq, Repr

/-- `rust.rs:97`, `:118`: `starts_with('"') && ends_with('"')` -/
def quoted (s : Str) : Bool := s.head? == some '"' && s.getLast? == some '"'

/-- `rust.rs:99`, `:119`: `replace('"', "")` -/
def unquote (s : Str) : Str := s.filter (· != '"')

/-- `rust.rs:80-153`: id and title, or the error; `debug` is `{:?}` on the tokens -/
def readMac (debug : List Tok → Str) (path : Path) (m : Mac) : Except Error (Str × Option Str) :=
  let macroLocation := Location.newWithLineAndColumn path m.line m.column
  match m.tokens with
  | [] => .error (.format macroLocation c!"requirement_covered!() has no arguments")
  | [t] =>
    if t.isIdent then .ok (t.text, none)
    else if quoted t.text then .ok (unquote t.text, none)
    else .error (.format (.newWithLineAndColumn path t.line t.column)
      c!"requirement_covered!() single argument is not an identifier")
  | [t, _, u] =>
    if t.isIdent then
      if quoted u.text then .ok (t.text, some (unquote u.text))
      else .error (.format (.newWithLineAndColumn path u.line u.column)
        c!"requirement_covered!() 2nd argument is not String")
    else .error (.format (.newWithLineAndColumn path t.line t.column)
      c!"requirement_covered!() 1st argument is not an identifier")
  | tokens => .error (.format macroLocation
      (c!"requirement_covered!() called with more than 2 argument/token " ++ debug tokens))

/-- `rust.rs:154-181`; `Rc::get_mut(last).unwrap()` succeeds because the parser holds the only reference -/
def record (p : Parser) (reference : Reference) : PanicM Parser :=
  let id := joinStr c!"::" p.scope
  match p.requirements.getLast? with
  | some last =>
    if last.id = id then
      .ok { p with requirements := p.requirements.dropLast ++ [{ last with covers := last.covers ++ [reference] }] }
    else do
      let location ← orPanic .rustNoScope p.locations.getLast?
      return { p with requirements := p.requirements ++
        [{ id, location, covers := [reference], depends := [], tags := [], attributes := .empty, title := none }] }
  | none => do
    let location ← orPanic .rustNoScope p.locations.getLast?
    return { p with requirements := p.requirements ++
      [{ id, location, covers := [reference], depends := [], tags := [], attributes := .empty, title := none }] }

/-- `rust.rs:66-184` `parse_macro`: whether the call is a coverage mark -/
def parseMacro (debug : List Tok → Str) (path : Path) (p : Parser) (m : Mac) : PanicM (Bool × Parser) :=
  match m.segments with
  | [seg] =>
    if seg = c!"requirement_covered" then
      match readMac debug path m with
      | .error e => .ok (true, { p with errors := p.errors ++ [e] })
      | .ok (id, title) => do
        let p ← record p ⟨id, title, .newWithLineAndColumn path m.line m.column⟩
        return (true, p)
    else .ok (false, p)
  | _ => .ok (false, p)

/-- `self.scope.push(..); self.locations.push(..)` -/
def push (path : Path) (p : Parser) (i : Item) (line column : Nat) : Parser :=
  { p with scope := p.scope ++ [i.symbol],
           locations := p.locations ++ [.newWithLineAndColumn path line column] }

/-- `self.locations.pop().unwrap(); self.scope.pop().unwrap();` -/
def pop (p : Parser) : PanicM Parser := do
  let _ ← orPanic .rustPop p.locations.getLast?
  let _ ← orPanic .rustPop p.scope.getLast?
  return { p with scope := p.scope.dropLast, locations := p.locations.dropLast }

/-- `rust.rs:187-260`: the visitor -/
def visit (debug : List Tok → Str) (path : Path) : Forest → Parser → PanicM Parser
  | .nil, p => .ok p
  | .mac m rest, p => do
    let (_, p) ← parseMacro debug path p m
    visit debug path rest p
  | .item i line column inner rest, p => do
    let p ← visit debug path inner (push path p i line column)
    let p ← pop p
    visit debug path rest p
  | .node inner rest, p => do
    let p ← visit debug path inner p
    visit debug path rest p

/-- What the parser needs of `syn` and `proc_macro2`: `syn::parse_file` with the position and text of
its error, and `{:?}` of a token list -/
structure Syn where
  parseFile : Str → Except (Nat × Nat × Str) Forest
  debug : List Tok → Str

/-- `rust.rs:19-55` `parse` -/
def parse (syn : Syn) (src : Source) (path : Path) : PanicM (List Requirement × List Error) :=
  match src.failure with
  | some e => .ok ([], [.io path e])
  | none =>
    match syn.parseFile src.text with
    | .error (line, column, e) => .ok ([], [.format (.newWithLineAndColumn path line column) e])
    | .ok file => do
      let p ← visit syn.debug path file ⟨[], [], [], []⟩
      return (p.requirements, p.errors)

end Rs

end Reqtrace
