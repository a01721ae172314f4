import Verif.RustParser

/-!
# Rust code as text

`syn::parse_file` (`rust.rs:31`) is a parameter of the model (`Syn.parseFile`).  This is a reader for a part of Rust:
modules, functions, methods, traits and `impl` blocks, with attributes, documentation and visibility, `use`, `const`,
`static`, `type`, structs with fields or none and enums without values; functions have parameters for types, and
parameters and results of types with at most one argument; in their bodies macro calls, also with paths, calls, also of methods, `let`, assignments, `return`, `break`, `continue`, blocks, `if` (without `else`), `while`, `for`,
`loop` and `unsafe`, and a value or macro call at the end; words of ASCII letters, string literals without escapes, whole
numbers, white space and comments between the tokens.  It delivers the tree that `Syn` describes, with the positions of
`proc_macro2`: lines from 1, columns from 0.
-/

namespace Reqtrace

namespace RustText

open Rs

/-- What a token is: a word, a literal (a string with its quotes, or a number), one of the other characters, two of them
that belong together, or a line of documentation after its three slashes -/
inductive Kind where
  | word (s : Str)
  | text (s : Str)
  | sign (c : Char)
  | joint (s : Str)
  | doc (s : Str)
  deriving DecidableEq, Repr

/-- A token and where it starts -/
structure Token where
  kind : Kind
  line : Nat
  column : Nat
  deriving DecidableEq, Repr

/-! ## Tokens -/

def isStart (c : Char) : Bool := c.isAlpha || c == '_'
def isPart (c : Char) : Bool := c.isAlphanum || c == '_'
def isSign (c : Char) : Bool := c ∈ c!"!;,(){}#[]:=&.<>"

/-- The position after a character -/
def move (p : Nat × Nat) (c : Char) : Nat × Nat := if c = '\n' then (p.1 + 1, 0) else (p.1, p.2 + 1)

/-- The rest of a block comment, with its end, and what follows; comments in it are not supported. -/
def blockComment : Str → Option (Str × Str)
  | [] => none
  | c :: r =>
    if c = '*' ∧ r.head? = some '/' then some (c!"*/", r.tail)
    else if c = '\r' ∨ (c = '/' ∧ r.head? = some '*') then none
    else (blockComment r).map fun (s, r) => (c :: s, r)

/-- A comment after its first slash, and what follows -/
def comment : Str → Option (Str × Str)
  | [] => none
  | c :: r =>
    if c = '/' then
      if r.head? = some '/' ∨ r.head? = some '!' ∨ '\r' ∈ r.takeWhile (· != '\n') then none
      else some (c :: r.takeWhile (· != '\n'), r.dropWhile (· != '\n'))
    else if c = '*' then
      if r.head? = some '*' ∨ r.head? = some '!' then none
      else (blockComment r).map fun (s, r) => (c :: s, r)
    else none

/-- The rest of a string literal, with its end, and what follows -/
def literal : Str → Option (Str × Str)
  | [] => none
  | c :: r =>
    if c = '"' then some ([c], r)
    else if c = '\\' ∨ c = '\r' then none
    else (literal r).map fun (s, r) => (c :: s, r)

/-- The next character is one of a word. -/
def wordGoesOn (s : Str) : Bool := match s with
  | [] => false
  | c :: _ => isPart c

/-- The next character would be one of a literal: a suffix, or the point of a number. -/
def textGoesOn (s : Str) : Bool := wordGoesOn s || s.head? == some '.'

/-- The text of a line of documentation after its first slash, and what follows -/
def documentation : Str → Option (Str × Str)
  | '/' :: '/' :: r =>
    if r.head? = some '/' then none else some (r.takeWhile (· != '\n'), r.dropWhile (· != '\n'))
  | _ => none

/-- The tokens of a text that starts at a position; `fuel` is a bound for the number of characters. -/
def lex : (fuel : Nat) → Nat × Nat → Str → Option (List Token)
  | _, _, [] => some []
  | 0, _, _ => none
  | fuel + 1, p, c :: r =>
    if c = ' ' ∨ c = '\t' ∨ c = '\n' then lex fuel (move p c) r
    else if c = '/' then
      match documentation r with
      | some (s, r) =>
        if '\r' ∈ s then none
        else (lex fuel ((c!"//" ++ s).foldl move (move p c)) r).map (⟨.doc s, p.1, p.2⟩ :: ·)
      | none => do
        let (s, r) ← comment r
        lex fuel (s.foldl move (move p c)) r
    else if c = '"' then do
      let (s, r) ← literal r
      if textGoesOn r then none
      else (lex fuel (s.foldl move (move p c)) r).map (⟨.text (c :: s), p.1, p.2⟩ :: ·)
    else if isStart c then
      let s := r.takeWhile isPart
      let r := r.dropWhile isPart
      if c :: s = c!"_" ∨ r.head? = some '"' ∨ r.head? = some '#' then none
      else (lex fuel (s.foldl move (move p c)) r).map (⟨.word (c :: s), p.1, p.2⟩ :: ·)
    else if c.isDigit then
      let s := r.takeWhile Char.isDigit
      let r := r.dropWhile Char.isDigit
      if textGoesOn r then none
      else (lex fuel (s.foldl move (move p c)) r).map (⟨.text (c :: s), p.1, p.2⟩ :: ·)
    else if c = ':' ∧ r.head? = some ':' then
      (lex fuel (move (move p c) ':') r.tail).map (⟨.joint c!"::", p.1, p.2⟩ :: ·)
    else if c = '-' ∧ r.head? = some '>' then
      (lex fuel (move (move p c) '>') r.tail).map (⟨.joint c!"->", p.1, p.2⟩ :: ·)
    else if isSign c then (lex fuel (move p c) r).map (⟨.sign c, p.1, p.2⟩ :: ·)
    else none

/-! ## The tree -/

def keywords : List Str := [c!"abstract", c!"as", c!"async", c!"await", c!"become", c!"box", c!"break", c!"const",
  c!"continue", c!"crate", c!"do", c!"dyn", c!"else", c!"enum", c!"extern", c!"false", c!"final", c!"fn", c!"for", c!"if",
  c!"impl", c!"in", c!"let", c!"loop", c!"macro", c!"match", c!"mod", c!"move", c!"mut", c!"override", c!"priv", c!"pub",
  c!"ref", c!"return", c!"self", c!"Self", c!"static", c!"struct", c!"super", c!"trait", c!"true", c!"try", c!"type",
  c!"typeof", c!"unsafe", c!"unsized", c!"use", c!"virtual", c!"where", c!"while", c!"yield"]

/-! ### Names, types and expressions -/

def isName (s : Str) : Bool := s ∉ keywords

/-- Names with `::` between them -/
def isPath : List Kind → Bool
  | [.word s] => isName s
  | .word s :: .joint d :: ks => isName s && d == c!"::" && isPath ks
  | _ => false

def withoutReference : List Kind → List Kind
  | .sign '&' :: ks => ks
  | ks => ks

/-- A type: a path, possibly with another type as its argument, or a reference to this; `fuel` is a bound for the depth. -/
def isTypeWithin : (fuel : Nat) → List Kind → Bool
  | 0, _ => false
  | fuel + 1, ks =>
    isPath ((withoutReference ks).takeWhile (· != .sign '<')) &&
      match (withoutReference ks).dropWhile (· != .sign '<') with
      | [] => true
      | _ :: ls => ls.getLast? == some (.sign '>') && isTypeWithin fuel ls.dropLast

def isType (ks : List Kind) : Bool := isTypeWithin (ks.length + 1) ks

/-- `.name` any number of times -/
def isFields : List Kind → Bool
  | [] => true
  | .sign '.' :: .word s :: ks => isName s && isFields ks
  | _ => false

/-- A path or `self`, and fields of it -/
def isChain (ks : List Kind) : Bool :=
  (isPath (ks.takeWhile (· != .sign '.')) || ks.takeWhile (· != .sign '.') == [.word c!"self"]) &&
    isFields (ks.dropWhile (· != .sign '.'))

def isAtom : List Kind → Bool
  | [.text _] => true
  | .sign '&' :: ks => isChain ks
  | ks => isChain ks

def isComma (k : Kind) : Bool := k == .sign ','

/-- One or more with commas between them; `fuel` is a bound for their number. -/
def separated (p : List Kind → Bool) : (fuel : Nat) → List Kind → Bool
  | 0, _ => false
  | fuel + 1, ks =>
    p (ks.takeWhile fun k => !isComma k) &&
      match ks.dropWhile fun k => !isComma k with
      | [] => true
      | _ :: ks => separated p fuel ks

/-- None, or some with commas between them -/
def listed (p : List Kind → Bool) (ks : List Kind) : Bool := ks.isEmpty || separated p (ks.length + 1) ks

/-- `path(values)`, `self.name(values)` and so on -/
def isCall (ks : List Kind) : Bool :=
  isChain (ks.takeWhile (· != .sign '(')) &&
    match ks.dropWhile (· != .sign '(') with
    | [] => false
    | _ :: ks => listed isAtom (ks.takeWhile (· != .sign ')')) && ks.dropWhile (· != .sign ')') == [.sign ')']

def isExpression (ks : List Kind) : Bool := isAtom ks || isCall ks

/-- A parameter: `name: Type` -/
def isParameter : List Kind → Bool
  | .word s :: .sign ':' :: ks => isName s && isType ks
  | _ => false

/-- A field of a struct, possibly public -/
def isField : List Kind → Bool
  | .word s :: ks => isParameter (if s = c!"pub" then ks else .word s :: ks)
  | _ => false

/-- A parameter for a type, possibly with what the type must be -/
def isGeneric : List Kind → Bool
  | [.word s] => isName s
  | .word s :: .sign ':' :: ks => isName s && isPath ks
  | _ => false

/-- The parameters for types of a function, in `<` and `>`, if there are some -/
def isGenerics : List Kind → Bool
  | [] => true
  | .sign '<' :: ks => ks.getLast? == some (.sign '>') && separated isGeneric (ks.length + 1) ks.dropLast
  | _ => false

/-- A variant of an enum -/
def isVariant : List Kind → Bool
  | [.word s] => isName s
  | _ => false

/-- A list of these, a comma can stand at the end -/
def isMembers (p : List Kind → Bool) (ks : List Kind) : Bool :=
  listed p ks || (ks.getLast? == some (.sign ',') && separated p (ks.length + 1) ks.dropLast)

/-- A struct with fields or an enum, without the closing brace -/
def isRecord : List Kind → Bool
  | .word w :: .word s :: .sign '{' :: ks =>
    isName s && ((w == c!"struct" && isMembers isField ks) || (w == c!"enum" && isMembers isVariant ks))
  | _ => false

def isReceiver (ks : List Kind) : Bool :=
  ks ∈ [[.word c!"self"], [.sign '&', .word c!"self"], [.sign '&', .word c!"mut", .word c!"self"]]

/-- The result: nothing, or `-> Type` -/
def isResult : List Kind → Bool
  | [] => true
  | .joint d :: ks => d == c!"->" && isType ks
  | _ => false

/-- Something up to the first `=`, and then a value -/
def isAssigned (p : List Kind → Bool) (ks : List Kind) : Bool :=
  p (ks.takeWhile (· != .sign '=')) &&
    match ks.dropWhile (· != .sign '=') with
    | [] => false
    | _ :: ks => isExpression ks

/-- What follows the name after `let`: `= value` or `: Type = value` -/
def isValued : List Kind → Bool
  | .sign '=' :: ks => isExpression ks
  | .sign ':' :: ks => isAssigned isType ks
  | _ => false

/-- What follows `let`: the name, possibly after `mut`, and the value -/
def isBinding : List Kind → Bool
  | .word m :: .word n :: ks => m == c!"mut" && isName n && isValued ks
  | .word n :: ks => isName n && isValued ks
  | _ => false

/-- What can stand in a body, without the semicolon: `let …`, `return`, `return value`, `break`, `continue`,
`path(values)`, `path = value`, also of fields -/
def isPlain : List Kind → Bool
  | .word s :: ks =>
    if s = c!"let" then isBinding ks
    else if s = c!"return" then ks.isEmpty || isExpression ks
    else if s = c!"break" ∨ s = c!"continue" then ks.isEmpty
    else isCall (.word s :: ks) || isAssigned isChain (.word s :: ks)
  | _ => false

/-- A path, possibly from `crate`, `self` or `super` -/
def isRooted : List Kind → Bool
  | .word s :: .joint d :: ks =>
    if s ∈ [c!"crate", c!"self", c!"super"] then d == c!"::" && isPath ks else isPath (.word s :: .joint d :: ks)
  | ks => isPath ks

/-- What is used, possibly under another name -/
def isUse (ks : List Kind) : Bool :=
  isRooted ks || (isRooted ks.dropLast.dropLast && ks.dropLast.getLast? == some (.word c!"as") &&
    match ks.getLast? with
    | some (.word s) => isName s
    | _ => false)

/-- `use …`, `struct Name`, `const NAME: Type = value`, `static NAME: Type = value` and `type Name = Type`, without the
semicolon -/
def isDeclaration : List Kind → Bool
  | .word s :: ks => (s == c!"use" && isUse ks) ||
    (s == c!"struct" && match ks with
      | [.word n] => isName n
      | _ => false) ||
    ((s == c!"const" || s == c!"static") && match ks with
      | .word n :: .sign ':' :: ks => isName n && isAssigned isType ks
      | _ => false) ||
    (s == c!"type" && match ks with
      | .word n :: .sign '=' :: ks => isName n && isType ks
      | _ => false)
  | _ => false

/-- What stands before a block: nothing, `loop`, `unsafe`, `if value`, `while value` or `for name in value` -/
def isBlock : List Kind → Bool
  | [] => true
  | .word s :: ks => ((s == c!"loop" || s == c!"unsafe") && ks.isEmpty) ||
    ((s == c!"if" || s == c!"while") && isExpression ks) ||
    (s == c!"for" && match ks with
      | .word n :: .word i :: ks => isName n && i == c!"in" && isExpression ks
      | _ => false)
  | _ => false

def isBracket (k : Kind) : Bool := k ∈ [.sign '(', .sign ')', .sign '{', .sign '}', .sign '[', .sign ']']

/-- The token can be an argument of a macro or an attribute. -/
def isArgument : Kind → Bool
  | .joint _ | .doc _ => false
  | k => !isBracket k

/-- The inside of an attribute: `path`, `path = value` or `path(…)` -/
def isMeta (ks : List Kind) : Bool :=
  isPath ks ||
  (isPath (ks.takeWhile (· != .sign '=')) && match ks.dropWhile (· != .sign '=') with
    | [_, .text _] => true
    | _ => false) ||
  (isPath (ks.takeWhile (· != .sign '(')) && match ks.dropWhile (· != .sign '(') with
    | _ :: ks => ks.dropWhile isArgument == [.sign ')']
    | [] => false)

/-! ### Items and statements -/

/-- Where code stands: in a file or module, in the body of a function, in an `impl` block, in a trait -/
inductive Place where
  | items
  | body
  | methods
  | traitMethods
  deriving DecidableEq, Repr

/-- A function, as `syn` calls it there -/
def function (place : Place) (name : Str) : Item :=
  match place with
  | .items | .body => .fn name
  | .methods => .implMethod name
  | .traitMethods => .traitMethod name

/-- Items other than functions can stand there. -/
def Place.hasItems (place : Place) : Bool := place == .items || place == .body

/-- The beginning of something in braces: the item with its position, if it is one, and what stands in the braces -/
structure Opening where
  item : Option (Item × Nat × Nat)
  inside : Place

def Opening.build (o : Opening) (inner rest : Forest) : Forest :=
  match o.item with
  | some (i, line, column) => .item i line column inner rest
  | none => .node inner rest

/-- The tokens begin with these; what follows. -/
def expect (ks : List Kind) (ts : List Token) : Option (List Token) :=
  if (ts.take ks.length).map (·.kind) = ks then some (ts.drop ks.length) else none

/-- The word at the beginning, if it is a name, with its position -/
def name : List Token → Option ((Str × Nat × Nat) × List Token)
  | ⟨.word s, line, column⟩ :: ts => if s ∈ keywords then none else some ((s, line, column), ts)
  | _ => none

/-- The kinds of the tokens up to one of this kind, and what follows that one -/
def upTo (k : Kind) (ts : List Token) : Option (List Kind × List Token) :=
  match ts.dropWhile (·.kind != k) with
  | [] => none
  | _ :: us => some ((ts.takeWhile (·.kind != k)).map (·.kind), us)

def Place.isMethods (place : Place) : Bool := place == .methods || place == .traitMethods

/-- The parameters of a function, of a method with or without a receiver -/
def isParameters (place : Place) (ks : List Kind) : Bool :=
  listed isParameter ks || (place.isMethods && isReceiver (ks.takeWhile fun k => !isComma k) &&
    match ks.dropWhile fun k => !isComma k with
    | [] => true
    | _ :: ks => separated isParameter (ks.length + 1) ks)

/-- The attributes at the beginning are left out; `fuel` is a bound for their number. -/
def attributes : (fuel : Nat) → List Token → Option (List Token)
  | 0, ts => some ts
  | fuel + 1, ts =>
    match ts with
    | ⟨.doc _, _, _⟩ :: ts => attributes fuel ts
    | _ => match expect [.sign '#', .sign '['] ts with
      | none => some ts
      | some ts => do
        let (ks, ts) ← upTo (.sign ']') ts
        if isMeta ks then attributes fuel ts else none

/-- The visibility at the beginning, `pub` with or without a place, is left out. -/
def visibility (ts : List Token) : Bool × List Token :=
  match expect [.word c!"pub"] ts with
  | none => (false, ts)
  | some us =>
    match [c!"crate", c!"self", c!"super"].findSome? fun s => expect [.sign '(', .word s, .sign ')'] us with
    | some us => (true, us)
    | none => (true, us)

/-- The beginning of an item with something in braces -/
def opening (place : Place) : List Token → Option (Opening × List Token)
  | ⟨.word s, _, _⟩ :: ts =>
    if s = c!"fn" then do
      let ((n, line, column), ts) ← name ts
      let (gs, ts) ← upTo (.sign '(') ts
      let (ks, ts) ← upTo (.sign ')') ts
      let (rs, ts) ← upTo (.sign '{') ts
      if isGenerics gs && isParameters place ks && isResult rs then return (⟨some (function place n, line, column), .body⟩, ts) else none
    else if s = c!"mod" ∧ place.hasItems then do
      let ((n, line, column), ts) ← name ts
      let ts ← expect [.sign '{'] ts
      return (⟨some (.mod n, line, column), .items⟩, ts)
    else if s = c!"trait" ∧ place.hasItems then do
      let ((n, line, column), ts) ← name ts
      let ts ← expect [.sign '{'] ts
      return (⟨some (.trait n, line, column), .traitMethods⟩, ts)
    else if s = c!"impl" ∧ place.hasItems then do
      let ((n, line, column), ts) ← name ts
      match expect [.word c!"for"] ts with
      | none => do
        let ts ← expect [.sign '{'] ts
        return (⟨some (.impl n none, line, column), .methods⟩, ts)
      | some ts => do
        let ((t, line, column), ts) ← name ts
        let ts ← expect [.sign '{'] ts
        return (⟨some (.impl t (some (false, n)), line, column), .methods⟩, ts)
    else none
  | _ => none

/-- The beginning of a block -/
def blockOpening (place : Place) (ts : List Token) : Option (Opening × List Token) :=
  if place = .body then do
    let (ks, ts) ← upTo (.sign '{') ts
    if isBlock ks then return (⟨none, .body⟩, ts) else none
  else none

/-- The item can be public there. -/
def mayBePublic (place : Place) (o : Opening) : Bool :=
  place != .traitMethods && match o.item with
    | some (.impl _ _, _) => false
    | _ => true

/-- The beginning of something in braces, with attributes and visibility -/
def beginning (place : Place) (ts : List Token) : Option (Opening × List Token) := do
  let us ← attributes ts.length ts
  let (pub, us) := visibility us
  match opening place us with
  | some (o, vs) => if pub && !mayBePublic place o then none else some (o, vs)
  | none => blockOpening place ts

/-- A token as an argument of a macro -/
def Token.argument (t : Token) : Tok :=
  match t.kind with
  | .word s => ⟨true, s, t.line, t.column⟩
  | .text s => ⟨false, s, t.line, t.column⟩
  | .sign c => ⟨false, [c], t.line, t.column⟩
  | .joint s | .doc s => ⟨false, s, t.line, t.column⟩

/-- The arguments of a macro up to the next bracket, which is the closing one -/
def arguments (ts : List Token) : Option (List Tok × List Token) := do
  let args := ts.takeWhile (fun t => isArgument t.kind)
  let ts ← expect [.sign ')'] (ts.dropWhile (fun t => isArgument t.kind))
  return (args.map Token.argument, ts)

/-- The names after the first one of a path, each with `::` before it -/
def moreNames : List Token → List Str × List Token
  | ⟨.joint d, l, c⟩ :: ⟨.word s, l', c'⟩ :: ts =>
    if d = c!"::" ∧ s ∉ keywords then (s :: (moreNames ts).1, (moreNames ts).2)
    else ([], ⟨.joint d, l, c⟩ :: ⟨.word s, l', c'⟩ :: ts)
  | ts => ([], ts)

/-- A macro call as a statement in the body of a function -/
def macroCall (place : Place) (ts : List Token) : Option (Mac × List Token) :=
  if place = .body then do
    let ((n, line, column), ts) ← name ts
    let (ns, ts) := moreNames ts
    let ts ← expect [.sign '!', .sign '('] ts
    let (args, ts) ← arguments ts
    let ts ← expect [.sign ';'] ts
    return (⟨n :: ns, line, column, args⟩, ts)
  else none

/-- A statement without macro calls -/
def plain (place : Place) (ts : List Token) : Option (List Token) :=
  if place = .body then do
    let (ks, us) ← upTo (.sign ';') ts
    if isPlain ks then some us else none
  else none

/-- What follows this sign, if such tokens stand before it -/
def ended (c : Char) (p : List Kind → Bool) (ts : List Token) : Option (List Token) := do
  let (ks, us) ← upTo (.sign c) ts
  if p ks then some us else none

/-- A declaration, with attributes and visibility -/
def declaration (place : Place) (ts : List Token) : Option (List Token) :=
  if place.hasItems then do
    let us ← attributes ts.length ts
    match ended ';' isDeclaration (visibility us).2 with
    | some us => some us
    | none => ended '}' isRecord (visibility us).2
  else none

/-- A statement or a declaration -/
def statement (place : Place) (ts : List Token) : Option (Option Mac × List Token) :=
  match macroCall place ts with
  | some (m, us) => some (some m, us)
  | none => (match plain place ts with
    | some us => some us
    | none => declaration place ts).map fun us => (none, us)

def withStatement (m : Option Mac) (rest : Forest) : Forest :=
  match m with
  | some m => .mac m rest
  | none => .node .nil rest

/-- What is left of a body is its value: an expression, or a macro call without a semicolon -/
def last (place : Place) (ts : List Token) : Option (Forest × List Token) :=
  if place = .body then
    let hs := ts.takeWhile (·.kind != .sign '}')
    let us := ts.dropWhile (·.kind != .sign '}')
    if isExpression (hs.map (·.kind)) then some (.node .nil .nil, us)
    else match macroCall .body (hs ++ [⟨.sign ';', 0, 0⟩]) with
      | some (m, []) => some (.mac m .nil, us)
      | _ => none
  else none

/-- Code up to the next closing brace or the end; `fuel` is a bound for the number of tokens. -/
def code : (fuel : Nat) → Place → List Token → Option (Forest × List Token)
  | 0, _, _ => none
  | _ + 1, _, [] => some (.nil, [])
  | fuel + 1, place, t :: ts =>
    if t.kind = .sign '}' then some (.nil, t :: ts)
    else match beginning place (t :: ts) with
      | some (o, ts) => do
        let (inner, ts) ← code fuel o.inside ts
        let ts ← expect [.sign '}'] ts
        let (rest, ts) ← code fuel place ts
        return (o.build inner rest, ts)
      | none => match statement place (t :: ts) with
        | some (m, ts) => do
          let (rest, ts) ← code fuel place ts
          return (withStatement m rest, ts)
        | none => last place (t :: ts)

/-- The tree of a file -/
def read (text : Str) : Option Forest := do
  let ts ← lex text.length (1, 0) text
  let (f, ts) ← code (ts.length + 1) .items ts
  if ts.isEmpty then return f else none

end RustText

end Reqtrace
