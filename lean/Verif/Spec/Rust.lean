import Verif.RustParser

/-!
# Coverage marks in Rust code, declaratively

Only the data types of the syntax tree are used, none of the parser's functions.
-/

namespace Reqtrace.Spec

open Rs

/-- A macro call with the names of the items around it, outermost first, and the location of the
innermost of them. -/
structure Occ where
  names : List Str
  loc : Option Location
  mac : Mac

/-- The name of an item: its identifier, the type of an `impl`, or `(Type as Trait)`. -/
def itemName : Item → Str
  | .fn n | .implMethod n | .trait n | .traitMethod n | .mod n => n
  | .impl t none => t
  | .impl t (some (neg, tr)) => c!"(" ++ t ++ c!" as " ++ (if neg then c!"!" else []) ++ tr ++ c!")"

/-- All macro calls of a tree, in order, with their surroundings. -/
def occs (path : Path) (names : List Str) (loc : Option Location) : Forest → List Occ
  | .nil => []
  | .mac m rest => ⟨names, loc, m⟩ :: occs path names loc rest
  | .item i l c inner rest =>
    occs path (names ++ [itemName i]) (some ⟨path, some (.lineAndColumn l c)⟩) inner ++
      occs path names loc rest
  | .node inner rest => occs path names loc inner ++ occs path names loc rest

/-- The call is a coverage mark. -/
def IsMark (m : Mac) : Prop := m.segments = [c!"requirement_covered"]

/-- The text of a string literal, and the value the parser takes it for: all quotes dropped, escapes left
as they are. -/
def Quoted (text value : Str) : Prop :=
  text.head? = some '"' ∧ text.getLast? = some '"' ∧ value = text.filter (· ≠ '"')

/-- The arguments of a coverage mark: an identifier, a string, or an identifier and a string with
something in between. -/
def Reads (m : Mac) (id : Str) (title : Option Str) : Prop :=
  (∃ t, m.tokens = [t] ∧ t.isIdent = true ∧ id = t.text ∧ title = none) ∨
  (∃ t, m.tokens = [t] ∧ t.isIdent = false ∧ Quoted t.text id ∧ title = none) ∨
  (∃ t sep u v, m.tokens = [t, sep, u] ∧ t.isIdent = true ∧ id = t.text ∧ Quoted u.text v ∧ title = some v)

/-- A reference with the surroundings of its mark. -/
structure Entry where
  names : List Str
  loc : Option Location
  ref : Reference

/-- The references and errors of a list of calls, one per mark. -/
inductive Marks (path : Path) : List Occ → List Entry → List Error → Prop
  | nil : Marks path [] [] []
  | other {o os es errs} : ¬ IsMark o.mac → Marks path os es errs → Marks path (o :: os) es errs
  | good {o os es errs id title} : IsMark o.mac → Reads o.mac id title → Marks path os es errs →
      Marks path (o :: os)
        (⟨o.names, o.loc, ⟨id, title, ⟨path, some (.lineAndColumn o.mac.line o.mac.column)⟩⟩⟩ :: es) errs
  | bad {o os es errs line column msg} : IsMark o.mac → (∀ id title, ¬ Reads o.mac id title) →
      ((line, column) = (o.mac.line, o.mac.column) ∨ ∃ t ∈ o.mac.tokens, (line, column) = (t.line, t.column)) →
      Marks path os es errs →
      Marks path (o :: os) es (.format ⟨path, some (.lineAndColumn line column)⟩ msg :: errs)

/-- What is wrong with the arguments of a mark, where, and the text of the error; `debug` writes tokens. -/
inductive Mistake (debug : List Tok → Str) (m : Mac) : Nat → Nat → Str → Prop
  | nothing : m.tokens = [] → Mistake debug m m.line m.column c!"requirement_covered!() has no arguments"
  | single {t} : m.tokens = [t] → t.isIdent = false → (∀ v, ¬ Quoted t.text v) →
      Mistake debug m t.line t.column c!"requirement_covered!() single argument is not an identifier"
  | first {t sep u} : m.tokens = [t, sep, u] → t.isIdent = false →
      Mistake debug m t.line t.column c!"requirement_covered!() 1st argument is not an identifier"
  | second {t sep u} : m.tokens = [t, sep, u] → t.isIdent = true → (∀ v, ¬ Quoted u.text v) →
      Mistake debug m u.line u.column c!"requirement_covered!() 2nd argument is not String"
  | count : m.tokens.length = 2 ∨ 3 < m.tokens.length →
      Mistake debug m m.line m.column
        (c!"requirement_covered!() called with more than 2 argument/token " ++ debug m.tokens)

/-- The references and errors of a list of calls, one per mark, with all their content. -/
inductive AllMarks (debug : List Tok → Str) (path : Path) : List Occ → List Entry → List Error → Prop
  | nil : AllMarks debug path [] [] []
  | other {o os es errs} : ¬ IsMark o.mac → AllMarks debug path os es errs → AllMarks debug path (o :: os) es errs
  | good {o os es errs id title} : IsMark o.mac → Reads o.mac id title → AllMarks debug path os es errs →
      AllMarks debug path (o :: os)
        (⟨o.names, o.loc, ⟨id, title, ⟨path, some (.lineAndColumn o.mac.line o.mac.column)⟩⟩⟩ :: es) errs
  | bad {o os es errs line column msg} : IsMark o.mac → Mistake debug o.mac line column msg →
      AllMarks debug path os es errs →
      AllMarks debug path (o :: os) es (.format ⟨path, some (.lineAndColumn line column)⟩ msg :: errs)

/-- The names joined by `::`. -/
inductive Joined : List Str → Str → Prop
  | nil : Joined [] []
  | one (n) : Joined [n] n
  | cons (n) {m ms s} : Joined (m :: ms) s → Joined (n :: m :: ms) (n ++ c!"::" ++ s)

/-- The requirement made of consecutive references: they all have its id, its location is that of the
first. -/
def IsRun (r : Requirement) (run : List Entry) : Prop :=
  r.covers = run.map Entry.ref ∧ (∀ e ∈ run, Joined e.names r.id) ∧
  (∃ e rest, run = e :: rest ∧ e.loc = some r.location) ∧
  r.title = none ∧ r.depends = [] ∧ r.tags = [] ∧ r.attributes = .empty

/-- The requirements made of a list of references: cut into runs, one requirement per run, as few
requirements as possible. -/
def Grouped (reqs : List Requirement) (es : List Entry) : Prop :=
  ∃ gs : List (Requirement × List Entry), gs.map Prod.fst = reqs ∧ (gs.map Prod.snd).flatten = es ∧
    (∀ g ∈ gs, IsRun g.1 g.2) ∧ ∀ a r s b, reqs = a ++ r :: s :: b → r.id ≠ s.id

/-- What a Rust file means: requirements and errors. A file that cannot be read or is no Rust has one error and no
requirements. -/
inductive RustFile (syn : Syn) (path : Path) (src : Source) : List Requirement → List Error → Prop
  | unreadable {e} : src.failure = some e → RustFile syn path src [] [.io path e]
  | syntaxError {line column msg} : src.failure = none → syn.parseFile src.text = .error (line, column, msg) →
      RustFile syn path src [] [.format ⟨path, some (.lineAndColumn line column)⟩ msg]
  | marks {file es reqs errs} : src.failure = none → syn.parseFile src.text = .ok file →
      AllMarks syn.debug path (occs path [] none file) es errs → Grouped reqs es → RustFile syn path src reqs errs

/-- The value of the inside of a string literal, as far as it uses no other escapes than `\\"` and
`\\\\`. -/
inductive LitBody : Str → Str → Prop
  | nil : LitBody [] []
  | plain (c) {s v} : c ≠ '"' → c ≠ '\\' → LitBody s v → LitBody (c :: s) (c :: v)
  | quote {s v} : LitBody s v → LitBody ('\\' :: '"' :: s) ('"' :: v)
  | backslash {s v} : LitBody s v → LitBody ('\\' :: '\\' :: s) ('\\' :: v)

end Reqtrace.Spec
