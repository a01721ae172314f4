import Verif.RustText
import Verif.Spec.Rust
import Verif.Spec.Renamed

/-!
# Specification: Rust code as text

How tokens may be laid out, and what sequences of tokens are code.  Only the data types of the reader are used.
-/

namespace Reqtrace.Spec.RustLayout

open Rs RustText

/-! ## Layout -/

/-- The text of a comment up to the end of the line, after the two slashes: no documentation -/
def LineText (s : Str) : Prop := '\n' ∉ s ∧ '\r' ∉ s ∧ s.head? ≠ some '/' ∧ s.head? ≠ some '!'

/-- The inside of a block comment: no end, and no beginning of another one -/
inductive BlockText : Str → Prop
  | nil : BlockText []
  | cons {c s} : c ≠ '\r' → ¬ (c = '*' ∧ s.head? = some '/') → ¬ (c = '/' ∧ (s = [] ∨ s.head? = some '*')) →
      BlockText s → BlockText (c :: s)

/-- What may stand between tokens -/
inductive Gap : Str → Prop
  | nil : Gap []
  | space {c g} : c = ' ' ∨ c = '\t' ∨ c = '\n' → Gap g → Gap (c :: g)
  | line {s g} : LineText s → Gap g → Gap (c!"//" ++ s ++ c!"\n" ++ g)
  | block {s g} : BlockText s → s.head? ≠ some '*' → s.head? ≠ some '!' → s ≠ [] → Gap g →
      Gap (c!"/*" ++ s ++ c!"*/" ++ g)

/-- Letters of ASCII, digits and `_` -/
def WordChar (c : Char) : Prop := c.isAlphanum = true ∨ c = '_'

/-- The text of a token -/
inductive Spelled : Kind → Str → Prop
  | word {c s} : c.isAlpha = true ∨ c = '_' → (∀ d ∈ s, WordChar d) → c :: s ≠ c!"_" → Spelled (.word (c :: s)) (c :: s)
  | text {s} : '"' ∉ s → '\\' ∉ s → '\r' ∉ s → Spelled (.text ('"' :: s ++ c!"\"")) ('"' :: s ++ c!"\"")
  | number {c s} : c.isDigit = true → (∀ d ∈ s, d.isDigit = true) → Spelled (.text (c :: s)) (c :: s)
  | sign {c} : c ∈ c!"!;,(){}#[]:=&.<>" → Spelled (.sign c) [c]
  | joint {s} : s ∈ [c!"::", c!"->"] → Spelled (.joint s) s
  | doc {s} : '\n' ∉ s → '\r' ∉ s → s.head? ≠ some '/' → Spelled (.doc s) (c!"///" ++ s)

/-- What may follow a token at once: a word ends before the next character, a literal has no prefix or suffix
and no point after it, two colons belong together, and documentation ends with the line. -/
def Apart : Kind → Str → Prop
  | .word _, r => (∀ c, r.head? = some c → ¬ WordChar c) ∧ r.head? ≠ some '"' ∧ r.head? ≠ some '#'
  | .text _, r => (∀ c, r.head? = some c → ¬ WordChar c) ∧ r.head? ≠ some '.'
  | .sign c, r => c = ':' → r.head? ≠ some ':'
  | .joint _, _ => True
  | .doc _, r => r = [] ∨ r.head? = some '\n'

/-- The line after some text, from 1, and the column, from 0 -/
def lineAfter (s : Str) : Nat := 1 + s.count '\n'
def columnAfter (s : Str) : Nat := (s.reverse.takeWhile (· ≠ '\n')).length

/-- After the text before them, the tokens are laid out in this text. -/
inductive Laid : Str → List Token → Str → Prop
  | done {before g} : Gap g → Laid before [] g
  | comment {before g s} : Gap g → LineText s → Laid before [] (g ++ c!"//" ++ s)
  | token {before g k s ts r} : Gap g → Spelled k s → Apart k r → Laid (before ++ g ++ s) ts r →
      Laid before (⟨k, lineAfter (before ++ g), columnAfter (before ++ g)⟩ :: ts) (g ++ s ++ r)

/-! ## Code -/

/-- The token is this word, or this other character. -/
def IsWord (t : Token) (s : Str) : Prop := t.kind = .word s
def IsSign (t : Token) (c : Char) : Prop := t.kind = .sign c

/-- The words of the Rust reference, chapter Keywords, that are in use, -/
def strictWords : List Str := [
  c!"as", c!"async", c!"await", c!"break", c!"const", c!"continue", c!"crate", c!"dyn", c!"else", c!"enum", c!"extern",
  c!"false", c!"fn", c!"for", c!"if", c!"impl", c!"in", c!"let", c!"loop", c!"match", c!"mod", c!"move", c!"mut", c!"pub",
  c!"ref", c!"return", c!"self", c!"Self", c!"static", c!"struct", c!"super", c!"trait", c!"true", c!"type", c!"unsafe",
  c!"use", c!"where", c!"while"]
/-- and those not in use yet. -/
def reservedWords : List Str := [
  c!"abstract", c!"become", c!"box", c!"do", c!"final", c!"macro", c!"override", c!"priv", c!"try", c!"typeof", c!"unsized",
  c!"virtual", c!"yield"]

/-- The word can be a name. -/
def NameWord (s : Str) : Prop := s ∉ strictWords ∧ s ∉ reservedWords

/-- The token is a name. -/
def IsName (t : Token) (s : Str) : Prop := IsWord t s ∧ NameWord s

/-- The token can be an argument of a macro or an attribute: a word, a literal, or another character that is no bracket. -/
def ArgumentKind (k : Kind) : Prop :=
  (∃ s, k = .word s) ∨ (∃ s, k = .text s) ∨ ∃ c, k = .sign c ∧ c ∉ c!"(){}[]"

def IsArgument (t : Token) : Prop := ArgumentKind t.kind

/-- `a::b::c` -/
inductive PathKinds : List Kind → Prop
  | one {s} : NameWord s → PathKinds [.word s]
  | more {s ks} : NameWord s → PathKinds ks → PathKinds (.word s :: .joint c!"::" :: ks)

/-- `path`, `path<Type>`, and references to these -/
inductive TypeKinds : List Kind → Prop
  | path {ps} : PathKinds ps → TypeKinds ps
  | applied {ps ks} : PathKinds ps → TypeKinds ks → TypeKinds (ps ++ .sign '<' :: (ks ++ [.sign '>']))
  | reference {ps} : PathKinds ps → TypeKinds (.sign '&' :: ps)
  | referenceApplied {ps ks} : PathKinds ps → TypeKinds ks →
      TypeKinds (.sign '&' :: (ps ++ .sign '<' :: (ks ++ [.sign '>'])))

/-- `.a.b` -/
inductive FieldsKinds : List Kind → Prop
  | nil : FieldsKinds []
  | cons {s ks} : NameWord s → FieldsKinds ks → FieldsKinds (.sign '.' :: .word s :: ks)

/-- `path`, `path.a.b`, `self`, `self.a.b` -/
inductive ChainKinds : List Kind → Prop
  | path {ps fs} : PathKinds ps → FieldsKinds fs → ChainKinds (ps ++ fs)
  | selfIs {fs} : FieldsKinds fs → ChainKinds (.word c!"self" :: fs)

/-- A value: a literal, a path or `self`, with or without fields, or a reference to one of these -/
inductive AtomKinds : List Kind → Prop
  | text {s} : AtomKinds [.text s]
  | chain {ks} : ChainKinds ks → AtomKinds ks
  | reference {ks} : ChainKinds ks → AtomKinds (.sign '&' :: ks)

/-- One or more of these, with commas between them -/
inductive Separated (P : List Kind → Prop) : List Kind → Prop
  | one {ks} : P ks → Separated P ks
  | more {ks ls} : P ks → Separated P ls → Separated P (ks ++ .sign ',' :: ls)

/-- None of these, or some with commas between them -/
def Listed (P : List Kind → Prop) (ks : List Kind) : Prop := ks = [] ∨ Separated P ks

/-- `path(values)`, `self.name(values)` and so on -/
inductive CallKinds : List Kind → Prop
  | call {ps as} : ChainKinds ps → Listed AtomKinds as → CallKinds (ps ++ .sign '(' :: (as ++ [.sign ')']))

def ExpressionKinds (ks : List Kind) : Prop := AtomKinds ks ∨ CallKinds ks

/-- `name: Type` -/
inductive ParameterKinds : List Kind → Prop
  | typed {s ks} : NameWord s → TypeKinds ks → ParameterKinds (.word s :: .sign ':' :: ks)

/-- `self`, `&self`, `&mut self` -/
inductive ReceiverKinds : List Kind → Prop
  | value : ReceiverKinds [.word c!"self"]
  | shared : ReceiverKinds [.sign '&', .word c!"self"]
  | exclusive : ReceiverKinds [.sign '&', .word c!"mut", .word c!"self"]

/-- The parameters of a function; a method can have a receiver first. -/
inductive ParametersKinds : Place → List Kind → Prop
  | plain {place ks} : Listed ParameterKinds ks → ParametersKinds place ks
  | receiver {place ks} : place = .methods ∨ place = .traitMethods → ReceiverKinds ks → ParametersKinds place ks
  | receiverAnd {place rs ks} : place = .methods ∨ place = .traitMethods → ReceiverKinds rs → Separated ParameterKinds ks →
      ParametersKinds place (rs ++ .sign ',' :: ks)

/-- `T`, `T: path` -/
inductive GenericKinds : List Kind → Prop
  | name {s} : NameWord s → GenericKinds [.word s]
  | bounded {s ks} : NameWord s → PathKinds ks → GenericKinds (.word s :: .sign ':' :: ks)

/-- Nothing, or `<T, U: path>` -/
inductive GenericsKinds : List Kind → Prop
  | nothing : GenericsKinds []
  | list {ks} : Separated GenericKinds ks → GenericsKinds (.sign '<' :: (ks ++ [.sign '>']))

/-- Nothing, or `-> Type` -/
inductive ResultKinds : List Kind → Prop
  | nothing : ResultKinds []
  | type {ks} : TypeKinds ks → ResultKinds (.joint c!"->" :: ks)

/-- `: Type = value` -/
inductive TypedKinds : List Kind → Prop
  | typed {ts ks} : TypeKinds ts → ExpressionKinds ks → TypedKinds (.sign ':' :: (ts ++ .sign '=' :: ks))

/-- `= value`, `: Type = value` -/
inductive ValuedKinds : List Kind → Prop
  | plain {ks} : ExpressionKinds ks → ValuedKinds (.sign '=' :: ks)
  | typed {ks} : TypedKinds ks → ValuedKinds ks

/-- A statement without macro calls: a call, `let name = value`, `let mut name = value`, with or without a type,
`path = value`, also of a field, `return`, `return value`, `break`, `continue` -/
inductive PlainKinds : List Kind → Prop
  | call {ks} : CallKinds ks → PlainKinds ks
  | letIs {s ks} : NameWord s → ValuedKinds ks → PlainKinds (.word c!"let" :: .word s :: ks)
  | letMut {s ks} : NameWord s → ValuedKinds ks → PlainKinds (.word c!"let" :: .word c!"mut" :: .word s :: ks)
  | assign {ps ks} : ChainKinds ps → ExpressionKinds ks → PlainKinds (ps ++ .sign '=' :: ks)
  | returns : PlainKinds [.word c!"return"]
  | returnIs {ks} : ExpressionKinds ks → PlainKinds (.word c!"return" :: ks)
  | breakIs : PlainKinds [.word c!"break"]
  | continueIs : PlainKinds [.word c!"continue"]

/-- `path`, `crate::path`, `self::path`, `super::path` -/
inductive RootedKinds : List Kind → Prop
  | path {ks} : PathKinds ks → RootedKinds ks
  | rooted {s ks} : s ∈ [c!"crate", c!"self", c!"super"] → PathKinds ks → RootedKinds (.word s :: .joint c!"::" :: ks)

/-- `path`, `path as name` and so on -/
inductive UseKinds : List Kind → Prop
  | plain {ks} : RootedKinds ks → UseKinds ks
  | named {ks s} : RootedKinds ks → NameWord s → UseKinds (ks ++ [.word c!"as", .word s])

/-- `use path`, `use path as name`, `struct Name`, `const NAME: Type = value`, `static NAME: Type = value`, `type Name = Type` -/
inductive DeclarationKinds : List Kind → Prop
  | useIs {ks} : UseKinds ks → DeclarationKinds (.word c!"use" :: ks)
  | structIs {s} : NameWord s → DeclarationKinds [.word c!"struct", .word s]
  | constIs {s ks} : NameWord s → TypedKinds ks → DeclarationKinds (.word c!"const" :: .word s :: ks)
  | staticIs {s ks} : NameWord s → TypedKinds ks → DeclarationKinds (.word c!"static" :: .word s :: ks)
  | typeIs {s ks} : NameWord s → TypeKinds ks → DeclarationKinds (.word c!"type" :: .word s :: .sign '=' :: ks)

/-- `name: Type`, `pub name: Type` -/
inductive FieldKinds : List Kind → Prop
  | hidden {ks} : ParameterKinds ks → FieldKinds ks
  | visible {ks} : ParameterKinds ks → FieldKinds (.word c!"pub" :: ks)

/-- `Name` -/
inductive VariantKinds : List Kind → Prop
  | name {s} : NameWord s → VariantKinds [.word s]

/-- None or some of these, with commas between them and possibly one at the end -/
inductive Members (P : List Kind → Prop) : List Kind → Prop
  | list {ks} : Listed P ks → Members P ks
  | comma {ks} : Separated P ks → Members P (ks ++ [.sign ','])

/-- `struct Name { fields`, `enum Name { Names`, without the closing brace -/
inductive RecordKinds : List Kind → Prop
  | structIs {s ks} : NameWord s → Members FieldKinds ks → RecordKinds (.word c!"struct" :: .word s :: .sign '{' :: ks)
  | enumIs {s ks} : NameWord s → Members VariantKinds ks → RecordKinds (.word c!"enum" :: .word s :: .sign '{' :: ks)

/-- What stands before a block that is no item: nothing, `loop`, `unsafe`, `if value`, `while value`,
`for name in value` -/
inductive BlockKinds : List Kind → Prop
  | plain : BlockKinds []
  | loop : BlockKinds [.word c!"loop"]
  | unsafeIs : BlockKinds [.word c!"unsafe"]
  | ifIs {ks} : ExpressionKinds ks → BlockKinds (.word c!"if" :: ks)
  | whileIs {ks} : ExpressionKinds ks → BlockKinds (.word c!"while" :: ks)
  | forIs {s ks} : NameWord s → ExpressionKinds ks → BlockKinds (.word c!"for" :: .word s :: .word c!"in" :: ks)

/-- The inside of an attribute: `path`, `path = value`, `path(…)` -/
inductive MetaKinds : List Kind → Prop
  | path {ks} : PathKinds ks → MetaKinds ks
  | value {ks s} : PathKinds ks → MetaKinds (ks ++ [.sign '=', .text s])
  | list {ks as} : PathKinds ks → (∀ k ∈ as, ArgumentKind k) → MetaKinds (ks ++ .sign '(' :: (as ++ [.sign ')']))

/-- Attributes and documentation: `#[…]`, `/// …` -/
inductive AttributesKinds : List Kind → Prop
  | nil : AttributesKinds []
  | doc {s ks} : AttributesKinds ks → AttributesKinds (.doc s :: ks)
  | bracketed {ms ks} : MetaKinds ms → AttributesKinds ks →
      AttributesKinds (.sign '#' :: .sign '[' :: (ms ++ .sign ']' :: ks))

/-- `pub`, `pub(crate)`, `pub(self)`, `pub(super)` -/
inductive PublicKinds : List Kind → Prop
  | everywhere : PublicKinds [.word c!"pub"]
  | within {s} : s ∈ [c!"crate", c!"self", c!"super"] → PublicKinds [.word c!"pub", .sign '(', .word s, .sign ')']

/-- The tokens are such tokens. -/
def Are (P : List Kind → Prop) (ts : List Token) : Prop := P (ts.map Token.kind)

/-- The tokens of a macro call are known to the parser by their text, and whether they are words. -/
inductive Argument : Token → Tok → Prop
  | word {s l c} : Argument ⟨.word s, l, c⟩ ⟨true, s, l, c⟩
  | text {s l c} : Argument ⟨.text s, l, c⟩ ⟨false, s, l, c⟩
  | sign {d l c} : Argument ⟨.sign d, l, c⟩ ⟨false, [d], l, c⟩

inductive Arguments : List Token → List Tok → Prop
  | nil : Arguments [] []
  | cons {t u ts us} : IsArgument t → Argument t u → Arguments ts us → Arguments (t :: ts) (u :: us)

/-- `::a::b`, with the names -/
inductive MoreNames : List Token → List Str → Prop
  | nil : MoreNames [] []
  | cons {j n s ts ss} : j.kind = .joint c!"::" → IsName n s → MoreNames ts ss → MoreNames (j :: n :: ts) (s :: ss)

/-- How a function is called at a place -/
inductive FunctionAt : Place → Str → Rs.Item → Prop
  | item {n} : FunctionAt .items n (.fn n)
  | inner {n} : FunctionAt .body n (.fn n)
  | method {n} : FunctionAt .methods n (.implMethod n)
  | traitMethod {n} : FunctionAt .traitMethods n (.traitMethod n)

/-- What stands before something in braces: the item with its position, and the place inside. -/
inductive Head : Place → List Token → Rs.Item → Nat → Nat → Place → Prop
  /-- `fn name<T>(parameters) -> Type {` -/
  | function {place kw n s i gs a ps b rs} : IsWord kw c!"fn" → IsName n s → FunctionAt place s i → Are GenericsKinds gs →
      IsSign a '(' → Are (ParametersKinds place) ps → IsSign b ')' → Are ResultKinds rs →
      Head place (kw :: n :: (gs ++ a :: (ps ++ b :: rs))) i n.line n.column .body
  /-- `mod name {` -/
  | module {place kw n s} : place = .items ∨ place = .body → IsWord kw c!"mod" → IsName n s →
      Head place [kw, n] (.mod s) n.line n.column .items
  /-- `trait Name {` -/
  | trait {place kw n s} : place = .items ∨ place = .body → IsWord kw c!"trait" → IsName n s →
      Head place [kw, n] (.trait s) n.line n.column .traitMethods
  /-- `impl Type {` -/
  | impl {place kw n s} : place = .items ∨ place = .body → IsWord kw c!"impl" → IsName n s →
      Head place [kw, n] (.impl s none) n.line n.column .methods
  /-- `impl Trait for Type {` -/
  | implFor {place kw n s f t u} : place = .items ∨ place = .body → IsWord kw c!"impl" → IsName n s → IsWord f c!"for" →
      IsName t u → Head place [kw, n, f, t] (.impl u (some (false, s))) t.line t.column .methods

/-- The item is none of a trait and no `impl` block. -/
def MayBePublic (place : Place) (i : Rs.Item) : Prop := place ≠ .traitMethods ∧ ∀ t n, i ≠ .impl t n

/-- The visibility of an item: none, or `pub` where this is possible -/
def VisibilityAt (place : Place) (i : Rs.Item) (vs : List Token) : Prop :=
  vs = [] ∨ (Are PublicKinds vs ∧ MayBePublic place i)

/-- A declaration and its last token: a semicolon, or the closing brace of a struct or an enum -/
inductive Declared : List Token → Token → Prop
  | plain {hs d} : Are DeclarationKinds hs → IsSign d ';' → Declared hs d
  | record {hs d} : Are RecordKinds hs → IsSign d '}' → Declared hs d

/-- The tokens are this code. -/
inductive Written : Place → Forest → List Token → Prop
  | nil {place} : Written place .nil []
  /-- Attributes, visibility, what the item is, and `{ … }` -/
  | item {place as vs hs i line column inside o inner ts c rest us} : Are AttributesKinds as → VisibilityAt place i vs →
      Head place hs i line column inside → IsSign o '{' → Written inside inner ts → IsSign c '}' → Written place rest us →
      Written place (.item i line column inner rest) (as ++ (vs ++ (hs ++ o :: (ts ++ c :: us))))
  /-- `{ … }`, `loop { … }`, `if value { … }` and so on -/
  | block {hs o inner ts c rest us} : Are BlockKinds hs → IsSign o '{' → Written .body inner ts → IsSign c '}' →
      Written .body rest us → Written .body (.node inner rest) (hs ++ o :: (ts ++ c :: us))
  /-- `name!(…);`, `name::name!(…);` -/
  | mac {n s ns ss e o ts as c d rest us} : IsName n s → MoreNames ns ss → IsSign e '!' → IsSign o '(' → Arguments ts as →
      IsSign c ')' → IsSign d ';' → Written .body rest us →
      Written .body (.mac ⟨s :: ss, n.line, n.column, as⟩ rest) (n :: (ns ++ e :: o :: (ts ++ c :: d :: us)))
  /-- `path(values);`, `let name = value;` and so on -/
  | plain {hs d rest us} : Are PlainKinds hs → IsSign d ';' → Written .body rest us →
      Written .body (.node .nil rest) (hs ++ d :: us)
  /-- `use path;`, `struct Name { … }` and so on, with attributes and visibility -/
  | declaration {place as vs hs d rest us} : place = .items ∨ place = .body → Are AttributesKinds as →
      vs = [] ∨ Are PublicKinds vs → Declared hs d → Written place rest us →
      Written place (.node .nil rest) (as ++ (vs ++ (hs ++ d :: us)))
  /-- The value at the end of a body -/
  | value {hs} : Are ExpressionKinds hs → Written .body (.node .nil .nil) hs
  /-- `name!(…)` at the end of a body -/
  | lastMac {n s ns ss e o ts as c} : IsName n s → MoreNames ns ss → IsSign e '!' → IsSign o '(' → Arguments ts as →
      IsSign c ')' → Written .body (.mac ⟨s :: ss, n.line, n.column, as⟩ .nil) (n :: (ns ++ e :: o :: (ts ++ [c])))

/-- The text is a file with this code. -/
def IsCode (text : Str) (f : Forest) : Prop := ∃ ts, Laid [] ts text ∧ Written .items f ts

/-- `syn::parse_file` delivers, for texts that the reader understands, a tree with the same macro calls in the same
items. -/
def ReadsRust (syn : Syn) : Prop :=
  ∀ text f, RustText.read text = some f →
    ∃ f', syn.parseFile text = .ok f' ∧ ∀ path, occs path [] none f' = occs path [] none f

/-! ## The same code, laid out otherwise -/

/-- No coverage mark has two or more than three tokens: the text of the error for it would show the places. -/
def Counted (f : Forest) : Prop :=
  ∀ o ∈ occs [] [] none f, IsMark o.mac → o.mac.tokens.length ≠ 2 ∧ o.mac.tokens.length ≤ 3

/-- Two texts with the same tokens, which are code, laid out in any way. -/
def Relaid (t t' : Str) : Prop :=
  ∃ ts ts' f, Laid [] ts t ∧ Laid [] ts' t' ∧ ts.map Token.kind = ts'.map Token.kind ∧ Written .items f ts ∧ Counted f

/-- Two files with the same content, or with the same code, laid out in any way. -/
inductive FileRelaid (env : Env) (w w' : World) : ArtefactParser → Path → Path → Prop
  | same {parser p q reqs errs} : env.os.openFile w p = env.os.openFile w' q → SameName parser p q →
      PathMeans env w parser p reqs errs → FileRelaid env w w' parser p q
  | code {p q t t'} : env.os.openFile w p = .ok ⟨Utf8.encode t, none⟩ → env.os.openFile w' q = .ok ⟨Utf8.encode t', none⟩ →
      Relaid t t' → FileRelaid env w w' .rust p q

end Reqtrace.Spec.RustLayout

namespace Reqtrace.Spec

/-! ## A project -/

/-- The same artefact, file by file related in some way. -/
structure ArtefactFilewise (R : ArtefactParser → Path → Path → Prop) (env : Env) (w w' : World) (base base' : Path)
    (ac ac' : ArtefactConfig) : Prop where
  id : ac.id = ac'.id
  parser : ac.parser = ac'.parser
  ignore : ac.ignoreDerivedRequirements = ac'.ignoreDerivedRequirements
  titles : ac.referenceWithTitle = ac'.referenceWithTitle
  files : ∃ fs fs', FilesOf env w ac base fs ∧ FilesOf env w' ac' base' fs' ∧ Pairs (R ac.parser) fs fs'

/-- The same project, file by file related in some way. -/
structure ProjectFilewise (R : ArtefactParser → Path → Path → Prop) (env : Env) (w w' : World) (base base' : Path)
    (config config' : Config) : Prop where
  relations : config.relations = config'.relations
  jobs : config.jobs = config'.jobs
  defaultJobs : config.defaultJobs = config'.defaultJobs
  artefacts : Pairs (ArtefactFilewise R env w w' base base') config.artefacts config'.artefacts

end Reqtrace.Spec
