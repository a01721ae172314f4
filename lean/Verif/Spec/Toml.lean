import Verif.Toml
import Verif.Spec.Config

/-!
# Specification: the text of a configuration file

How a document may be written down in TOML, stated apart from the reader of `Verif.Toml`, and what it says.
-/

namespace Reqtrace.Spec.TomlText

open Toml (Header)
open JsonText (Hex4 Required Optional IsArray IsText)
open ConfigText

/-! ## Lines -/

def Blank (s : Str) : Prop := ∀ c ∈ s, c = ' ' ∨ c = '\t'

/-- A character that is no control character -/
def Plain (c : Char) : Prop := 32 ≤ c.toNat ∧ c.toNat ≠ 127

/-- A comment -/
def Comment (s : Str) : Prop := ∃ r, s = '#' :: r ∧ ∀ c ∈ r, Plain c ∨ c = '\t'

/-- A part of a line that says nothing: white space and perhaps a comment -/
def Nothing (s : Str) : Prop := ∃ w r, s = w ++ r ∧ Blank w ∧ (r = [] ∨ Comment r)

/-- The end of a line before the text `t`; the last line needs none. -/
def Eol (e t : Str) : Prop := e = c!"\n" ∨ e = c!"\r\n" ∨ (e = [] ∧ t = [])

/-! ## Texts and names -/

/-- How a character can be written between double quotes -/
inductive Chr : Str → Char → Prop
  | plain {c} : c ≠ '"' → c ≠ '\\' → Plain c → Chr [c] c
  | quote : Chr c!"\\\"" '"'
  | backslash : Chr c!"\\\\" '\\'
  | b : Chr c!"\\b" (Char.ofNat 8)
  | t : Chr c!"\\t" '\t'
  | n : Chr c!"\\n" '\n'
  | f : Chr c!"\\f" (Char.ofNat 12)
  | r : Chr c!"\\r" '\r'
  | unicode {s n} : Hex4 s n → n < 0xD800 ∨ 0xDFFF < n → Chr (c!"\\u" ++ s) (Char.ofNat n)

inductive Chars : Str → Str → Prop
  | nil : Chars [] []
  | cons {s c t u} : Chr s c → Chars t u → Chars (s ++ t) (c :: u)

/-- How a text can be written -/
inductive Quoted : Str → Str → Prop
  | double {s t} : Chars s t → Quoted ('"' :: s ++ ['"']) t
  | single {t} : (∀ c ∈ t, Plain c ∧ c ≠ '\'') → Quoted ('\'' :: t ++ ['\'']) t

/-- How a name can be written -/
inductive Name : Str → Str → Prop
  | bare {k} : k ≠ [] → (∀ c ∈ k, c.isAlphanum = true ∨ c = '_' ∨ c = '-') → Name k k
  | quoted {s k} : k ≠ [] → Quoted s k → Name s k

/-! ## Values -/

/-- What may stand between the elements of a list -/
inductive Gap : Str → Prop
  | nil : Gap []
  | blank {c s} : c = ' ' ∨ c = '\t' → Gap s → Gap (c :: s)
  | line {e s} : e = c!"\n" ∨ e = c!"\r\n" → Gap s → Gap (e ++ s)
  | comment {r e s} : Comment r → e = c!"\n" ∨ e = c!"\r\n" → Gap s → Gap (r ++ e ++ s)

/-- A list of texts, from after its opening bracket to its closing one -/
inductive Elements : Str → List Str → Prop
  | nil {g} : Gap g → Elements (g ++ c!"]") []
  | last {g s h t} : Gap g → Quoted s t → Gap h → Elements (g ++ s ++ h ++ c!"]") [t]
  | cons {g s h r t ts} : Gap g → Quoted s t → Gap h → Elements r ts → Elements (g ++ s ++ h ++ ',' :: r) (t :: ts)

/-- A table with texts in one line, from after its opening brace to its closing one -/
inductive Entries : Str → List (Str × Str) → Prop
  | last {a n b c s d k t} : Blank a → Name n k → Blank b → Blank c → Quoted s t → Blank d →
      Entries (a ++ n ++ b ++ '=' :: (c ++ s ++ d ++ c!"}")) [(k, t)]
  | cons {a n b c s d r k t es} : Blank a → Name n k → Blank b → Blank c → Quoted s t → Blank d → Entries r es →
      Entries (a ++ n ++ b ++ '=' :: (c ++ s ++ d ++ ',' :: r)) ((k, t) :: es)

/-- How a value can be written -/
inductive Value : Str → Json → Prop
  | text {s t} : Quoted s t → Value s (.str t)
  | true : Value c!"true" (.bool .true)
  | false : Value c!"false" (.bool .false)
  | number {n} : n < 9223372036854775808 → Value (natStr n) (.num n)
  | list {s ts} : Elements s ts → Value ('[' :: s) (.arr (ts.map .str))
  | empty {w} : Blank w → Value ('{' :: w ++ c!"}") (.obj [])
  | table {s es} : Entries s es → (es.map Prod.fst).Nodup → Value ('{' :: s) (.obj (es.map fun e => (e.1, .str e.2)))

/-! ## Documents -/

/-- How an entry of a table can be written -/
def Entry (s : Str) (k : Str) (v : Json) : Prop :=
  ∃ n a b r, s = n ++ a ++ '=' :: (b ++ r) ∧ Name n k ∧ Blank a ∧ Blank b ∧ Value r v

/-- How a heading can be written -/
inductive Heading : Str → Header → Prop
  | table {a n b k} : Blank a → Name n k → Blank b → Heading ('[' :: a ++ n ++ b ++ c!"]") (.table k)
  | sub {a n b c m d k l} : Blank a → Name n k → Blank b → Blank c → Name m l → Blank d →
      Heading ('[' :: a ++ n ++ b ++ '.' :: (c ++ m ++ d ++ c!"]")) (.sub k l)
  | element {a n b k} : Blank a → Name n k → Blank b → Heading (c!"[[" ++ a ++ n ++ b ++ c!"]]") (.element k)

/-- What stands before the first heading, or below one -/
abbrev Table := List (Str × Json)

/-- The text has these entries, before the first heading, and then these headings with entries below, in this order,
with any white space, blank lines and comments. -/
inductive Laid : Table → List (Header × Table) → Str → Prop
  | nil : Laid [] [] []
  | nothing {top gs s e t} : Nothing s → Eol e t → Laid top gs t → Laid top gs (s ++ e ++ t)
  | entry {w s z e t k v top gs} : Blank w → Entry s k v → Nothing z → Eol e t → Laid top gs t →
      Laid ((k, v) :: top) gs (w ++ s ++ z ++ e ++ t)
  | heading {w s z e t h top gs} : Blank w → Heading s h → Nothing z → Eol e t → Laid top gs t →
      Laid [] ((h, top) :: gs) (w ++ s ++ z ++ e ++ t)

/-! ## What a document says -/

def _root_.Reqtrace.Toml.Header.name : Header → Str
  | .table k => k
  | .sub k _ => k
  | .element k => k

/-- Two headings that may share their name -/
def Alike : Header → Header → Prop
  | .sub .., .sub .. => True
  | .element _, .element _ => True
  | _, _ => False

/-- No name is used twice. -/
structure Proper (top : Table) (gs : List (Header × Table)) : Prop where
  before : (top.map Prod.fst).Nodup
  below : ∀ g ∈ gs, (g.2.map Prod.fst).Nodup
  apart : ∀ g ∈ gs, g.1.name ∉ top.map Prod.fst
  heads : gs.Pairwise fun g g' => g.1.name = g'.1.name →
    Alike g.1 g'.1 ∧ ∀ k l, g.1 = .sub k l → g'.1 ≠ .sub k l

/-- The tables below `[[k]]` -/
def elements (k : Str) (gs : List (Header × Table)) : List Json :=
  gs.filterMap fun g => if g.1 = .element k then some (.obj g.2) else none

/-- The tables below `[k.…]`, with their names -/
def subs (k : Str) (gs : List (Header × Table)) : Table :=
  gs.filterMap fun g => match g.1 with
    | .sub k' l => if k' = k then some (l, .obj g.2) else none
    | _ => none

/-- The value of a name of the document -/
inductive Member (top : Table) (gs : List (Header × Table)) : Str → Json → Prop
  | entry {k v} : (k, v) ∈ top → Member top gs k v
  | table {k es} : (.table k, es) ∈ gs → Member top gs k (.obj es)
  | elements {k es} : (.element k, es) ∈ gs → Member top gs k (.arr (elements k gs))
  | subs {k l es} : (.sub k l, es) ∈ gs → Member top gs k (.obj (subs k gs))

/-- The value of a name, if it has one -/
def Given (top : Table) (gs : List (Header × Table)) (k : Str) : Option Json → Prop
  | some v => Member top gs k v
  | none => ∀ v, ¬ Member top gs k v

/-- The document has the settings of a configuration. -/
structure Says (top : Table) (gs : List (Header × Table)) (c : Config) : Prop where
  version : ∃ v, Given top gs c!"version" v ∧ Optional IsVersion v c.version
  artefacts : ∃ v, Given top gs c!"artefacts" v ∧ Required (IsArray IsArtefactConfig) v c.artefacts
  relations : ∃ v, Given top gs c!"relations" v ∧ Required (IsArray IsRelation) v c.relations
  jobs : ∃ v, Given top gs c!"jobs" v ∧ Optional (IsTable IsJob) v c.jobs
  defaultJobs : ∃ v, Given top gs c!"default_jobs" v ∧ Optional (IsArray IsText) v c.defaultJobs

/-- A text in which a document is laid out that has the settings of the configuration -/
def IsConfigText (t : Str) (c : Config) : Prop := ∃ top gs, Laid top gs t ∧ Proper top gs ∧ Says top gs c

/-! ## One way to write a configuration -/

def hexDigit (n : Nat) : Char := c!"0123456789abcdef".getD n '0'

def chr (c : Char) : Str :=
  if c = '"' then c!"\\\""
  else if c = '\\' then c!"\\\\"
  else if c.toNat < 32 ∨ c.toNat = 127 then c!"\\u00" ++ [hexDigit (c.toNat / 16), hexDigit (c.toNat % 16)]
  else [c]

def quote (t : Str) : Str := '"' :: t.flatMap chr ++ c!"\""

def listText (ts : List Str) : Str := '[' :: ts.flatMap (fun t => quote t ++ c!", ") ++ c!"]"

/-- The settings of the tables of a configuration, with their texts -/
structure Setting where
  key : Str
  text : Str
  value : Json

def Setting.str (k t : Str) : Setting := ⟨k, quote t, .str t⟩
def Setting.list (k : Str) (ts : List Str) : Setting := ⟨k, listText ts, .arr (ts.map .str)⟩
def Setting.bool (k : Str) : Option Bool → List Setting
  | none => []
  | some true => [⟨k, c!"true", .bool true⟩]
  | some false => [⟨k, c!"false", .bool false⟩]

def parserName : ArtefactParser → Str
  | .markdown => c!"Markdown"
  | .rust => c!"Rust"
  | .monoRequirement => c!"MonoRequirement"
  | .json => c!"Json"

def queryName : Query → Str
  | .parse => c!"Parse"
  | .trace => c!"Trace"

def formatSetting : Format → Setting
  | .gnuError => .str c!"format" c!"GnuError"
  | .json => .str c!"format" c!"Json"
  | .markdown => .str c!"format" c!"Markdown"
  | .tags => .str c!"format" c!"Tags"
  | .templateFile p => ⟨c!"format", c!"{TemplateFile = " ++ quote p ++ c!"}", .obj [(c!"TemplateFile", .str p)]⟩
  | .templateString p => ⟨c!"format", c!"{TemplateString = " ++ quote p ++ c!"}", .obj [(c!"TemplateString", .str p)]⟩

def artefactSettings (a : ArtefactConfig) : List Setting :=
  [.str c!"id" a.id, .list c!"paths" a.paths, .str c!"parser" (parserName a.parser)] ++
    Setting.bool c!"ignore_derived_requirements" a.ignoreDerivedRequirements ++
    Setting.bool c!"reference_with_title" a.referenceWithTitle

def relationSettings (r : Relation) : List Setting := [.str c!"upper" r.upper, .list c!"lower" r.lower]

def jobSettings (b : Job) : List Setting :=
  [.str c!"query" (queryName b.query), formatSetting b.format, .str c!"file" b.file] ++
    Setting.bool c!"set_return_code" b.setReturnCode

/-- The settings before the first heading -/
def topSettings (c : Config) : List Setting :=
  (match c.version with
    | none => []
    | some v => [⟨c!"version", natStr v, .num v⟩]) ++
  (match c.defaultJobs with
    | none => []
    | some l => [.list c!"default_jobs" l]) ++
  (if c.artefacts = [] then [.list c!"artefacts" []] else []) ++
  (if c.relations = [] then [.list c!"relations" []] else [])

/-- The headings, and the settings below each -/
def sections (c : Config) : List (Header × List Setting) :=
  c.artefacts.map (fun a => (.element c!"artefacts", artefactSettings a)) ++
  c.relations.map (fun r => (.element c!"relations", relationSettings r)) ++
  match c.jobs with
    | none => []
    | some m =>
      if m.entries = [] then [(.table c!"jobs", [])]
      else m.entries.map fun e => (.sub c!"jobs" e.1, jobSettings e.2)

def settingLine (s : Setting) : Str := s.key ++ c!" = " ++ s.text ++ c!"\n"

def headingLine : Header → Str
  | .table k => c!"[" ++ k ++ c!"]\n"
  | .sub k l => c!"[" ++ k ++ c!"." ++ quote l ++ c!"]\n"
  | .element k => c!"[[" ++ k ++ c!"]]\n"

/-- The configuration as a text -/
def written (c : Config) : Str :=
  (topSettings c).flatMap settingLine ++
    (sections c).flatMap fun g => headingLine g.1 ++ g.2.flatMap settingLine

end Reqtrace.Spec.TomlText
