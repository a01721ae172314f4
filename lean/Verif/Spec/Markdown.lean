import Verif.Models
import Verif.Regex

/-!
# What the lines of a Markdown requirement document mean

Only text, no parser states.  `isWs` is Unicode's `White_Space`.
-/

namespace Reqtrace.Spec

/-- The lines of a text: each ends with a line feed, except perhaps the last. -/
inductive Lines : Str → List Str → Prop
  | nil : Lines [] []
  | last (l) : l ≠ [] → '\n' ∉ l → Lines l [l]
  | cons (l) {rest ls} : '\n' ∉ l → Lines rest ls → Lines (l ++ '\n' :: rest) ((l ++ ['\n']) :: ls)

/-- The text consists of whole lines. -/
def WholeLines (text : Str) : Prop := text = [] ∨ text.getLast? = some '\n'

/-- `\p{XID_Start}\p{XID_Continue}+` -/
def IsIdent (U : Unicode) (id : Str) : Prop :=
  ∃ c t, id = c :: t ∧ t ≠ [] ∧ U.xidStart c = true ∧ ∀ d ∈ t, U.xidContinue d = true

/-- Only white space. -/
def Blank (s : Str) : Prop := ∀ c ∈ s, isWs c = true

/-- `t` is `s` without the white space around it. -/
def TrimsTo (s t : Str) : Prop :=
  ∃ a b, s = a ++ t ++ b ∧ Blank a ∧ Blank b ∧
    (∀ c u, t = c :: u → isWs c = false) ∧ (∀ c u, t = u ++ [c] → isWs c = false)

/-- A line feed or nothing. -/
def LineEnd (nl : Str) : Prop := nl = [] ∨ nl = ['\n']

/-- A line `## ID: Title` with `level` number signs. -/
def ReqHeading (U : Unicode) (line : Str) (level : Nat) (id title : Str) : Prop :=
  0 < level ∧ IsIdent U id ∧ ∃ w rest nl,
    line = List.replicate level '#' ++ w ++ id ++ ':' :: rest ++ nl ∧
    Blank w ∧ rest ≠ [] ∧ '\n' ∉ rest ∧ LineEnd nl ∧ TrimsTo rest title

/-- The requirement headings among the lines, with line number (the first line has number `n`), id
and title. -/
inductive Headings (U : Unicode) : Nat → List Str → List (Nat × Str × Str) → Prop
  | nil (n) : Headings U n [] []
  | skip {n l ls hs} : (∀ level id title, ¬ ReqHeading U l level id title) →
      Headings U (n + 1) ls hs → Headings U n (l :: ls) hs
  | take {n l ls hs level id title} : ReqHeading U l level id title →
      Headings U (n + 1) ls hs → Headings U n (l :: ls) ((n, id, title) :: hs)

/-- The line is no requirement heading. -/
def NoHeading (U : Unicode) (l : Str) : Prop := ∀ level id title, ¬ ReqHeading U l level id title

/-- The requirements are those of the headings: location, id and title. -/
def Matches (path : Path) (rs : List Requirement) (hs : List (Nat × Str × Str)) : Prop :=
  rs.map (fun r => (r.location, r.id, r.title)) =
    hs.map (fun h => ((⟨path, some (.line h.1)⟩ : Location), h.2.1, some h.2.2))

/-- A line `Name: value` that starts an attribute. -/
def AttrLine (line name value : Str) : Prop :=
  ∃ c low rest nl, name = c :: low ∧ c.isUpper = true ∧ low ≠ [] ∧ (∀ d ∈ low, d.isLower = true) ∧
    line = name ++ ':' :: rest ++ nl ∧ '\n' ∉ rest ∧ LineEnd nl ∧
    (∃ w, rest = w ++ value ∧ Blank w) ∧ (∀ d u, value = d :: u → isWs d = false)

/-- The text of a reference up to the end of the line: white space, an id, and perhaps a colon and a
title.  A title of nothing but white space counts as its last character. -/
def RefEnd (U : Unicode) (s id : Str) (title : Option Str) : Prop :=
  IsIdent U id ∧ ∃ w tail, w ≠ [] ∧ Blank w ∧ s = w ++ id ++ tail ∧
    ((Blank tail ∧ title = none) ∨
     (∃ rest nl t, tail = ':' :: rest ++ nl ∧ '\n' ∉ rest ∧ LineEnd nl ∧ title = some t ∧
        ((t ≠ [] ∧ TrimsTo rest t) ∨ (∃ u c, Blank rest ∧ rest = u ++ [c] ∧ t = [c]))))

/-- A line that the parser takes as a reference: the leftmost place from which on it reads as one. -/
def RefLine (U : Unicode) (line id : Str) (title : Option Str) : Prop :=
  ∃ pre s, line = pre ++ s ∧ RefEnd U s id title ∧
    ∀ pre' s', line = pre' ++ s' → pre'.length < pre.length → ∀ id' title', ¬ RefEnd U s' id' title'

/-! ## Locations -/

/-- The location moved down by `k` lines. -/
def shiftLoc (k : Nat) (loc : Location) : Location :=
  match loc.locationInFile with
  | some (.line n) => { loc with locationInFile := some (.line (n + k)) }
  | _ => loc

/-- The reference moved down by `k` lines. -/
def shiftRef (k : Nat) (r : Reference) : Reference := { r with location := shiftLoc k r.location }

/-- The requirement moved down by `k` lines, with its references. -/
def shiftReq (k : Nat) (r : Requirement) : Requirement :=
  { r with location := shiftLoc k r.location, covers := r.covers.map (shiftRef k),
           depends := r.depends.map (shiftRef k) }

/-- The parse error moved down by `k` lines (errors without location stay as they are). -/
def shiftErr (k : Nat) : Error → Error
  | .format loc m => .format (shiftLoc k loc) m
  | .duplicateAttribute loc a id => .duplicateAttribute (shiftLoc k loc) a id
  | e => e

/-- The location is that of line `l` of the file. -/
def At (lines : List Str) (path : Path) (loc : Location) (l : Str) : Prop :=
  ∃ k, loc = ⟨path, some (.line (k + 1))⟩ ∧ lines[k]? = some l

/-- `p` is one of the comma separated parts of `s`. -/
def Part (s p : Str) : Prop := ',' ∉ p ∧ ∃ a b, s = a ++ p ++ b ∧
  (a = [] ∨ ∃ a', a = a' ++ [',']) ∧ (b = [] ∨ ∃ b', b = ',' :: b')

/-- The line states the reference: as an item of a list, or in the comma separated list after
`Covers:` or `Depends:`. -/
def States (U : Unicode) (l id : Str) (title : Option Str) : Prop :=
  RefLine U l id title ∨
  (title = none ∧ id ≠ [] ∧ ∃ name v t p, AttrLine l name v ∧ (name = c!"Covers" ∨ name = c!"Depends") ∧
    TrimsTo v t ∧ Part t p ∧ TrimsTo p id)

/-- The requirement heading that governs the line with index `k` is at index `j` and has that id. -/
def Owner (U : Unicode) (lines : List Str) (k j : Nat) (id : Str) : Prop :=
  (∃ l level title, lines[j]? = some l ∧ ReqHeading U l level id title) ∧ j < k ∧
    ∀ i l, j < i → i < k → lines[i]? = some l → ∀ level id title, ¬ ReqHeading U l level id title

/-- The error is located in one of the lines from `a` to `b`. -/
def ErrIn (a b : Nat) : Error → Bool
  | .format loc _ | .duplicateAttribute loc _ _ =>
    match loc.locationInFile with
    | some (.line n) => a ≤ n && n ≤ b
    | _ => false
  | _ => false

/-- The requirement has a value for the attribute. -/
def Given (r : Requirement) (a : Str) : Prop :=
  if a = c!"Covers" then r.covers ≠ []
  else if a = c!"Depends" then r.depends ≠ []
  else ∃ v, r.attributes.get a = some v

/-! ## Descriptions -/

/-- No paragraph starts with an attribute; `start` says whether the first line starts a paragraph. -/
def NoAttrPara : Bool → List Str → Prop
  | _, [] => True
  | start, l :: ls => (start = true → ∀ a v, ¬ AttrLine l a v) ∧ NoAttrPara (l = ['\n']) ls

/-- What is kept of the lines of a description after line `prev`: everything except a line directly
below an empty line. -/
def descFrom : Str → List Str → Str
  | _, [] => []
  | prev, l :: ls => (if prev = ['\n'] ∧ l ≠ ['\n'] then [] else l) ++ descFrom l ls

/-- What is kept of the lines of a description. -/
def descKept : List Str → Option Str
  | [] => none
  | l :: ls => if l = ['\n'] then descKept ls else some (l ++ descFrom l ls)

/-- The documented form of an item of a reference list: `* ID` or `* ID: title`. -/
def DocRef (U : Unicode) (l : Str) : Prop :=
  ∃ w id tail, l = '*' :: w ++ id ++ tail ∧ w ≠ [] ∧ Blank w ∧ IsIdent U id ∧
    (Blank tail ∨ ∃ t, tail = ':' :: t)

/-- The lines follow: none, or a requirement heading first. -/
def Ends (U : Unicode) (post : List Str) : Prop :=
  post = [] ∨ ∃ h t level id title, post = h :: t ∧ ReqHeading U h level id title

/-- The text with CR LF line ends. -/
def crlf : Str → Str
  | [] => []
  | c :: t => if c = '\n' then '\r' :: '\n' :: crlf t else c :: crlf t

/-- The last line is a single character of one byte, without line feed. -/
def OneByteTail (text : Str) : Prop :=
  ∃ pre c, text = pre ++ [c] ∧ c ≠ '\n' ∧ c.toNat < 128 ∧ WholeLines pre

/-- The tables have the same classes for the character. -/
def SameClass (U V : Unicode) (c : Char) : Prop :=
  U.xidStart c = V.xidStart c ∧ U.xidContinue c = V.xidContinue c ∧ U.digit c = V.digit c

/-- The text starts with a requirement heading. -/
def StartsWithHeading (U : Unicode) (text : Str) : Prop :=
  ∃ l ls level id title, Lines text (l :: ls) ∧ ReqHeading U l level id title

/-- The rest of a section begins after its description: nothing, another heading, or an attribute at the
start of a paragraph. -/
def DescEnd (desc rest : List Str) : Prop :=
  rest = [] ∨ ∃ l t, rest = l :: t ∧ (l.head? = some '#' ∨
    ((∃ a v, AttrLine l a v) ∧ (desc = [] ∨ desc.getLast? = some ['\n'])))

end Reqtrace.Spec
