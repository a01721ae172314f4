import Verif.Basic

/-!
# The `regex` crate, on the operators this code base uses

Leftmost-first semantics as documented by the crate ("the same as a backtracking search in Perl"):
`Re.run` explores the alternatives in priority order and calls the continuation `k` on every state
it reaches; the first success is the result.  Text is a list of scalar values, so positions are
character positions (the crate's byte positions are never observed by the code).
-/

namespace Reqtrace

/-- `White_Space` of Unicode: what `\s` matches and what `str::trim` removes. -/
def isWs (c : Char) : Bool :=
  let n := c.toNat
  (0x9 ≤ n && n ≤ 0xD) || n == 0x20 || n == 0x85 || n == 0xA0 || n == 0x1680 ||
  (0x2000 ≤ n && n ≤ 0x200A) || n == 0x2028 || n == 0x2029 || n == 0x202F || n == 0x205F ||
  n == 0x3000

/-- The Unicode tables that the code uses through `\p{XID_Start}`, `\p{XID_Continue}` and `\d`, with
the facts about them that the proofs use.  All of them hold in every version of Unicode. -/
structure Unicode where
  xidStart : Char → Bool
  xidContinue : Char → Bool
  /-- general category `Nd`, which is `\d` -/
  digit : Char → Bool
  start_continue : ∀ c, xidStart c → xidContinue c
  continue_ws : ∀ c, xidContinue c → isWs c = false
  digit_ascii : ∀ c, c.toNat < 128 → (digit c = c.isDigit)
  start_ascii : ∀ c, c.toNat < 128 → (xidStart c = c.isAlpha)
  continue_ascii : ∀ c, c.toNat < 128 → (xidContinue c = (c.isAlphanum || c == '_'))

/-- The tables restricted to ASCII satisfy the stated facts. -/
def Unicode.ascii : Unicode where
  xidStart c := c.toNat < 128 && c.isAlpha
  xidContinue c := c.toNat < 128 && (c.isAlphanum || c == '_')
  digit c := c.toNat < 128 && c.isDigit
  start_continue c h := by simp_all [Char.isAlphanum]
  continue_ws c h := by
    simp only [Bool.and_eq_true, Bool.or_eq_true, beq_iff_eq, decide_eq_true_eq, Char.isAlphanum,
      Char.isAlpha, Char.isUpper, Char.isLower, Char.isDigit, UInt32.le_iff_toNat_le] at h
    have hn : c.val.toNat = c.toNat := rfl
    obtain ⟨h1, h2⟩ := h
    have h3 : c.toNat = 95 ∨ 48 ≤ c.toNat ∧ c.toNat ≤ 57 ∨ 65 ≤ c.toNat ∧ c.toNat ≤ 90 ∨
        97 ≤ c.toNat ∧ c.toNat ≤ 122 := by
      rcases h2 with h2 | h2
      · simp at h2
        omega
      · subst h2; left; rfl
    unfold isWs
    simp only [Bool.or_eq_false_iff, Bool.and_eq_false_iff, decide_eq_false_iff_not, beq_eq_false_iff_ne]
    omega
  digit_ascii c h := by simp [h]
  start_ascii c h := by simp [h]
  continue_ascii c h := by simp [h]

/-- Syntax of the regular expressions in use. -/
inductive Re where
  /-- a literal character or a character class -/
  | cls (p : Char → Bool)
  /-- `^` -/
  | bol
  /-- `$` -/
  | eol
  | cat (a b : Re)
  /-- `a*` (greedy) or `a*?` -/
  | star (greedy : Bool) (a : Re)
  /-- `a?` -/
  | opt (a : Re)
  /-- capture group `(a)` number `n` -/
  | grp (n : Nat) (a : Re)

namespace Re

/-- `a+` is `aa*`, `a+?` is `aa*?`. -/
def plus (greedy : Bool) (a : Re) : Re := cat a (star greedy a)

/-- a literal character -/
def chr (c : Char) : Re := cls (· == c)

/-- `\s` -/
def ws : Re := cls isWs

/-- `.` -/
def dot : Re := cls (· != '\n')

end Re

infixr:65 " ⬝ " => Re.cat

/-- Position of the matcher: whether it is at the start of the text, the text that follows and the
groups captured so far (a later capture of a group hides earlier ones). -/
structure MState where
  atStart : Bool
  rest : Str
  caps : List (Nat × Str)

/-- Repetition of `body`, at most `fuel` times; an iteration that consumes nothing ends the
repetition. -/
def starRun {α : Type} (body : MState → (MState → Option α) → Option α) (greedy : Bool) :
    Nat → MState → (MState → Option α) → Option α
  | 0, s, k => k s
  | n + 1, s, k =>
    let more := body s (fun s' =>
      if s'.rest.length < s.rest.length then starRun body greedy n s' k else none)
    if greedy then more.or (k s) else (k s).or more

/-- Match `r` at `s` and continue with `k`. -/
def Re.run {α : Type} : Re → MState → (MState → Option α) → Option α
  | .cls p, s, k => match s.rest with
    | c :: t => if p c then k { s with atStart := false, rest := t } else none
    | [] => none
  | .bol, s, k => if s.atStart then k s else none
  | .eol, s, k => if s.rest.isEmpty then k s else none
  | .cat a b, s, k => a.run s (fun s' => b.run s' k)
  | .star g a, s, k => starRun (a.run) g s.rest.length s k
  | .opt a, s, k => (a.run s k).or (k s)
  | .grp n a, s, k => a.run s (fun s' =>
      k { s' with caps := (n, s.rest.take (s.rest.length - s'.rest.length)) :: s'.caps })

/-- The groups of a match, `regex::Captures`. -/
structure Captures where
  groups : List (Nat × Str)

/-- `Captures::get` / `Captures::name` -/
def Captures.get (c : Captures) (n : Nat) : Option Str := c.groups.lookup n

/-- `Captures[n]`; panics when the group did not take part in the match -/
def Captures.idx (c : Captures) (n : Nat) : PanicM Str := orPanic .regexGroup (c.get n)

/-- Try to match at each position, from left to right. -/
def searchFrom (r : Re) (atStart : Bool) : Str → Option Captures
  | [] => r.run ⟨atStart, [], []⟩ (fun s => some ⟨s.caps⟩)
  | c :: t => (r.run ⟨atStart, c :: t, []⟩ (fun s => some ⟨s.caps⟩)).or (searchFrom r false t)

/-- `Regex::captures` -/
def Re.captures (r : Re) (text : Str) : Option Captures := searchFrom r true text

/-- `Regex::is_match` -/
def Re.isMatch (r : Re) (text : Str) : Bool := (r.captures text).isSome

/-! ## `str` functions -/

/-- `str::trim_start` -/
def trimStart (s : Str) : Str := s.dropWhile isWs

/-- `str::trim_end` -/
def trimEnd (s : Str) : Str := (s.reverse.dropWhile isWs).reverse

/-- `str::trim` -/
def trim (s : Str) : Str := trimEnd (trimStart s)

/-- `str::split(sep)` for a separator character: always at least one piece -/
def splitOnChar (sep : Char) : Str → List Str
  | [] => [[]]
  | c :: t =>
    if c == sep then [] :: splitOnChar sep t
    else match splitOnChar sep t with
      | [] => [[c]]
      | p :: ps => (c :: p) :: ps

/-- The lines that `BufRead::read_line` delivers one after the other: each with its line feed,
except perhaps the last. -/
def splitLines : Str → List Str
  | [] => []
  | c :: t =>
    if c == '\n' then [c] :: splitLines t
    else match splitLines t with
      | [] => [[c]]
      | l :: ls => (c :: l) :: ls

end Reqtrace
