import Verif.Props.Log2
import Verif.Props.Output
import Verif.Props.TagsRead

/-!
# C122: the log identifies the problem
-/

namespace Reqtrace

open Spec Log

/-! ## Quoted texts end where they end -/

theorem digits_unique {p : Char → Bool} : ∀ {a b : Str} {r r' : Str}, (∀ c ∈ a, p c = true) → (∀ c ∈ b, p c = true) →
    (∀ c, r.head? = some c → p c = false) → (∀ c, r'.head? = some c → p c = false) → a ++ r = b ++ r' → a = b ∧ r = r' := by
  intro a
  induction a with
  | nil =>
    intro b r r' _ hb hr _ h
    cases b with
    | nil => exact ⟨rfl, h⟩
    | cons c b =>
      rw [List.nil_append] at h
      subst h
      have := hr c rfl
      rw [hb c (List.mem_cons_self ..)] at this
      cases this
  | cons c a ih =>
    intro b r r' ha hb hr hr' h
    cases b with
    | nil =>
      rw [List.nil_append] at h
      subst h
      have := hr' c rfl
      rw [ha c (List.mem_cons_self ..)] at this
      cases this
    | cons d b =>
      rw [List.cons_append, List.cons_append] at h
      obtain ⟨rfl, h'⟩ := List.cons.inj h
      obtain ⟨rfl, h⟩ := ih (fun x hx => ha x (List.mem_cons_of_mem _ hx)) (fun x hx => hb x (List.mem_cons_of_mem _ hx)) hr hr' h'
      exact ⟨rfl, by simpa using h⟩

/-- How a character in quotes is written: in one of the eight ways. -/
theorem quotedChar_cases (plain : Char → Bool) (c : Char) :
    (c = '"' ∧ quotedChar plain c = c!"\\\"") ∨ (c = '\\' ∧ quotedChar plain c = c!"\\\\") ∨
    (c = '\n' ∧ quotedChar plain c = c!"\\n") ∨ (c = '\r' ∧ quotedChar plain c = c!"\\r") ∨
    (c = '\t' ∧ quotedChar plain c = c!"\\t") ∨ (c = '\x00' ∧ quotedChar plain c = c!"\\0") ∨
    (c ≠ '"' ∧ c ≠ '\\' ∧ c ≠ '\n' ∧ quotedChar plain c = [c]) ∨
    quotedChar plain c = c!"\\u{" ++ Nat.toDigits 16 c.toNat ++ c!"}" := by
  unfold quotedChar
  by_cases h1 : c = Char.ofNat 0
  · subst h1; exact .inr (.inr (.inr (.inr (.inr (.inl ⟨rfl, rfl⟩)))))
  by_cases h2 : c = '\t'
  · subst h2; exact .inr (.inr (.inr (.inr (.inl ⟨rfl, rfl⟩))))
  by_cases h3 : c = '\r'
  · subst h3; exact .inr (.inr (.inr (.inl ⟨rfl, rfl⟩)))
  by_cases h4 : c = '\n'
  · subst h4; exact .inr (.inr (.inl ⟨rfl, rfl⟩))
  by_cases h5 : c = '"'
  · subst h5; exact .inl ⟨rfl, rfl⟩
  by_cases h6 : c = '\\'
  · subst h6; exact .inr (.inl ⟨rfl, rfl⟩)
  have hb : ∀ d : Char, c ≠ d → (c == d) = false := fun d h => beq_eq_false_iff_ne.2 h
  simp only [List.lookup, hb _ h2, hb _ h3, hb _ h4, hb _ h5, hb _ h6, hb '\x00' h1]
  split
  · exact .inr (.inr (.inr (.inr (.inr (.inr (.inl ⟨h5, h6, h4, rfl⟩))))))
  · exact .inr (.inr (.inr (.inr (.inr (.inr (.inr rfl))))))

theorem hex_digitChar {d e : Nat} (hd : d < 16) (he : e < 16) (h : d.digitChar = e.digitChar) : d = e := by
  have : ∀ d : Fin 16, ∀ e : Fin 16, (d : Nat).digitChar = (e : Nat).digitChar → d = e := by decide
  exact congrArg Fin.val (this ⟨d, hd⟩ ⟨e, he⟩ h)

/-- Hexadecimal digits. -/
def isHex (c : Char) : Bool := (List.range 16).any fun d => d.digitChar = c

theorem toDigits_hex (n : Nat) : ∀ c ∈ Nat.toDigits 16 n, isHex c = true := by
  have hd : ∀ d, d < 16 → isHex d.digitChar = true := fun d hd =>
    List.any_eq_true.2 ⟨d, List.mem_range.2 hd, by simp⟩
  induction n using Nat.strongRecOn with
  | _ n ih =>
    intro c hc
    rw [Nat.toDigits_eq_if (by decide)] at hc
    split at hc
    · cases List.mem_singleton.1 hc
      exact hd n (by assumption)
    · rcases List.mem_append.1 hc with hc | hc
      · exact ih (n / 16) (by omega) c hc
      · cases List.mem_singleton.1 hc
        exact hd _ (Nat.mod_lt _ (by decide))

theorem toDigits_hex_inj : ∀ {n m : Nat}, Nat.toDigits 16 n = Nat.toDigits 16 m → n = m := by
  intro n
  induction n using Nat.strongRecOn with
  | _ n ih =>
    intro m h
    rw [Nat.toDigits_eq_if (by decide), Nat.toDigits_eq_if (n := m) (by decide)] at h
    have hne : ∀ k, Nat.toDigits 16 k ≠ [] := fun k => Nat.toDigits_ne_nil
    split at h <;> split at h
    · exact hex_digitChar (by assumption) (by assumption) (List.cons.inj h).1
    · have := congrArg List.length h
      have h2 := List.length_pos_iff.2 (hne (m / 16))
      simp at this
    · have := congrArg List.length h
      have h2 := List.length_pos_iff.2 (hne (n / 16))
      simp at this
    · obtain ⟨h1, h2⟩ := List.append_inj' h rfl
      have h3 := ih (n / 16) (by omega) h1
      have h4 := hex_digitChar (Nat.mod_lt _ (by decide)) (Nat.mod_lt _ (by decide)) (List.cons.inj h2).1
      omega

/-- Different characters are written differently, and none is the beginning of another. -/
theorem quotedChar_unique (plain : Char → Bool) {c d : Char} {r r' : Str}
    (h : quotedChar plain c ++ r = quotedChar plain d ++ r') : c = d ∧ r = r' := by
  have hhex : ∀ {r r' : Str}, Nat.toDigits 16 c.toNat ++ c!"}" ++ r = Nat.toDigits 16 d.toNat ++ c!"}" ++ r' → c = d ∧ r = r' := by
    intro r r' h
    rw [List.append_assoc, List.append_assoc] at h
    obtain ⟨h1, h2⟩ := digits_unique (toDigits_hex _) (toDigits_hex _) (fun x hx => by cases hx; decide)
      (fun x hx => by cases hx; decide) h
    exact ⟨Char.toNat_inj.1 (toDigits_hex_inj h1), (List.cons.inj h2).2⟩
  by_cases hcd : c = d
  · subst hcd
    exact ⟨rfl, List.append_cancel_left h⟩
  rcases quotedChar_cases plain c with ⟨rfl, hc⟩ | ⟨rfl, hc⟩ | ⟨rfl, hc⟩ | ⟨rfl, hc⟩ | ⟨rfl, hc⟩ | ⟨rfl, hc⟩ | ⟨h1, h2, h3, hc⟩ | hc <;>
  rcases quotedChar_cases plain d with ⟨rfl, hd⟩ | ⟨rfl, hd⟩ | ⟨rfl, hd⟩ | ⟨rfl, hd⟩ | ⟨rfl, hd⟩ | ⟨rfl, hd⟩ | ⟨h4, h5, h6, hd⟩ | hd <;>
  first
  | exact absurd rfl hcd
  | (rw [hc, hd] at h
     first
     | exact hhex (List.append_cancel_left (as := c!"\\u{") (by simpa only [List.append_assoc] using h))
     | (simp at h
        first
        | done
        | exact absurd h.1 h5
        | exact absurd h.1.symm h5
        | exact absurd h.1 h2
        | exact absurd h.1.symm h2
        | exact absurd h.1 hcd))

theorem quotedChar_head (plain : Char → Bool) (c : Char) (r r' : Str) : quotedChar plain c ++ r ≠ '"' :: r' := by
  intro h
  rcases quotedChar_cases plain c with ⟨_, hc⟩ | ⟨_, hc⟩ | ⟨_, hc⟩ | ⟨_, hc⟩ | ⟨_, hc⟩ | ⟨_, hc⟩ | ⟨h1, h2, h3, hc⟩ | hc <;>
  rw [hc] at h <;> simp at h
  exact h1 h.1

theorem quotedChar_noLf (plain : Char → Bool) (c : Char) : ¬ '\n' ∈ quotedChar plain c := by
  rcases quotedChar_cases plain c with ⟨_, hc⟩ | ⟨_, hc⟩ | ⟨_, hc⟩ | ⟨_, hc⟩ | ⟨_, hc⟩ | ⟨_, hc⟩ | ⟨h1, h2, h3, hc⟩ | hc <;>
  rw [hc]
  all_goals first | decide | skip
  · intro h; exact h3 (List.mem_singleton.1 h).symm
  · intro h
    rcases List.mem_append.1 h with h | h
    · rcases List.mem_append.1 h with h | h
      · revert h; decide
      · have := toDigits_hex _ _ h
        revert this; decide
    · revert h; decide

/-- A quoted text is never the beginning of another. -/
theorem quoted_unique (env : FmtEnv) {s t : Str} {r r' : Str} (h : quoted env s ++ r = quoted env t ++ r') :
    s = t ∧ r = r' := by
  unfold quoted at h
  simp only [List.append_assoc, List.cons_append, List.nil_append] at h
  replace h := (List.cons.inj h).2
  induction s generalizing t with
  | nil =>
    cases t with
    | nil => exact ⟨rfl, (List.cons.inj h).2⟩
    | cons d t =>
      rw [List.flatMap_cons, List.append_assoc] at h
      exact absurd h.symm (quotedChar_head _ _ _ _)
  | cons c s ih =>
    cases t with
    | nil =>
      rw [List.flatMap_cons, List.append_assoc] at h
      exact absurd h (quotedChar_head _ _ _ _)
    | cons d t =>
      rw [List.flatMap_cons, List.flatMap_cons, List.append_assoc, List.append_assoc] at h
      obtain ⟨rfl, h2⟩ := quotedChar_unique _ h
      obtain ⟨rfl, h3⟩ := ih h2
      exact ⟨rfl, h3⟩

theorem quoted_noLf (env : FmtEnv) (s : Str) : ¬ '\n' ∈ quoted env s := by
  unfold quoted
  intro h
  rcases List.mem_append.1 h with h | h
  · rcases List.mem_append.1 h with h | h
    · revert h; decide
    · obtain ⟨c, _, h⟩ := List.mem_flatMap.1 h
      exact quotedChar_noLf _ _ h
  · revert h; decide

/-! ## Indented texts -/

/-- The text further to the right. -/
def shift (d : Nat) (s : Str) : Str := s.flatMap fun c => if c = '\n' then '\n' :: List.replicate (4 * d) ' ' else [c]

theorem shift_append (d : Nat) (a b : Str) : shift d (a ++ b) = shift d a ++ shift d b := List.flatMap_append

theorem shift_zero (s : Str) : shift 0 s = s := by
  unfold shift
  induction s with
  | nil => rfl
  | cons c s ih =>
    rw [List.flatMap_cons, ih]
    by_cases h : c = '\n' <;> simp [h]

theorem shift_noLf (d : Nat) {s : Str} (h : ¬ '\n' ∈ s) : shift d s = s := by
  unfold shift
  induction s with
  | nil => rfl
  | cons c s ih =>
    have hc : c ≠ '\n' := fun e => h (e ▸ List.mem_cons_self ..)
    rw [List.flatMap_cons, ih (fun e => h (List.mem_cons_of_mem _ e)), if_neg hc]
    rfl

theorem shift_indent (d : Nat) (s : Str) : shift d (indent s) = c!"    " ++ shift (d + 1) s := by
  unfold indent
  rw [shift_append, shift_noLf d (by decide)]
  congr 1
  induction s with
  | nil => rfl
  | cons c s ih =>
    rw [List.flatMap_cons, shift_append, ih]
    show _ = shift (d + 1) ([c] ++ s)
    rw [shift_append]
    congr 1
    by_cases h : c = '\n'
    · subst h
      simp only [if_true]
      have : shift d c!"\n    " = '\n' :: List.replicate (4 * d) ' ' ++ c!"    " := by
        simp [shift]
      rw [this]
      have h2 : shift (d + 1) ['\n'] = '\n' :: List.replicate (4 * (d + 1)) ' ' := by simp [shift]
      rw [h2, Nat.mul_add, ← List.replicate_append_replicate]
      rfl
    · rw [if_neg h, shift_noLf, shift_noLf] <;> (intro e; exact h (List.mem_singleton.1 e).symm)

/-! ## Values -/

/-- Letters and digits. -/
def Word (s : Str) : Prop := s ≠ [] ∧ ∀ c ∈ s, (c.isAlphanum || c == '_') = true

theorem Word.noLf {s : Str} (h : Word s) : ¬ '\n' ∈ s := fun e => by have := h.2 _ e; revert this; decide

/-- What follows does not belong to a word. -/
def Ends (r : Str) : Prop := ∀ c, r.head? = some c → (c.isAlphanum || c == '_') = false

theorem Word.unique {a b r r' : Str} (ha : Word a) (hb : Word b) (hr : Ends r) (hr' : Ends r') (h : a ++ r = b ++ r') :
    a = b ∧ r = r' := digits_unique ha.2 hb.2 hr hr' h

/-- The value is at the end of the text, or a comma or a colon follows. -/
def Stops (r : Str) : Prop := r = [] ∨ (∃ r', r = ',' :: r') ∨ ∃ r', r = ':' :: r'

theorem Stops.ends {r : Str} (h : Stops r) : Ends r := by
  rintro c hc
  rcases h with rfl | ⟨r', rfl⟩ | ⟨r', rfl⟩ <;> cases hc <;> decide

mutual

/-- The texts on a line are quoted or words; names are words. -/
def Plain (env : FmtEnv) : Dbg → Prop
  | .leaf s => (∃ t, s = quoted env t) ∨ Word s
  | .tuple n l => Word n ∧ PlainList env l
  | .struct n l => Word n ∧ PlainFields env l
  | .list l => PlainList env l
  | .map l => PlainMap env l

def PlainList (env : FmtEnv) : List Dbg → Prop
  | [] => True
  | d :: l => Plain env d ∧ PlainList env l

def PlainFields (env : FmtEnv) : List (Str × Dbg) → Prop
  | [] => True
  | (n, d) :: l => Word n ∧ Plain env d ∧ PlainFields env l

def PlainMap (env : FmtEnv) : List (Dbg × Dbg) → Prop
  | [] => True
  | (k, d) :: l => Plain env k ∧ Plain env d ∧ PlainMap env l

end

theorem shift_tuple (d : Nat) (n : Str) (l : List Dbg) (h : Word n) :
    shift d (Dbg.tuple n l).pretty = n ++ '(' :: (shift d c!"\n" ++ shift d (prettyList l) ++ c!")") := by
  unfold Dbg.pretty
  simp only [shift_append]
  rw [shift_noLf d h.noLf, shift_noLf d (s := c!")") (by decide)]
  have : shift d c!"(\n" = '(' :: shift d c!"\n" := rfl
  rw [this]
  simp

theorem shift_struct (d : Nat) (n : Str) (l : List (Str × Dbg)) (h : Word n) :
    shift d (Dbg.struct n l).pretty = n ++ ' ' :: '{' :: (shift d c!"\n" ++ shift d (prettyFields l) ++ c!"}") := by
  unfold Dbg.pretty
  simp only [shift_append]
  rw [shift_noLf d h.noLf, shift_noLf d (s := c!"}") (by decide)]
  have : shift d c!" {\n" = ' ' :: '{' :: shift d c!"\n" := rfl
  rw [this]
  simp

theorem shift_list (d : Nat) (a : Dbg) (l : List Dbg) :
    shift d (Dbg.list (a :: l)).pretty = '[' :: (shift d c!"\n" ++ shift d (prettyList (a :: l)) ++ c!"]") := by
  unfold Dbg.pretty
  rw [prettyList]
  simp only [shift_append]
  rw [shift_noLf d (s := c!"]") (by decide)]
  have : shift d c!"[\n" = '[' :: shift d c!"\n" := rfl
  rw [this]
  simp

theorem shift_map (d : Nat) (a b : Dbg) (l : List (Dbg × Dbg)) :
    shift d (Dbg.map ((a, b) :: l)).pretty = '{' :: (shift d c!"\n" ++ shift d (prettyMap ((a, b) :: l)) ++ c!"}") := by
  unfold Dbg.pretty
  rw [prettyMap]
  simp only [shift_append]
  rw [shift_noLf d (s := c!"}") (by decide)]
  have : shift d c!"{\n" = '{' :: shift d c!"\n" := rfl
  rw [this]
  simp

theorem shift_prettyList (d : Nat) (a : Dbg) (l : List Dbg) : shift d (prettyList (a :: l)) =
    ' ' :: ' ' :: ' ' :: ' ' :: (shift (d + 1) a.pretty ++ ',' :: (shift d c!"\n" ++ shift d (prettyList l))) := by
  rw [prettyList]
  simp only [shift_append]
  rw [shift_indent]
  have : shift d c!",\n" = ',' :: shift d c!"\n" := rfl
  rw [this]
  simp

theorem shift_prettyFields (d : Nat) (n : Str) (a : Dbg) (l : List (Str × Dbg)) (h : Word n) :
    shift d (prettyFields ((n, a) :: l)) = ' ' :: ' ' :: ' ' :: ' ' :: (n ++ ':' :: ' ' ::
      (shift (d + 1) a.pretty ++ ',' :: (shift d c!"\n" ++ shift d (prettyFields l)))) := by
  rw [prettyFields]
  simp only [shift_append]
  rw [shift_indent]
  simp only [shift_append]
  rw [shift_noLf (d + 1) h.noLf, shift_noLf (d + 1) (s := c!": ") (by decide)]
  have : shift d c!",\n" = ',' :: shift d c!"\n" := rfl
  rw [this]
  simp

theorem shift_prettyMap (d : Nat) (k a : Dbg) (l : List (Dbg × Dbg)) :
    shift d (prettyMap ((k, a) :: l)) = ' ' :: ' ' :: ' ' :: ' ' :: (shift (d + 1) k.pretty ++ ':' :: ' ' ::
      (shift (d + 1) a.pretty ++ ',' :: (shift d c!"\n" ++ shift d (prettyMap l)))) := by
  rw [prettyMap]
  simp only [shift_append]
  rw [shift_indent]
  simp only [shift_append]
  rw [shift_noLf (d + 1) (s := c!": ") (by decide)]
  have : shift d c!",\n" = ',' :: shift d c!"\n" := rfl
  rw [this]
  simp

/-- What a text begins with: a quote, a word with something that ends it, or a bracket. -/
inductive Begins (env : FmtEnv) (d : Nat) (r : Str) : Dbg → Str → Prop
  | quoted {s} (t : Str) : s = quoted env t → Begins env d r (.leaf s) (quoted env t ++ r)
  | word {s} : Word s → Begins env d r (.leaf s) (s ++ r)
  | tuple {n l} : Word n → PlainList env l →
      Begins env d r (.tuple n l) (n ++ '(' :: (shift d c!"\n" ++ (shift d (prettyList l) ++ ')' :: r)))
  | struct {n l} : Word n → PlainFields env l →
      Begins env d r (.struct n l) (n ++ ' ' :: '{' :: (shift d c!"\n" ++ (shift d (prettyFields l) ++ '}' :: r)))
  | noList : Begins env d r (.list []) ('[' :: ']' :: r)
  | list {a l} : PlainList env (a :: l) →
      Begins env d r (.list (a :: l)) ('[' :: (shift d c!"\n" ++ (shift d (prettyList (a :: l)) ++ ']' :: r)))
  | noMap : Begins env d r (.map []) ('{' :: '}' :: r)
  | map {k a l} : PlainMap env ((k, a) :: l) →
      Begins env d r (.map ((k, a) :: l)) ('{' :: (shift d c!"\n" ++ (shift d (prettyMap ((k, a) :: l)) ++ '}' :: r)))

theorem begins (env : FmtEnv) (d : Nat) (r : Str) (t : Dbg) (h : Plain env t) : Begins env d r t (shift d t.pretty ++ r) := by
  cases t with
  | leaf s =>
    rcases h with ⟨t, rfl⟩ | h
    · rw [show (Dbg.leaf (quoted env t)).pretty = quoted env t by simp [Dbg.pretty], shift_noLf d (quoted_noLf env t)]
      exact .quoted t rfl
    · rw [show (Dbg.leaf s).pretty = s by simp [Dbg.pretty], shift_noLf d h.noLf]
      exact .word h
  | tuple n l =>
    rw [Plain] at h
    have := Begins.tuple (env := env) (d := d) (r := r) h.1 h.2
    rw [shift_tuple d n l h.1]
    simpa using this
  | struct n l =>
    rw [Plain] at h
    have := Begins.struct (env := env) (d := d) (r := r) h.1 h.2
    rw [shift_struct d n l h.1]
    simpa using this
  | list l =>
    rw [Plain] at h
    cases l with
    | nil => exact .noList
    | cons a l =>
      have := Begins.list (env := env) (d := d) (r := r) h
      rw [shift_list]
      simpa using this
  | map l =>
    rw [Plain] at h
    rcases l with _ | ⟨⟨k, a⟩, l⟩
    · exact .noMap
    · have := Begins.map (env := env) (d := d) (r := r) h
      rw [shift_map]
      simpa using this

theorem Word.head {w r r' : Str} {c : Char} (h : Word w) (e : w ++ r = c :: r') : (c.isAlphanum || c == '_') = true := by
  cases w with
  | nil => exact absurd rfl h.1
  | cons d w => cases e; exact h.2 _ (List.mem_cons_self ..)

theorem ends_cons {c : Char} {r : Str} (h : (c.isAlphanum || c == '_') = false) : Ends (c :: r) := fun x hx => by
  cases hx; exact h

theorem shift_lf (d : Nat) (a b : Str) (h : shift d c!"\n" ++ a = shift d c!"\n" ++ b) : a = b := List.append_cancel_left h

/-- The text of the value is never the beginning of that of another, nor the other way round. -/
def Unique (env : FmtEnv) (d : Nat) (t : Dbg) : Prop := ∀ (t' : Dbg) (r r' : Str), Plain env t → Plain env t' → Stops r → Stops r' →
  shift d t.pretty ++ r = shift d t'.pretty ++ r' → t = t' ∧ r = r'

theorem list_unique (env : FmtEnv) (d : Nat) {c c' : Char} (hc : c ≠ ' ') (hc' : c' ≠ ' ') : ∀ (l l' : List Dbg) (r r' : Str),
    (∀ a ∈ l, Unique env (d + 1) a) → PlainList env l → PlainList env l' →
    shift d (prettyList l) ++ c :: r = shift d (prettyList l') ++ c' :: r' → l = l' ∧ c :: r = c' :: r' := by
  intro l
  induction l with
  | nil =>
    intro l' r r' _ _ _ e
    cases l' with
    | nil => exact ⟨rfl, e⟩
    | cons a l' =>
      rw [shift_prettyList] at e
      exact absurd (List.cons.inj e).1 hc
  | cons a l ih =>
    intro l' r r' hu hp hp' e
    cases l' with
    | nil =>
      rw [shift_prettyList] at e
      exact absurd (List.cons.inj e).1.symm hc'
    | cons b l' =>
      rw [shift_prettyList, shift_prettyList] at e
      simp only [List.cons_append, List.append_assoc, List.cons.injEq, true_and] at e
      rw [PlainList] at hp hp'
      obtain ⟨rfl, e1⟩ := hu a (List.mem_cons_self ..) b _ _ hp.1 hp'.1 (.inr (.inl ⟨_, rfl⟩)) (.inr (.inl ⟨_, rfl⟩)) e
      obtain ⟨rfl, e2⟩ := ih l' r r' (fun x hx => hu x (List.mem_cons_of_mem _ hx)) hp.2 hp'.2
        (shift_lf _ _ _ (List.cons.inj e1).2)
      exact ⟨rfl, e2⟩

theorem fields_unique (env : FmtEnv) (d : Nat) {c c' : Char} (hc : c ≠ ' ') (hc' : c' ≠ ' ') : ∀ (l l' : List (Str × Dbg)) (r r' : Str),
    (∀ a ∈ l, Unique env (d + 1) a.2) → PlainFields env l → PlainFields env l' →
    shift d (prettyFields l) ++ c :: r = shift d (prettyFields l') ++ c' :: r' → l = l' ∧ c :: r = c' :: r' := by
  intro l
  induction l with
  | nil =>
    intro l' r r' _ _ hp' e
    rcases l' with _ | ⟨⟨n, a⟩, l'⟩
    · exact ⟨rfl, e⟩
    · rw [PlainFields] at hp'
      rw [shift_prettyFields _ _ _ _ hp'.1] at e
      exact absurd (List.cons.inj e).1 hc
  | cons p l ih =>
    obtain ⟨m, a⟩ := p
    intro l' r r' hu hp hp' e
    rw [PlainFields] at hp
    rw [shift_prettyFields _ _ _ _ hp.1] at e
    rcases l' with _ | ⟨⟨n, b⟩, l'⟩
    · exact absurd (List.cons.inj e).1.symm hc'
    · rw [PlainFields] at hp'
      rw [shift_prettyFields _ _ _ _ hp'.1] at e
      simp only [List.cons_append, List.append_assoc, List.cons.injEq, true_and] at e
      obtain ⟨rfl, e0⟩ := hp.1.unique hp'.1 (ends_cons (by decide)) (ends_cons (by decide)) e
      simp only [List.cons.injEq, true_and] at e0
      obtain ⟨rfl, e1⟩ := hu (m, a) (List.mem_cons_self ..) b _ _ hp.2.1 hp'.2.1 (.inr (.inl ⟨_, rfl⟩)) (.inr (.inl ⟨_, rfl⟩)) e0
      obtain ⟨rfl, e2⟩ := ih l' r r' (fun x hx => hu x (List.mem_cons_of_mem _ hx)) hp.2.2 hp'.2.2
        (shift_lf _ _ _ (List.cons.inj e1).2)
      exact ⟨rfl, e2⟩

theorem map_unique (env : FmtEnv) (d : Nat) {c c' : Char} (hc : c ≠ ' ') (hc' : c' ≠ ' ') : ∀ (l l' : List (Dbg × Dbg)) (r r' : Str),
    (∀ a ∈ l, Unique env (d + 1) a.1 ∧ Unique env (d + 1) a.2) → PlainMap env l → PlainMap env l' →
    shift d (prettyMap l) ++ c :: r = shift d (prettyMap l') ++ c' :: r' → l = l' ∧ c :: r = c' :: r' := by
  intro l
  induction l with
  | nil =>
    intro l' r r' _ _ _ e
    rcases l' with _ | ⟨⟨n, a⟩, l'⟩
    · exact ⟨rfl, e⟩
    · rw [shift_prettyMap] at e
      exact absurd (List.cons.inj e).1 hc
  | cons p l ih =>
    obtain ⟨m, a⟩ := p
    intro l' r r' hu hp hp' e
    rw [PlainMap] at hp
    rw [shift_prettyMap] at e
    rcases l' with _ | ⟨⟨n, b⟩, l'⟩
    · exact absurd (List.cons.inj e).1.symm hc'
    · rw [PlainMap] at hp'
      rw [shift_prettyMap] at e
      simp only [List.cons_append, List.append_assoc, List.cons.injEq, true_and] at e
      obtain ⟨hu1, hu2⟩ := hu (m, a) (List.mem_cons_self ..)
      obtain ⟨rfl, e0⟩ := hu1 n _ _ hp.1 hp'.1 (.inr (.inr ⟨_, rfl⟩)) (.inr (.inr ⟨_, rfl⟩)) e
      simp only [List.cons.injEq, true_and] at e0
      obtain ⟨rfl, e1⟩ := hu2 b _ _ hp.2.1 hp'.2.1 (.inr (.inl ⟨_, rfl⟩)) (.inr (.inl ⟨_, rfl⟩)) e0
      obtain ⟨rfl, e2⟩ := ih l' r r' (fun x hx => hu x (List.mem_cons_of_mem _ hx)) hp.2.2 hp'.2.2
        (shift_lf _ _ _ (List.cons.inj e1).2)
      exact ⟨rfl, e2⟩

theorem noStop {c : Char} {r : Str} (h : Stops (c :: r)) (h1 : c ≠ ',') (h2 : c ≠ ':') : False := by
  rcases h with h | ⟨_, h⟩ | ⟨_, h⟩
  · cases h
  · exact h1 (List.cons.inj h).1
  · exact h2 (List.cons.inj h).1

theorem pretty_unique' (env : FmtEnv) (n : Nat) : ∀ (d : Nat) (t : Dbg), sizeOf t < n → Unique env d t := by
  induction n with
  | zero => intro d t h; omega
  | succ n ih =>
  intro d t hn t' r r' h h' hr hr' e
  have hb := begins env d r t h
  have hb' := begins env d r' t' h'
  rw [e] at hb
  generalize shift d t'.pretty ++ r' = text at hb hb'
  have nw : ∀ {w r1 r2 : Str} {c : Char}, Word w → w ++ r1 = c :: r2 → (c.isAlphanum || c == '_') = false → False :=
    fun h1 h2 h3 => by rw [h1.head h2] at h3; cases h3
  clear e
  generalize ht : text = text' at hb'
  cases hb with
  | quoted u hu =>
    subst hu
    cases hb' with
    | quoted v hv =>
      subst hv
      obtain ⟨rfl, e⟩ := quoted_unique env ht
      exact ⟨rfl, e⟩
    | word hw => exact (nw hw ht.symm (by decide)).elim
    | tuple hw _ => exact (nw hw ht.symm (by decide)).elim
    | struct hw _ => exact (nw hw ht.symm (by decide)).elim
    | noList => cases ht
    | list _ => cases ht
    | noMap => cases ht
    | map _ => cases ht
  | word hw =>
    cases hb' with
    | quoted v hv => exact (nw hw ht (by decide)).elim
    | word hw' =>
      obtain ⟨rfl, e⟩ := hw.unique hw' hr.ends hr'.ends ht
      exact ⟨rfl, e⟩
    | tuple hw' _ =>
      obtain ⟨rfl, e⟩ := hw.unique hw' hr.ends (ends_cons (by decide)) ht
      subst e
      exact (noStop hr (by decide) (by decide)).elim
    | struct hw' _ =>
      obtain ⟨rfl, e⟩ := hw.unique hw' hr.ends (ends_cons (by decide)) ht
      subst e
      exact (noStop hr (by decide) (by decide)).elim
    | noList => exact (nw hw ht (by decide)).elim
    | list _ => exact (nw hw ht (by decide)).elim
    | noMap => exact (nw hw ht (by decide)).elim
    | map _ => exact (nw hw ht (by decide)).elim
  | @tuple n l hw hl =>
    cases hb' with
    | quoted v hv => exact (nw hw ht (by decide)).elim
    | word hw' =>
      obtain ⟨rfl, e⟩ := hw.unique hw' (ends_cons (by decide)) hr'.ends ht
      subst e
      exact (noStop hr' (by decide) (by decide)).elim
    | tuple hw' hl' =>
      obtain ⟨rfl, e⟩ := hw.unique hw' (ends_cons (by decide)) (ends_cons (by decide)) ht
      have e := shift_lf _ _ _ (List.cons.inj e).2
      obtain ⟨rfl, e2⟩ := list_unique env d (by decide) (by decide) _ _ _ _ (fun a ha => ih (d + 1) a (by have := List.sizeOf_lt_of_mem ha; simp at this hn; omega)) hl hl' e
      exact ⟨rfl, (List.cons.inj e2).2⟩
    | struct hw' _ =>
      obtain ⟨rfl, e⟩ := hw.unique hw' (ends_cons (by decide)) (ends_cons (by decide)) ht
      cases e
    | noList => exact (nw hw ht (by decide)).elim
    | list _ => exact (nw hw ht (by decide)).elim
    | noMap => exact (nw hw ht (by decide)).elim
    | map _ => exact (nw hw ht (by decide)).elim
  | @struct n l hw hl =>
    cases hb' with
    | quoted v hv => exact (nw hw ht (by decide)).elim
    | word hw' =>
      obtain ⟨rfl, e⟩ := hw.unique hw' (ends_cons (by decide)) hr'.ends ht
      subst e
      exact (noStop hr' (by decide) (by decide)).elim
    | tuple hw' hl' =>
      obtain ⟨rfl, e⟩ := hw.unique hw' (ends_cons (by decide)) (ends_cons (by decide)) ht
      cases e
    | struct hw' hl' =>
      obtain ⟨rfl, e⟩ := hw.unique hw' (ends_cons (by decide)) (ends_cons (by decide)) ht
      have e := shift_lf _ _ _ (List.cons.inj (List.cons.inj e).2).2
      obtain ⟨rfl, e2⟩ := fields_unique env d (by decide) (by decide) _ _ _ _ (fun a ha => ih (d + 1) a.2 (by have := List.sizeOf_lt_of_mem ha; rcases a with ⟨a1, a2⟩; simp at this hn ⊢; omega)) hl hl' e
      exact ⟨rfl, (List.cons.inj e2).2⟩
    | noList => exact (nw hw ht (by decide)).elim
    | list _ => exact (nw hw ht (by decide)).elim
    | noMap => exact (nw hw ht (by decide)).elim
    | map _ => exact (nw hw ht (by decide)).elim
  | noList =>
    cases hb' with
    | quoted v hv => cases ht
    | word hw => exact (nw hw ht.symm (by decide)).elim
    | tuple hw _ => exact (nw hw ht.symm (by decide)).elim
    | struct hw _ => exact (nw hw ht.symm (by decide)).elim
    | noList => exact ⟨rfl, (List.cons.inj (List.cons.inj ht).2).2⟩
    | list _ => cases ht
    | noMap => cases ht
    | map _ => cases ht
  | @list a l hl =>
    cases hb' with
    | quoted v hv => cases ht
    | word hw => exact (nw hw ht.symm (by decide)).elim
    | tuple hw _ => exact (nw hw ht.symm (by decide)).elim
    | struct hw _ => exact (nw hw ht.symm (by decide)).elim
    | noList => cases ht
    | list hl' =>
      have e := shift_lf _ _ _ (List.cons.inj ht).2
      obtain ⟨e1, e⟩ := list_unique env d (by decide) (by decide) _ _ _ _ (fun a ha => ih (d + 1) a (by have := List.sizeOf_lt_of_mem ha; simp at this hn; omega)) hl hl' e
      rw [e1]
      exact ⟨rfl, (List.cons.inj e).2⟩
    | noMap => cases ht
    | map _ => cases ht
  | noMap =>
    cases hb' with
    | quoted v hv => cases ht
    | word hw => exact (nw hw ht.symm (by decide)).elim
    | tuple hw _ => exact (nw hw ht.symm (by decide)).elim
    | struct hw _ => exact (nw hw ht.symm (by decide)).elim
    | noList => cases ht
    | list _ => cases ht
    | noMap => exact ⟨rfl, (List.cons.inj (List.cons.inj ht).2).2⟩
    | map _ => cases ht
  | @map k a l hl =>
    cases hb' with
    | quoted v hv => cases ht
    | word hw => exact (nw hw ht.symm (by decide)).elim
    | tuple hw _ => exact (nw hw ht.symm (by decide)).elim
    | struct hw _ => exact (nw hw ht.symm (by decide)).elim
    | noList => cases ht
    | list _ => cases ht
    | noMap => cases ht
    | map hl' =>
      have e := shift_lf _ _ _ (List.cons.inj ht).2
      obtain ⟨e1, e⟩ := map_unique env d (by decide) (by decide) _ _ _ _
        (fun a ha => by have := List.sizeOf_lt_of_mem ha; rcases a with ⟨a1, a2⟩; simp at this hn ⊢; exact ⟨ih _ _ (by omega), ih _ _ (by omega)⟩) hl hl' e
      rw [e1]
      exact ⟨rfl, (List.cons.inj e).2⟩

/-- The text of a value is never the beginning of that of another. -/
theorem pretty_unique (env : FmtEnv) (d : Nat) (t : Dbg) : Unique env d t := pretty_unique' env (sizeOf t + 1) d t (by omega)

/-- Values with the same text are the same. -/
theorem pretty_inj {env : FmtEnv} {t t' : Dbg} (h : Plain env t) (h' : Plain env t') (e : t.pretty = t'.pretty) : t = t' :=
  (pretty_unique env 0 t t' [] [] h h' (.inl rfl) (.inl rfl) (by rw [shift_zero, shift_zero, e])).1

/-! ## Problems -/

theorem quoted_inj {env : FmtEnv} {s t : Str} (h : quoted env s = quoted env t) : s = t :=
  (quoted_unique env (r := []) (r' := []) (by simpa using h)).1

theorem natStr_inj {n m : Nat} (h : natStr n = natStr m) : n = m := by
  have h1 := Nat.ofDigitChars_ten_toDigits (n := n)
  have h2 := Nat.ofDigitChars_ten_toDigits (n := m)
  unfold natStr at h
  rw [← h1, ← h2, h]

theorem natStr_word (n : Nat) : Word (natStr n) :=
  ⟨Nat.toDigits_ne_nil, fun c hc => by
    have := TagsRead.digits_natStr n c hc
    simp [Char.isAlphanum, this]⟩

theorem map_inj {α β : Type} {f : α → β} (hf : ∀ a b, f a = f b → a = b) : ∀ {l l' : List α}, l.map f = l'.map f → l = l' := by
  intro l
  induction l with
  | nil => intro l' h; cases l' with
    | nil => rfl
    | cons => cases h
  | cons a l ih =>
    intro l' h
    cases l' with
    | nil => cases h
    | cons b l' =>
      simp only [List.map_cons, List.cons.injEq] at h
      rw [hf _ _ h.1, ih h.2]

section
variable {env : Env} {log : LogEnv}

theorem dbgStr_inj {s t : Str} (h : dbgStr env s = dbgStr env t) : s = t := by
  unfold dbgStr at h
  rw [debugStr_eq, debugStr_eq] at h
  exact quoted_inj (Dbg.leaf.inj h)

theorem dbgStr_plain (s : Str) : Plain env.fmt (dbgStr env s) := by
  unfold dbgStr
  rw [debugStr_eq, Plain]
  exact .inl ⟨s, rfl⟩

theorem dbgPath_inj (hp : PathsQuoted env.fmt log) {p q : Path} (h : log.debugPath p = log.debugPath q) : p = q := by
  obtain ⟨f, h1, h2⟩ := hp
  rw [h2, h2] at h
  exact h1 _ _ (quoted_inj h)

theorem dbgPath_plain (hp : PathsQuoted env.fmt log) (p : Path) : Plain env.fmt (.leaf (log.debugPath p)) := by
  obtain ⟨f, h1, h2⟩ := hp
  rw [Plain]
  exact .inl ⟨_, h2 p⟩

theorem dbgReqId_inj {s t : RequirementId} (h : dbgReqId env s = dbgReqId env t) : s = t := by
  unfold dbgReqId at h
  simp only [Dbg.tuple.injEq, List.cons.injEq, and_true, true_and] at h
  exact dbgStr_inj h

theorem dbgArtId_inj {s t : ArtefactId} (h : dbgArtId env s = dbgArtId env t) : s = t := by
  unfold dbgArtId at h
  simp only [Dbg.tuple.injEq, List.cons.injEq, and_true, true_and] at h
  exact dbgStr_inj h

theorem word_of {s : Str} (h1 : s ≠ []) (h2 : (s.all fun c => c.isAlphanum || c == '_') = true) : Word s :=
  ⟨h1, List.all_eq_true.1 h2⟩

theorem plain_tuple1 {n : Str} {d : Dbg} (hn : Word n) (hd : Plain env.fmt d) : Plain env.fmt (.tuple n [d]) := by
  rw [Plain, PlainList, PlainList]
  exact ⟨hn, hd, trivial⟩

theorem plain_list {α : Type} {f : α → Dbg} (h : ∀ a, Plain env.fmt (f a)) (l : List α) : Plain env.fmt (.list (l.map f)) := by
  rw [Plain]
  induction l with
  | nil => rw [List.map_nil, PlainList]; trivial
  | cons a l ih => rw [List.map_cons, PlainList]; exact ⟨h a, ih⟩

theorem dbgReqId_plain (s : RequirementId) : Plain env.fmt (dbgReqId env s) :=
  plain_tuple1 (word_of (by decide) (by decide)) (dbgStr_plain s)

theorem dbgArtId_plain (s : ArtefactId) : Plain env.fmt (dbgArtId env s) :=
  plain_tuple1 (word_of (by decide) (by decide)) (dbgStr_plain s)

theorem dbgOption_inj {α : Type} {f : α → Dbg} (hf : ∀ a b, f a = f b → a = b) {a b : Option α}
    (h : dbgOption f a = dbgOption f b) : a = b := by
  cases a <;> cases b
  · rfl
  · cases h
  · cases h
  · unfold dbgOption at h
    simp only [Dbg.tuple.injEq, List.cons.injEq, and_true, true_and] at h
    rw [hf _ _ h]

theorem dbgOption_plain {α : Type} {f : α → Dbg} (hf : ∀ a, Plain env.fmt (f a)) (a : Option α) : Plain env.fmt (dbgOption f a) := by
  cases a with
  | none => unfold dbgOption; rw [Plain]; exact .inr (word_of (by decide) (by decide))
  | some a => exact plain_tuple1 (word_of (by decide) (by decide)) (hf a)

theorem dbgPlace_inj {a b : LocationInFile} (h : dbgLocationInFile env a = dbgLocationInFile env b) : a = b := by
  cases a <;> cases b <;> unfold dbgLocationInFile at h <;>
    simp only [Dbg.tuple.injEq, List.cons.injEq, and_true, true_and, Dbg.leaf.injEq] at h
  · rw [natStr_inj h]
  · exact absurd h.1 (by decide)
  · exact absurd h.1 (by decide)
  · exact absurd h.1 (by decide)
  · rw [natStr_inj h.1, natStr_inj h.2]
  · exact absurd h.1 (by decide)
  · exact absurd h.1 (by decide)
  · exact absurd h.1 (by decide)
  · rw [dbgStr_inj h]

theorem plain_nat (n : Nat) : Plain env.fmt (.leaf (natStr n)) := by
  rw [Plain]
  exact .inr (natStr_word n)

theorem dbgPlace_plain (a : LocationInFile) : Plain env.fmt (dbgLocationInFile env a) := by
  cases a with
  | line l => exact plain_tuple1 (word_of (by decide) (by decide)) (plain_nat l)
  | lineAndColumn l c =>
    unfold dbgLocationInFile
    rw [Plain, PlainList, PlainList, PlainList]
    exact ⟨word_of (by decide) (by decide), plain_nat l, plain_nat c, trivial⟩
  | string s => exact plain_tuple1 (word_of (by decide) (by decide)) (dbgStr_plain s)

theorem dbgLocation_inj (hp : PathsQuoted env.fmt log) {a b : Location} (h : dbgLocation env log a = dbgLocation env log b) :
    a = b := by
  unfold dbgLocation at h
  simp only [Dbg.struct.injEq, List.cons.injEq, and_true, true_and, Prod.mk.injEq, Dbg.leaf.injEq] at h
  obtain ⟨f, l⟩ := a
  obtain ⟨f', l'⟩ := b
  simp only at h
  rw [dbgPath_inj hp h.1, dbgOption_inj (fun _ _ => dbgPlace_inj) h.2]

theorem dbgLocation_plain (hp : PathsQuoted env.fmt log) (a : Location) : Plain env.fmt (dbgLocation env log a) := by
  unfold dbgLocation
  rw [Plain, PlainFields, PlainFields, PlainFields]
  exact ⟨word_of (by decide) (by decide), word_of (by decide) (by decide), dbgPath_plain hp _,
    word_of (by decide) (by decide), dbgOption_plain dbgPlace_plain _, trivial⟩

theorem dbgReference_inj (hp : PathsQuoted env.fmt log) {a b : Reference} (h : dbgReference env log a = dbgReference env log b) :
    a = b := by
  unfold dbgReference at h
  simp only [Dbg.struct.injEq, List.cons.injEq, and_true, true_and, Prod.mk.injEq] at h
  obtain ⟨h1, h2, h3⟩ := h
  cases a
  cases b
  simp only at *
  rw [dbgReqId_inj h1, dbgOption_inj (fun _ _ => dbgStr_inj) h2, dbgLocation_inj hp h3]

theorem dbgReference_plain (hp : PathsQuoted env.fmt log) (a : Reference) : Plain env.fmt (dbgReference env log a) := by
  unfold dbgReference
  rw [Plain, PlainFields, PlainFields, PlainFields, PlainFields]
  exact ⟨word_of (by decide) (by decide), word_of (by decide) (by decide), dbgReqId_plain _,
    word_of (by decide) (by decide), dbgOption_plain dbgStr_plain _, word_of (by decide) (by decide), dbgLocation_plain hp _, trivial⟩

theorem entries_inj {a b : BMap Str Str} (h : a.entries = b.entries) : a = b := by
  cases a; cases b; cases h; rfl

theorem dbgRequirement_inj (hp : PathsQuoted env.fmt log) {a b : Requirement}
    (h : dbgRequirement env log a = dbgRequirement env log b) : a = b := by
  unfold dbgRequirement at h
  simp only [Dbg.struct.injEq, List.cons.injEq, and_true, true_and, Prod.mk.injEq, Dbg.list.injEq, Dbg.map.injEq] at h
  obtain ⟨h1, h2, h3, h4, h5, h6, h7⟩ := h
  have h7' := entries_inj (map_inj (fun x y hxy => by
    obtain ⟨x1, x2⟩ := x
    obtain ⟨y1, y2⟩ := y
    simp only [Prod.mk.injEq] at hxy
    rw [dbgStr_inj hxy.1, dbgStr_inj hxy.2]) h7)
  cases a
  cases b
  simp only at *
  rw [dbgReqId_inj h1, dbgOption_inj (fun _ _ => dbgStr_inj) h2, dbgLocation_inj hp h3,
    map_inj (fun _ _ => dbgReference_inj hp) h4, map_inj (fun _ _ => dbgReference_inj hp) h5,
    map_inj (fun _ _ => dbgStr_inj) h6, h7']

theorem plain_map {α : Type} {f g : α → Dbg} (hf : ∀ a, Plain env.fmt (f a)) (hg : ∀ a, Plain env.fmt (g a)) (l : List α) :
    Plain env.fmt (.map (l.map fun a => (f a, g a))) := by
  rw [Plain]
  induction l with
  | nil => rw [List.map_nil, PlainMap]; trivial
  | cons a l ih => rw [List.map_cons, PlainMap]; exact ⟨hf a, hg a, ih⟩

theorem dbgRequirement_plain (hp : PathsQuoted env.fmt log) (a : Requirement) : Plain env.fmt (dbgRequirement env log a) := by
  unfold dbgRequirement
  simp only [Plain, PlainFields]
  refine ⟨word_of (by decide) (by decide), word_of (by decide) (by decide), dbgReqId_plain _,
    word_of (by decide) (by decide), dbgOption_plain dbgStr_plain _, word_of (by decide) (by decide), dbgLocation_plain hp _,
    word_of (by decide) (by decide), ?_, word_of (by decide) (by decide), ?_,
    word_of (by decide) (by decide), ?_, word_of (by decide) (by decide), ?_, trivial⟩
  · have := plain_list (dbgReference_plain hp) a.covers
    rwa [Plain] at this
  · have := plain_list (dbgReference_plain hp) a.depends
    rwa [Plain] at this
  · have := plain_list (env := env) dbgStr_plain a.tags
    rwa [Plain] at this
  · have := plain_map (env := env) (fun e => dbgStr_plain e.1) (fun e => dbgStr_plain e.2) a.attributes.entries
    rwa [Plain] at this

theorem dbgRelation_inj {a b : Relation} (h : dbgRelation env a = dbgRelation env b) : a = b := by
  unfold dbgRelation at h
  simp only [Dbg.struct.injEq, List.cons.injEq, and_true, true_and, Prod.mk.injEq, Dbg.list.injEq] at h
  cases a
  cases b
  simp only at h
  rw [dbgArtId_inj h.1, map_inj (fun _ _ => dbgArtId_inj) h.2]

theorem dbgRelation_plain (a : Relation) : Plain env.fmt (dbgRelation env a) := by
  unfold dbgRelation
  simp only [Plain, PlainFields]
  refine ⟨word_of (by decide) (by decide), word_of (by decide) (by decide), dbgArtId_plain _, word_of (by decide) (by decide), ?_, trivial⟩
  have := plain_list (env := env) dbgArtId_plain a.lower
  rwa [Plain] at this

theorem dbgError_inj (hp : PathsQuoted env.fmt log) {a b : Error} (h : dbgError env log a = dbgError env log b) : a = b := by
  have hs : ∀ s t, dbgStr env s = dbgStr env t ↔ s = t := fun s t => ⟨dbgStr_inj, congrArg _⟩
  have hi : ∀ s t, dbgReqId env s = dbgReqId env t ↔ s = t := fun s t => ⟨dbgReqId_inj, congrArg _⟩
  have ha : ∀ s t, dbgArtId env s = dbgArtId env t ↔ s = t := fun s t => ⟨dbgArtId_inj, congrArg _⟩
  have hl : ∀ s t, dbgLocation env log s = dbgLocation env log t ↔ s = t := fun s t => ⟨dbgLocation_inj hp, congrArg _⟩
  have hr : ∀ s t, dbgRequirement env log s = dbgRequirement env log t ↔ s = t := fun s t => ⟨dbgRequirement_inj hp, congrArg _⟩
  have hrel : ∀ s t, dbgRelation env s = dbgRelation env t ↔ s = t := fun s t => ⟨dbgRelation_inj, congrArg _⟩
  have hpath : ∀ s t, log.debugPath s = log.debugPath t ↔ s = t := fun s t => ⟨dbgPath_inj hp, congrArg _⟩
  cases a <;> cases b <;> unfold dbgError at h <;>
    simp only [Dbg.struct.injEq, Dbg.tuple.injEq, List.cons.injEq, and_true, true_and, Prod.mk.injEq, Dbg.leaf.injEq, reduceCtorEq,
      hs, hi, ha, hl, hr, hrel, hpath] at h <;>
    first
    | rfl
    | exact absurd h.1 (by decide)
    | (subst h; rfl)
    | (obtain ⟨rfl, rfl⟩ := h; rfl)
    | (obtain ⟨rfl, rfl, rfl⟩ := h; rfl)
    | (obtain ⟨rfl, rfl, rfl, rfl⟩ := h; rfl)

theorem dbgError_plain (hp : PathsQuoted env.fmt log) (a : Error) : Plain env.fmt (dbgError env log a) := by
  cases a <;> unfold dbgError
  case io p e =>
    have := dbgPath_plain hp p
    rw [Plain, PlainList, PlainList, PlainList]
    exact ⟨word_of (by decide) (by decide), this, dbgStr_plain _, trivial⟩
  case emptyGraph => rw [Plain]; exact .inr (word_of (by decide) (by decide))
  all_goals
    simp only [Plain, PlainFields, PlainList]
    repeat first
    | exact trivial
    | refine And.intro (word_of (by decide) (by decide)) ?_
    | refine And.intro (dbgStr_plain _) ?_
    | refine And.intro (dbgReqId_plain _) ?_
    | refine And.intro (dbgArtId_plain _) ?_
    | refine And.intro (dbgLocation_plain hp _) ?_
    | refine And.intro (dbgRequirement_plain hp _) ?_
    | refine And.intro (dbgRelation_plain _) ?_

theorem dbgControllerError_inj (hp : PathsQuoted env.fmt log) {a b : ControllerError}
    (h : dbgControllerError env log a = dbgControllerError env log b) : a = b := by
  have hs : ∀ s t, dbgStr env s = dbgStr env t ↔ s = t := fun s t => ⟨dbgStr_inj, congrArg _⟩
  have hpath : ∀ s t, log.debugPath s = log.debugPath t ↔ s = t := fun s t => ⟨dbgPath_inj hp, congrArg _⟩
  cases a <;> cases b <;> unfold dbgControllerError at h <;>
    simp only [Dbg.tuple.injEq, List.cons.injEq, and_true, true_and, Dbg.leaf.injEq, hs, hpath] at h <;>
    first
    | exact absurd h.1 (by decide)
    | (subst h; rfl)
    | (obtain ⟨rfl, rfl⟩ := h; rfl)

theorem dbgControllerError_plain (hp : PathsQuoted env.fmt log) (a : ControllerError) :
    Plain env.fmt (dbgControllerError env log a) := by
  cases a with
  | config e => exact plain_tuple1 (word_of (by decide) (by decide)) (dbgStr_plain e)
  | unknownJob e => exact plain_tuple1 (word_of (by decide) (by decide)) (dbgStr_plain e)
  | io p e =>
    have := dbgPath_plain hp p
    unfold dbgControllerError
    rw [Plain, PlainList, PlainList, PlainList]
    exact ⟨word_of (by decide) (by decide), this, dbgStr_plain _, trivial⟩

end

/-! ## C122 -/

/-- **C122** Two errors that are announced with the same text are the same. -/
theorem C122_problem {env : Env} {log : LogEnv} (hp : PathsQuoted env.fmt log) {e e' : Error}
    (h : announced env log e = announced env log e') : e = e' :=
  dbgError_inj hp (pretty_inj (dbgError_plain hp e) (dbgError_plain hp e')
    (List.append_cancel_left (Prod.mk.inj h).2))

/-- **C122** So are errors of the jobs that are announced. -/
theorem C122_controller {env : Env} {log : LogEnv} (hp : PathsQuoted env.fmt log) {e e' : ControllerError}
    (h : (dbgControllerError env log e).pretty = (dbgControllerError env log e').pretty) : e = e' :=
  dbgControllerError_inj hp (pretty_inj (dbgControllerError_plain hp e) (dbgControllerError_plain hp e') h)

/-- **C122** The reason "derived Requirements" says which they are. -/
theorem C122_derived {env : Env} {d d' : BMap ArtefactId (List RequirementId)}
    (h : (dbgDerived env d).pretty = (dbgDerived env d').pretty) : d = d' := by
  have hpl : ∀ d : BMap ArtefactId (List RequirementId), Plain env.fmt (dbgDerived env d) := fun d =>
    plain_map (α := ArtefactId × List RequirementId) (fun e => dbgArtId_plain e.1) (fun e => plain_list dbgReqId_plain e.2) _
  have he := pretty_inj (hpl d) (hpl d') h
  unfold dbgDerived at he
  have := map_inj (fun x y hxy => by
    obtain ⟨x1, x2⟩ := x
    obtain ⟨y1, y2⟩ := y
    simp only [Prod.mk.injEq, Dbg.list.injEq] at hxy
    rw [dbgArtId_inj hxy.1, map_inj (fun _ _ => dbgReqId_inj) hxy.2]) (Dbg.map.inj he)
  cases d; cases d'; cases this; rfl

/-- Paths as `Debug` of a text shows them, and two problems that differ in a quote inside of a title only. -/
example : PathsQuoted FmtEnv.example ⟨quoted FmtEnv.example, fun _ => 0⟩ ∧
    announced (CtrlExample.env .nil CtrlExample.config) ⟨quoted FmtEnv.example, fun _ => 0⟩ (.format ⟨c!"a", some (.line 1)⟩ c!"x\",\n") ≠
      announced (CtrlExample.env .nil CtrlExample.config) ⟨quoted FmtEnv.example, fun _ => 0⟩ (.format ⟨c!"a", some (.line 1)⟩ c!"x,\n") :=
  ⟨⟨fun p => p, fun _ _ h => h, fun _ => rfl⟩, by decide +kernel⟩

end Reqtrace
