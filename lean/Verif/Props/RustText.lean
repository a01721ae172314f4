import Verif.Lemmas.RustKinds
import Verif.Props.Shuffled2
import Verif.Props.Renamed

/-!
# C164: Rust code as text
-/

namespace Reqtrace

open Spec Rs

namespace RustText

open Spec.RustLayout

/-! ## Positions -/

theorem position (s : Str) : s.foldl move (1, 0) = (lineAfter s, columnAfter s) := by
  have key : ∀ t : Str, t.foldr (fun c p => move p c) (1, 0) = (1 + t.count '\n', (t.takeWhile (· ≠ '\n')).length) := by
    intro t
    induction t with
    | nil => rfl
    | cons c t ih =>
      rw [List.foldr_cons, ih, move]
      by_cases hc : c = '\n'
      · subst hc
        simp [Nat.add_assoc]
      · rw [if_neg hc, List.takeWhile_cons_of_pos (by simpa using hc), List.count_cons_of_ne hc]
        rfl
  have := key s.reverse
  rw [List.foldr_reverse, List.count_reverse] at this
  rw [this]; rfl

/-! ## Tokens -/

theorem isPart_iff (c : Char) : isPart c = true ↔ WordChar c := by simp [isPart, WordChar]

theorem wordGoesOn_false {r : Str} (h : ∀ c, r.head? = some c → ¬ WordChar c) : wordGoesOn r = false := by
  cases r with
  | nil => rfl
  | cons c r =>
    have := h c rfl
    rw [← isPart_iff] at this
    simpa [wordGoesOn] using this

theorem textGoesOn_false {r : Str} (h : ∀ c, r.head? = some c → ¬ WordChar c) (h' : r.head? ≠ some '.') :
    textGoesOn r = false := by
  rw [textGoesOn, wordGoesOn_false h, Bool.false_or]
  simpa using h'

theorem blockComment_text {s : Str} (h : BlockText s) (r : Str) :
    blockComment (s ++ c!"*/" ++ r) = some (s ++ c!"*/", r) := by
  induction h with
  | nil => rfl
  | @cons c s h1 h2 h3 _ ih =>
    have e : c :: s ++ c!"*/" ++ r = c :: (s ++ c!"*/" ++ r) := rfl
    rw [e, blockComment, if_neg, if_neg, ih]
    · rfl
    · rintro (h | ⟨rfl, h⟩)
      · exact h1 h
      · refine h3 ⟨rfl, ?_⟩
        cases s with
        | nil => exact .inl rfl
        | cons d s => exact .inr h
    · rintro ⟨rfl, h⟩
      cases s with
      | nil => cases h
      | cons d s => exact h2 ⟨rfl, h⟩

theorem span_line {s : Str} (h : '\n' ∉ s) (r : Str) (hr : r = [] ∨ r.head? = some '\n') :
    (s ++ r).takeWhile (· != '\n') = s ∧ (s ++ r).dropWhile (· != '\n') = r := by
  have hs : ∀ c ∈ s, (c != '\n') = true := by
    intro c hc
    have : c ≠ '\n' := by rintro rfl; exact h hc
    simpa using this
  rw [List.takeWhile_append_of_pos hs, List.dropWhile_append_of_pos hs]
  rcases hr with rfl | hr
  · simp
  · cases r with
    | nil => cases hr
    | cons c r => cases hr; simp

theorem comment_line {s : Str} (h : LineText s) (r : Str) (hr : r = [] ∨ r.head? = some '\n') :
    comment ('/' :: (s ++ r)) = some ('/' :: s, r) := by
  obtain ⟨h1, h2, h3, h4⟩ := h
  obtain ⟨e1, e2⟩ := span_line h1 r hr
  rw [comment, if_pos rfl, e1, e2, if_neg]
  rintro (h | h | h)
  · cases s with
    | nil => rcases hr with rfl | hr
             · cases h
             · rw [List.nil_append, hr] at h; cases h
    | cons c s => exact h3 h
  · cases s with
    | nil => rcases hr with rfl | hr
             · cases h
             · rw [List.nil_append, hr] at h; cases h
    | cons c s => exact h4 h
  · exact h2 h

theorem comment_block {s : Str} (h : BlockText s) (h1 : s.head? ≠ some '*') (h2 : s.head? ≠ some '!') (h3 : s ≠ [])
    (r : Str) : comment ('*' :: (s ++ c!"*/" ++ r)) = some ('*' :: (s ++ c!"*/"), r) := by
  rw [comment, if_neg (by decide), if_pos rfl, if_neg, blockComment_text h]
  · rfl
  · cases s with
    | nil => exact absurd rfl h3
    | cons c s => rintro (h | h); exact h1 h; exact h2 h

theorem literal_text {s : Str} (h1 : '"' ∉ s) (h2 : '\\' ∉ s) (h3 : '\r' ∉ s) (r : Str) :
    literal (s ++ '"' :: r) = some (s ++ c!"\"", r) := by
  induction s with
  | nil => rfl
  | cons c s ih =>
    simp only [List.mem_cons, not_or] at h1 h2 h3
    rw [List.cons_append, literal, if_neg (Ne.symm h1.1), if_neg, ih h1.2 h2.2 h3.2]
    · rfl
    · rintro (h | h)
      · exact h2.1 h.symm
      · exact h3.1 h.symm

theorem documentation_line {s : Str} (h : s.head? ≠ some '/') (r : Str) (hr : r = [] ∨ r.head? = some '\n') :
    documentation ('/' :: (s ++ r)) = none := by
  cases s with
  | nil => cases r with
    | nil => rfl
    | cons c r =>
      rcases hr with hr | hr
      · cases hr
      · cases hr; rfl
  | cons c s =>
    rw [List.cons_append]
    unfold documentation
    split
    · rename_i e
      cases e
      exact absurd rfl h
    · rfl

theorem documentation_text {s : Str} (h1 : '\n' ∉ s) (h2 : s.head? ≠ some '/') (r : Str) (hr : r = [] ∨ r.head? = some '\n') :
    documentation ('/' :: '/' :: (s ++ r)) = some (s, r) := by
  obtain ⟨e1, e2⟩ := span_line h1 r hr
  rw [documentation, e1, e2, if_neg]
  cases s with
  | nil => rcases hr with rfl | hr
           · simp
           · rw [List.nil_append, hr]; decide
  | cons c s => exact h2

theorem documentation_sound {r s t : Str} (h : documentation r = some (s, t)) :
    r = '/' :: '/' :: (s ++ t) ∧ '\n' ∉ s ∧ s.head? ≠ some '/' ∧ (t = [] ∨ t.head? = some '\n') := by
  unfold documentation at h
  split at h
  · rename_i r
    split at h
    · cases h
    · rename_i hr
      cases h
      refine ⟨by rw [List.takeWhile_append_dropWhile], ?_, ?_, ?_⟩
      · intro hm
        have := List.all_eq_true.1 List.all_takeWhile _ hm
        simp at this
      · cases r with
        | nil => simp
        | cons c r =>
          rw [List.takeWhile_cons]
          split
          · exact hr
          · simp
      · have := List.head?_dropWhile_not (fun c : Char => c != '\n') r
        cases hd : r.dropWhile (· != '\n') with
        | nil => exact .inl rfl
        | cons c t =>
          rw [hd] at this
          have hc : c = '\n' := by simpa using this
          exact .inr (by rw [hc]; rfl)
  · cases h

theorem lex_nil (fuel : Nat) (p : Nat × Nat) : lex fuel p [] = some [] := by cases fuel <;> rw [lex]

theorem lex_gap {g : Str} (h : Gap g) (r : Str) : ∀ (p : Nat × Nat) (fuel : Nat), (g ++ r).length ≤ fuel →
    ∃ fuel', r.length ≤ fuel' ∧ lex fuel p (g ++ r) = lex fuel' (g.foldl move p) r := by
  induction h with
  | nil => intro p fuel hf; exact ⟨fuel, hf, rfl⟩
  | @space c g hc _ ih =>
    intro p fuel hf
    obtain ⟨fuel, rfl⟩ : ∃ f, fuel = f + 1 := ⟨fuel - 1, by simp at hf; omega⟩
    obtain ⟨fuel', h1, h2⟩ := ih (move p c) fuel (by simpa using hf)
    exact ⟨fuel', h1, by rw [List.cons_append, lex, if_pos hc, h2]; rfl⟩
  | @line s g hs _ ih =>
    intro p fuel hf
    obtain ⟨fuel, rfl⟩ : ∃ f, fuel = f + 1 := ⟨fuel - 1, by simp at hf; omega⟩
    obtain ⟨fuel, rfl⟩ : ∃ f, fuel = f + 1 := ⟨fuel - 1, by simp at hf; omega⟩
    obtain ⟨fuel', h1, h2⟩ := ih (move (('/' :: s).foldl move (move p '/')) '\n') fuel (by simp at hf ⊢; omega)
    refine ⟨fuel', h1, ?_⟩
    have e : c!"//" ++ s ++ c!"\n" ++ g ++ r = '/' :: ('/' :: (s ++ '\n' :: (g ++ r))) := by simp
    rw [e, lex, if_neg (by decide), if_pos rfl, documentation_line hs.2.2.1 _ (.inr rfl), comment_line hs _ (.inr rfl)]
    show lex (fuel + 1) _ ('\n' :: (g ++ r)) = _
    rw [lex, if_pos (by decide), h2]
    simp
  | @block s g hs h3 h4 h5 _ ih =>
    intro p fuel hf
    obtain ⟨fuel, rfl⟩ : ∃ f, fuel = f + 1 := ⟨fuel - 1, by simp at hf; omega⟩
    obtain ⟨fuel', h1, h2⟩ := ih (('*' :: (s ++ c!"*/")).foldl move (move p '/')) fuel (by simp at hf ⊢; omega)
    refine ⟨fuel', h1, ?_⟩
    have e : c!"/*" ++ s ++ c!"*/" ++ g ++ r = '/' :: ('*' :: (s ++ c!"*/" ++ (g ++ r))) := by simp
    have hd : documentation ('*' :: (s ++ c!"*/" ++ (g ++ r))) = none := by
      unfold documentation
      split
      · rename_i e; cases e
      · rfl
    rw [e, lex, if_neg (by decide), if_pos rfl, hd, comment_block hs h3 h4 h5]
    show lex fuel _ (g ++ r) = _
    rw [h2]
    simp

theorem digit_start {c : Char} (h : c.isDigit = true) : ¬ isStart c = true := by
  intro h'
  simp only [isStart, Bool.or_eq_true, beq_iff_eq] at h'
  simp only [Char.isDigit, Bool.and_eq_true, decide_eq_true_eq] at h
  rcases h' with h' | rfl
  · simp only [Char.isAlpha, Char.isUpper, Char.isLower, Bool.or_eq_true, Bool.and_eq_true, decide_eq_true_eq] at h'
    have a := UInt32.le_iff_toNat_le.1 h.2
    rcases h' with h' | h'
    · have b := UInt32.le_iff_toNat_le.1 h'.1
      have : (57 : UInt32).toNat < (65 : UInt32).toNat := by decide
      exact absurd (Nat.le_trans b a) (Nat.not_le_of_lt this)
    · have b := UInt32.le_iff_toNat_le.1 h'.1
      have : (57 : UInt32).toNat < (97 : UInt32).toNat := by decide
      exact absurd (Nat.le_trans b a) (Nat.not_le_of_lt this)
  · exact absurd h.2 (by decide)

theorem lex_token {k : Kind} {s r : Str} (h : Spelled k s) (ha : Apart k r) (p : Nat × Nat) (fuel : Nat)
    (hf : (s ++ r).length ≤ fuel) : ∃ fuel', r.length ≤ fuel' ∧
      lex fuel p (s ++ r) = (lex fuel' (s.foldl move p) r).map (⟨k, p.1, p.2⟩ :: ·) := by
  cases h with
  | @word c s hc hs hne =>
    obtain ⟨fuel, rfl⟩ : ∃ f, fuel = f + 1 := ⟨fuel - 1, by simp at hf; omega⟩
    refine ⟨fuel, by simp at hf; omega, ?_⟩
    have hst : isStart c = true := by simpa [isStart] using hc
    have hp : ∀ d ∈ s, isPart d = true := fun d hd => (isPart_iff d).2 (hs d hd)
    have hr : r.takeWhile isPart = [] ∧ r.dropWhile isPart = r := by
      cases r with
      | nil => exact ⟨rfl, rfl⟩
      | cons d r =>
        have := wordGoesOn_false ha.1
        simp only [wordGoesOn] at this
        rw [List.takeWhile_cons_of_neg (by simp [this]), List.dropWhile_cons_of_neg (by simp [this])]
        exact ⟨rfl, rfl⟩
    have n1 : ¬ (c = ' ' ∨ c = '\t' ∨ c = '\n') := by
      rintro (rfl | rfl | rfl) <;> exact absurd hst (by decide)
    have n2 : c ≠ '/' := by rintro rfl; exact absurd hst (by decide)
    have n3 : c ≠ '"' := by rintro rfl; exact absurd hst (by decide)
    rw [List.cons_append, lex, if_neg n1, if_neg n2, if_neg n3, if_pos hst]
    simp only [List.takeWhile_append_of_pos hp, List.dropWhile_append_of_pos hp, hr, List.append_nil]
    rw [if_neg (by rintro (h | h | h); exact hne h; exact ha.2.1 h; exact ha.2.2 h)]
    rfl
  | @text s h1 h2 h3 =>
    obtain ⟨fuel, rfl⟩ : ∃ f, fuel = f + 1 := ⟨fuel - 1, by simp at hf; omega⟩
    refine ⟨fuel, by simp at hf; omega, ?_⟩
    have e : '"' :: s ++ c!"\"" ++ r = '"' :: (s ++ '"' :: r) := by simp
    rw [e, lex, if_neg (by decide), if_neg (by decide), if_pos rfl, literal_text h1 h2 h3]
    show (if textGoesOn r = true then none else _) = _
    rw [textGoesOn_false ha.1 ha.2]
    rfl
  | @number c s hc hs =>
    obtain ⟨fuel, rfl⟩ : ∃ f, fuel = f + 1 := ⟨fuel - 1, by simp at hf; omega⟩
    refine ⟨fuel, by simp at hf; omega, ?_⟩
    have hr : r.takeWhile Char.isDigit = [] ∧ r.dropWhile Char.isDigit = r := by
      cases r with
      | nil => exact ⟨rfl, rfl⟩
      | cons d r =>
        have : d.isDigit = false := by
          have h1 := ha.1 d rfl
          have h2 : ¬ d.isDigit = true := fun h => h1 (.inl (by simp [Char.isAlphanum, h]))
          simpa using h2
        rw [List.takeWhile_cons_of_neg (by simp [this]), List.dropWhile_cons_of_neg (by simp [this])]
        exact ⟨rfl, rfl⟩
    have n1 : ¬ (c = ' ' ∨ c = '\t' ∨ c = '\n') := by
      rintro (rfl | rfl | rfl) <;> exact absurd hc (by decide)
    have n2 : c ≠ '/' := by rintro rfl; exact absurd hc (by decide)
    have n3 : c ≠ '"' := by rintro rfl; exact absurd hc (by decide)
    have n4 : ¬ isStart c = true := digit_start hc
    rw [List.cons_append, lex, if_neg n1, if_neg n2, if_neg n3, if_neg n4, if_pos hc]
    simp only [List.takeWhile_append_of_pos hs, List.dropWhile_append_of_pos hs, hr, List.append_nil]
    rw [textGoesOn_false ha.1 ha.2]
    rfl
  | @joint s hs =>
    obtain ⟨fuel, rfl⟩ : ∃ f, fuel = f + 1 := ⟨fuel - 1, by
      simp only [List.mem_cons, List.not_mem_nil, or_false] at hs
      rcases hs with rfl | rfl <;> (simp at hf; omega)⟩
    simp only [List.mem_cons, List.not_mem_nil, or_false] at hs
    refine ⟨fuel, by rcases hs with rfl | rfl <;> (simp at hf; omega), ?_⟩
    rcases hs with rfl | rfl
    · show lex (fuel + 1) p (':' :: ':' :: r) = _
      rw [lex, if_neg (by decide), if_neg (by decide), if_neg (by decide), if_neg (by decide), if_neg (by decide),
        if_pos ⟨rfl, rfl⟩]
      rfl
    · show lex (fuel + 1) p ('-' :: '>' :: r) = _
      rw [lex, if_neg (by decide), if_neg (by decide), if_neg (by decide), if_neg (by decide), if_neg (by decide),
        if_neg (by simp), if_pos ⟨rfl, rfl⟩]
      rfl
  | @doc s h1 h2 h3 =>
    obtain ⟨fuel, rfl⟩ : ∃ f, fuel = f + 1 := ⟨fuel - 1, by simp at hf; omega⟩
    refine ⟨fuel, by simp at hf; omega, ?_⟩
    have e : c!"///" ++ s ++ r = '/' :: '/' :: '/' :: (s ++ r) := rfl
    rw [e, lex, if_neg (by decide), if_pos rfl, documentation_text h1 h3 r ha]
    simp only [if_neg h2]
    rfl
  | @sign c hc =>
    obtain ⟨fuel, rfl⟩ : ∃ f, fuel = f + 1 := ⟨fuel - 1, by simp at hf; omega⟩
    refine ⟨fuel, by simp at hf; omega, ?_⟩
    have hs : isSign c = true := by simpa [isSign] using hc
    have hn : c ∈ c!"!;,(){}#[]:=&.<>" → ¬ (c = ' ' ∨ c = '\t' ∨ c = '\n') ∧ c ≠ '/' ∧ c ≠ '"' ∧ ¬ isStart c = true ∧
        ¬ c.isDigit = true ∧ c ≠ '-' := by
      have : ∀ c ∈ c!"!;,(){}#[]:=&.<>", ¬ (c = ' ' ∨ c = '\t' ∨ c = '\n') ∧ c ≠ '/' ∧ c ≠ '"' ∧ ¬ isStart c = true ∧
        ¬ c.isDigit = true ∧ c ≠ '-' := by decide
      exact this c
    obtain ⟨n1, n2, n3, n4, n5, n6⟩ := hn hc
    rw [List.cons_append, List.nil_append, lex, if_neg n1, if_neg n2, if_neg n3, if_neg n4, if_neg n5,
      if_neg (fun h => ha h.1 h.2), if_neg (fun h => n6 h.1), if_pos hs]
    rfl

theorem lex_laid {before text : Str} {ts : List Token} (h : Laid before ts text) : ∀ fuel, text.length ≤ fuel →
    lex fuel (lineAfter before, columnAfter before) text = some ts := by
  induction h with
  | @done before g hg =>
    intro fuel hf
    obtain ⟨fuel', _, h2⟩ := lex_gap hg [] (lineAfter before, columnAfter before) fuel (by simpa using hf)
    rw [List.append_nil] at h2
    rw [h2, lex_nil]
  | @comment before g s hg hs =>
    intro fuel hf
    rw [List.append_assoc] at hf ⊢
    obtain ⟨fuel', h1, h2⟩ := lex_gap hg (c!"//" ++ s) (lineAfter before, columnAfter before) fuel hf
    obtain ⟨fuel', rfl⟩ : ∃ f, fuel' = f + 1 := ⟨fuel' - 1, by simp at h1; omega⟩
    have := comment_line hs [] (.inl rfl)
    rw [List.append_nil] at this
    have e : c!"//" ++ s = '/' :: ('/' :: s) := rfl
    have hd := documentation_line hs.2.2.1 [] (.inl rfl)
    rw [List.append_nil] at hd
    rw [h2, e, lex, if_neg (by decide), if_pos rfl, hd, this]
    exact lex_nil _ _
  | @token before g k s ts r hg hk ha _ ih =>
    intro fuel hf
    rw [List.append_assoc] at hf ⊢
    obtain ⟨fuel1, h1, h2⟩ := lex_gap hg (s ++ r) (lineAfter before, columnAfter before) fuel hf
    have e : ∀ a b : Str, b.foldl move (lineAfter a, columnAfter a) = (lineAfter (a ++ b), columnAfter (a ++ b)) := by
      intro a b
      rw [← position, ← position, List.foldl_append]
    obtain ⟨fuel2, h3, h4⟩ := lex_token hk ha (lineAfter (before ++ g), columnAfter (before ++ g)) fuel1 h1
    rw [h2, e, h4, e, ih fuel2 h3]
    rfl

/-! ## The tree -/

theorem expect_append {ks : List Kind} {hs ts : List Token} (h : hs.map (·.kind) = ks) : expect ks (hs ++ ts) = some ts := by
  have hl : ks.length = hs.length := by rw [← h, List.length_map]
  rw [expect, hl, List.take_left, List.drop_left, if_pos h]

theorem expect_one {k : Kind} {t : Token} (ts : List Token) (h : t.kind = k) : expect [k] (t :: ts) = some ts :=
  expect_append (hs := [t]) (by rw [← h]; rfl)

theorem expect_none {k : Kind} {ks : List Kind} {t : Token} (ts : List Token) (h : t.kind ≠ k) :
    expect (k :: ks) (t :: ts) = none := by
  rw [expect, if_neg]
  intro e
  simp only [List.length_cons, List.take_succ_cons, List.map_cons, List.cons.injEq] at e
  exact h e.1

theorem expect_one_none {k : Kind} {t : Token} (ts : List Token) (h : t.kind ≠ k) : expect [k] (t :: ts) = none :=
  expect_none ts h

theorem upTo_ok {k : Kind} {hs : List Token} {t : Token} {us : List Token} (h : ∀ x ∈ hs.map Token.kind, x ≠ k)
    (ht : t.kind = k) : upTo k (hs ++ t :: us) = some (hs.map Token.kind, us) := by
  obtain ⟨e1, e2⟩ := span_split (p := fun t : Token => t.kind != k) (as := hs) (b := t) (bs := us)
    (fun x hx => by simpa using h _ (List.mem_map.2 ⟨x, hx, rfl⟩)) (by simp [ht])
  rw [upTo, e2, e1]

theorem name_ok {t : Token} {s : Str} (h : IsName t s) (ts : List Token) : name (t :: ts) = some ((s, t.line, t.column), ts) := by
  obtain ⟨k, l, c⟩ := t
  obtain ⟨h1, h2⟩ := h
  cases h1
  rw [name, if_neg ((keywords_iff s).2 h2)]

/-- The first token is of this kind. -/
def Starts (P : Kind → Prop) (ts : List Token) : Prop := ∃ t us, ts = t :: us ∧ P t.kind

theorem Starts.append {P : Kind → Prop} {ts : List Token} (h : Starts P ts) (us : List Token) : Starts P (ts ++ us) := by
  obtain ⟨t, vs, rfl, h⟩ := h
  exact ⟨t, vs ++ us, rfl, h⟩

theorem Starts.mono {P Q : Kind → Prop} {ts : List Token} (h : Starts P ts) (hq : ∀ k, P k → Q k) : Starts Q ts := by
  obtain ⟨t, vs, rfl, h⟩ := h
  exact ⟨t, vs, rfl, hq _ h⟩

theorem starts_kinds {P : Kind → Prop} {k : Kind} {ks : List Kind} {ts : List Token} (h : ts.map Token.kind = k :: ks) (hp : P k) :
    Starts P ts := by
  obtain ⟨t, us, rfl, h1, _⟩ := List.map_eq_cons_iff.1 h
  exact ⟨t, us, rfl, h1 ▸ hp⟩

/-! ### Attributes and visibility -/

/-- No attribute and no documentation -/
def NoAttribute (k : Kind) : Prop := k ≠ .sign '#' ∧ ∀ s, k ≠ .doc s

theorem attributes_none {ts : List Token} (h : Starts NoAttribute ts) (fuel : Nat) : attributes fuel ts = some ts := by
  obtain ⟨⟨k, l, c⟩, us, rfl, h1, h2⟩ := h
  cases fuel with
  | zero => rfl
  | succ fuel =>
    rw [attributes]
    · rw [expect_none _ h1]
    · intro s l c ts e
      cases e
      exact h2 s rfl

theorem attributes_ok {as : List Token} (h : Are AttributesKinds as) {rest : List Token} (hr : Starts NoAttribute rest) (fuel : Nat)
    (hf : as.length ≤ fuel) : attributes fuel (as ++ rest) = some rest := by
  unfold Are at h
  generalize hk : as.map Token.kind = ks at h
  induction h generalizing as fuel with
  | nil => cases List.map_eq_nil_iff.1 hk; exact attributes_none hr _
  | doc _ ih =>
    obtain ⟨⟨k, l, c⟩, us, rfl, h1, h2⟩ := List.map_eq_cons_iff.1 hk
    cases h1
    obtain ⟨fuel, rfl⟩ : ∃ f, fuel = f + 1 := ⟨fuel - 1, by simp at hf; omega⟩
    rw [List.cons_append, attributes]
    exact ih fuel (by simpa using hf) h2
  | @bracketed ms ks hm _ ih =>
    obtain ⟨⟨k, l, c⟩, us, rfl, h1, h2⟩ := List.map_eq_cons_iff.1 hk
    cases h1
    obtain ⟨b, us, rfl, h1, h2⟩ := List.map_eq_cons_iff.1 h2
    obtain ⟨ms', us, rfl, rfl, h4⟩ := List.map_eq_append_iff.1 h2
    obtain ⟨d, us, rfl, h3, h4⟩ := List.map_eq_cons_iff.1 h4
    obtain ⟨fuel, rfl⟩ : ∃ f, fuel = f + 1 := ⟨fuel - 1, by simp at hf; omega⟩
    have e : (⟨.sign '#', l, c⟩ : Token) :: b :: (ms' ++ d :: us) ++ rest =
        [(⟨.sign '#', l, c⟩ : Token), b] ++ (ms' ++ d :: (us ++ rest)) := by simp
    rw [e, attributes]
    · rw [expect_append (by rw [List.map_cons, List.map_cons, h1]; rfl)]
      simp only
      rw [upTo_ok (meta_end hm) h3]
      simp only [Option.bind_eq_bind, Option.bind_some, (isMeta_iff _).2 hm, if_true]
      exact ih fuel (by simp at hf; omega) h4
    · intro s l c ts e
      cases e

theorem attributes_start {as : List Token} (h : Are AttributesKinds as) : as = [] ∨ Starts (fun k => k = .sign '#' ∨ ∃ s, k = .doc s) as := by
  unfold Are at h
  generalize hk : as.map Token.kind = ks at h
  cases h with
  | nil => exact .inl (List.map_eq_nil_iff.1 hk)
  | doc => exact .inr (starts_kinds hk (.inr ⟨_, rfl⟩))
  | bracketed => exact .inr (starts_kinds hk (.inl rfl))

theorem visibility_none {ts : List Token} (h : Starts (· ≠ .word c!"pub") ts) : visibility ts = (false, ts) := by
  obtain ⟨t, us, rfl, h⟩ := h
  rw [visibility, expect_none _ h]

theorem visibility_ok {vs : List Token} (h : Are PublicKinds vs) {rest : List Token} (hr : Starts (· ≠ .sign '(') rest) :
    visibility (vs ++ rest) = (true, rest) := by
  unfold Are at h
  generalize hk : vs.map Token.kind = ks at h
  cases h with
  | everywhere =>
    obtain ⟨t, us, rfl, h1, h2⟩ := List.map_eq_cons_iff.1 hk
    cases List.map_eq_nil_iff.1 h2
    obtain ⟨u, us, rfl, hu⟩ := hr
    rw [List.cons_append, List.nil_append, visibility, expect_one _ h1]
    simp only [List.findSome?_cons, List.findSome?_nil, expect_none _ hu]
  | @within s hs =>
    obtain ⟨t, us, rfl, h1, h2⟩ := List.map_eq_cons_iff.1 hk
    rw [List.cons_append, visibility, expect_one _ h1]
    simp only [List.mem_cons, List.not_mem_nil, or_false] at hs
    have hn : ∀ {w w' : Str}, us.map Token.kind = [.sign '(', .word w, .sign ')'] → w ≠ w' →
        expect [.sign '(', .word w', .sign ')'] (us ++ rest) = none := by
      intro w w' h hw
      have hl : [Kind.sign '(', .word w', .sign ')'].length = us.length := by
        rw [← List.length_map (f := Token.kind) (as := us), h]; rfl
      rw [expect, hl, List.take_left, if_neg]
      intro e
      rw [h] at e
      simp only [List.cons.injEq, Kind.word.injEq] at e
      exact hw e.2.1
    rcases hs with rfl | rfl | rfl
    · simp only [List.findSome?_cons, expect_append h2]
    · simp only [List.findSome?_cons, expect_append h2, hn h2 (by decide : c!"self" ≠ c!"crate")]
    · simp only [List.findSome?_cons, expect_append h2, hn h2 (by decide : c!"super" ≠ c!"crate"),
        hn h2 (by decide : c!"super" ≠ c!"self")]

theorem public_start {vs : List Token} (h : Are PublicKinds vs) : Starts (· = .word c!"pub") vs := by
  unfold Are at h
  generalize hk : vs.map Token.kind = ks at h
  cases h with
  | everywhere => exact starts_kinds hk rfl
  | within => exact starts_kinds hk rfl

/-! ### The beginning of something in braces -/

def itemWords : List Str := [c!"fn", c!"mod", c!"trait", c!"impl"]
def blockWords : List Str := [c!"loop", c!"unsafe", c!"if", c!"while", c!"for"]
/-- The words before a statement without macro calls, and before a declaration -/
def plainWords : List Str := [c!"self", c!"let", c!"return", c!"break", c!"continue"]
def declarationWords : List Str := [c!"use", c!"struct", c!"enum", c!"const", c!"static", c!"type"]

theorem opening_none {place : Place} {ts : List Token} (h : Starts (fun k => ∀ s ∈ itemWords, k ≠ .word s) ts) :
    opening place ts = none := by
  obtain ⟨⟨k, l, c⟩, us, rfl, h⟩ := h
  cases k with
  | word s =>
    have ne : ∀ k ∈ itemWords, s ≠ k := by rintro k hk rfl; exact h _ hk rfl
    rw [opening, if_neg (ne _ (by decide)), if_neg (fun h => ne _ (by decide) h.1), if_neg (fun h => ne _ (by decide) h.1),
      if_neg (fun h => ne _ (by decide) h.1)]
  | text => rfl
  | sign => rfl
  | joint => rfl
  | doc => rfl

theorem upTo_head {k : Kind} {t : Token} {ts us : List Token} {ks : List Kind} (h : upTo k (t :: ts) = some (ks, us)) (ht : t.kind ≠ k) :
    ∃ ls, ks = t.kind :: ls := by
  unfold upTo at h
  split at h
  · cases h
  · cases h
    rw [List.takeWhile_cons_of_pos (by simpa using ht)]
    exact ⟨_, rfl⟩

theorem blockOpening_none {place : Place} {ts : List Token}
    (h : Starts (fun k => k ≠ .sign '{' ∧ ∀ s ∈ blockWords, k ≠ .word s) ts) : blockOpening place ts = none := by
  obtain ⟨t, us, rfl, h1, h2⟩ := h
  unfold blockOpening
  split
  · cases hu : upTo (.sign '{') (t :: us) with
    | none => rfl
    | some x =>
      obtain ⟨ks, vs⟩ := x
      obtain ⟨ls, rfl⟩ := upTo_head hu h1
      simp only [Option.bind_eq_bind, Option.bind_some]
      rw [if_neg]
      rw [isBlock_iff]
      generalize t.kind = k at h2
      intro hb
      cases hb with
      | loop => exact h2 _ (by decide) rfl
      | unsafeIs => exact h2 _ (by decide) rfl
      | ifIs => exact h2 _ (by decide) rfl
      | whileIs => exact h2 _ (by decide) rfl
      | forIs => exact h2 _ (by decide) rfl
  · rfl

theorem opening_head {place : Place} {hs : List Token} {i : Rs.Item} {line column : Nat} {inside : Place}
    (h : Head place hs i line column inside) {o : Token} (ho : IsSign o '{') (ts : List Token) :
    opening place (hs ++ o :: ts) = some (⟨some (i, line, column), inside⟩, ts) ∧
      Starts (fun k => ∃ s ∈ itemWords, k = .word s) hs := by
  have hi : ∀ {place : Place}, place = .items ∨ place = .body → place.hasItems = true := by
    rintro _ (rfl | rfl) <;> rfl
  cases h with
  | @function kw n s i gs a ps b rs h1 h2 h3 hg h4 h5 h6 h7 =>
    obtain ⟨k, l, c⟩ := kw
    cases h1
    have hf : function place s = i := by cases h3 <;> rfl
    refine ⟨?_, _, _, rfl, _, by decide, rfl⟩
    have e : (⟨.word c!"fn", l, c⟩ : Token) :: n :: (gs ++ a :: (ps ++ b :: rs)) ++ o :: ts =
      ⟨.word c!"fn", l, c⟩ :: n :: (gs ++ a :: (ps ++ b :: (rs ++ o :: ts))) := by simp
    rw [e, opening, if_pos rfl, name_ok h2]
    simp only [Option.bind_eq_bind, Option.bind_some]
    rw [upTo_ok (generics_end hg) h4]
    simp only [Option.bind_some]
    rw [upTo_ok (parameters_end h5) h6]
    simp only [Option.bind_some]
    rw [upTo_ok (result_end h7) ho]
    simp only [Option.bind_some, (isGenerics_iff _).2 hg, (isParameters_iff _ _).2 h5, (isResult_iff _).2 h7, Bool.and_self, if_true, hf]
    rfl
  | @module kw n s hp h1 h2 =>
    obtain ⟨k, l, c⟩ := kw
    cases h1
    refine ⟨?_, _, _, rfl, _, by decide, rfl⟩
    show opening place (⟨.word c!"mod", l, c⟩ :: n :: o :: ts) = _
    rw [opening, if_neg (by decide), if_pos ⟨rfl, hi hp⟩, name_ok h2]
    show (do let ts ← expect _ (o :: ts); pure _) = _
    rw [expect_one _ ho]
    rfl
  | @trait kw n s hp h1 h2 =>
    obtain ⟨k, l, c⟩ := kw
    cases h1
    refine ⟨?_, _, _, rfl, _, by decide, rfl⟩
    show opening place (⟨.word c!"trait", l, c⟩ :: n :: o :: ts) = _
    rw [opening, if_neg (by decide), if_neg (fun h => absurd h.1 (by decide)), if_pos ⟨rfl, hi hp⟩, name_ok h2]
    show (do let ts ← expect _ (o :: ts); pure _) = _
    rw [expect_one _ ho]
    rfl
  | @impl kw n s hp h1 h2 =>
    obtain ⟨k, l, c⟩ := kw
    cases h1
    refine ⟨?_, _, _, rfl, _, by decide, rfl⟩
    show opening place (⟨.word c!"impl", l, c⟩ :: n :: o :: ts) = _
    rw [opening, if_neg (by decide), if_neg (fun h => absurd h.1 (by decide)), if_neg (fun h => absurd h.1 (by decide)),
      if_pos ⟨rfl, hi hp⟩, name_ok h2]
    have hn : expect [.word c!"for"] (o :: ts) = none := expect_one_none _ (by rw [ho]; simp)
    simp only [Option.bind_eq_bind, Option.bind_some, hn, expect_one ts ho]
    rfl
  | @implFor kw n s f t u hp h1 h2 h3 h4 =>
    obtain ⟨k, l, c⟩ := kw
    cases h1
    refine ⟨?_, _, _, rfl, _, by decide, rfl⟩
    show opening place (⟨.word c!"impl", l, c⟩ :: n :: f :: t :: o :: ts) = _
    rw [opening, if_neg (by decide), if_neg (fun h => absurd h.1 (by decide)), if_neg (fun h => absurd h.1 (by decide)),
      if_pos ⟨rfl, hi hp⟩, name_ok h2]
    simp only [Option.bind_eq_bind, Option.bind_some, expect_one (t :: o :: ts) h3, name_ok h4, expect_one ts ho]
    rfl

theorem word_noAttribute {k : Kind} {s : Str} (h : k = .word s) : NoAttribute k := by
  subst h
  exact ⟨by simp, by simp⟩

theorem beginning_item {place : Place} {as vs hs : List Token} {i : Rs.Item} {line column : Nat} {inside : Place}
    (ha : Are AttributesKinds as) (hv : VisibilityAt place i vs) (hh : Head place hs i line column inside) {o : Token}
    (ho : IsSign o '{') (ts : List Token) :
    beginning place (as ++ (vs ++ (hs ++ o :: ts))) = some (⟨some (i, line, column), inside⟩, ts) := by
  obtain ⟨h1, h2⟩ := opening_head hh ho ts
  have h2 := h2.append (o :: ts)
  rw [beginning]
  rcases hv with rfl | ⟨hv, hp⟩
  · rw [List.nil_append, attributes_ok ha (h2.mono fun k ⟨s, _, h⟩ => word_noAttribute h) _ (by simp)]
    simp only [Option.bind_eq_bind, Option.bind_some]
    rw [visibility_none (h2.mono ?_)]
    · simp only [h1]
      rfl
    · rintro k ⟨s, hs, rfl⟩ e
      cases e
      exact absurd hs (by decide)
  · rw [attributes_ok ha (((public_start hv).append _).mono fun k h => word_noAttribute h) _ (by simp)]
    simp only [Option.bind_eq_bind, Option.bind_some]
    rw [visibility_ok hv (h2.mono ?_)]
    · simp only [h1]
      rw [if_neg]
      have : mayBePublic place ⟨some (i, line, column), inside⟩ = true := by
        obtain ⟨p1, p2⟩ := hp
        cases i with
        | impl t n => exact absurd rfl (p2 t n)
        | fn => simpa [mayBePublic] using p1
        | mod => simpa [mayBePublic] using p1
        | trait => simpa [mayBePublic] using p1
        | implMethod => simpa [mayBePublic] using p1
        | traitMethod => simpa [mayBePublic] using p1
      simp [this]
    · rintro k ⟨s, hs, rfl⟩ e
      cases e

theorem block_start {hs : List Token} {o : Token} (h : Are BlockKinds hs) (ho : IsSign o '{') (ts : List Token) :
    Starts (fun k => k = .sign '{' ∨ ∃ s ∈ blockWords, k = .word s) (hs ++ o :: ts) := by
  unfold Are at h
  generalize hk : hs.map Token.kind = ks at h
  cases h with
  | plain => cases List.map_eq_nil_iff.1 hk; exact ⟨o, ts, rfl, .inl ho⟩
  | loop => exact (starts_kinds hk (.inr ⟨_, by decide, rfl⟩)).append _
  | unsafeIs => exact (starts_kinds hk (.inr ⟨_, by decide, rfl⟩)).append _
  | ifIs => exact (starts_kinds hk (.inr ⟨_, by decide, rfl⟩)).append _
  | whileIs => exact (starts_kinds hk (.inr ⟨_, by decide, rfl⟩)).append _
  | forIs => exact (starts_kinds hk (.inr ⟨_, by decide, rfl⟩)).append _

theorem beginning_block {hs : List Token} (h : Are BlockKinds hs) {o : Token} (ho : IsSign o '{') (ts : List Token) :
    beginning .body (hs ++ o :: ts) = some (⟨none, .body⟩, ts) := by
  have hs' := block_start h ho ts
  rw [beginning, attributes_none (hs'.mono ?_)]
  · simp only [Option.bind_eq_bind, Option.bind_some]
    rw [visibility_none (hs'.mono ?_)]
    · simp only
      rw [opening_none (hs'.mono ?_)]
      · simp only
        rw [blockOpening, if_pos rfl, upTo_ok (block_end h) ho]
        simp only [Option.bind_eq_bind, Option.bind_some, (isBlock_iff _).2 h, if_true]
        rfl
      · rintro k (rfl | ⟨s, hs, rfl⟩) w hw e
        · cases e
        · cases e
          exact absurd hs ((by decide : ∀ w ∈ itemWords, w ∉ blockWords) _ hw)
    · rintro k (rfl | ⟨s, hs, rfl⟩) e
      · cases e
      · cases e
        exact absurd hs (by decide)
  · rintro k (rfl | ⟨s, hs, rfl⟩)
    · exact ⟨by decide, by simp⟩
    · exact word_noAttribute rfl

/-- The first token of a statement: a name, `self`, `let`, `return` and so on -/
def Statement (k : Kind) : Prop := ∃ s, k = .word s ∧ (NameWord s ∨ s ∈ plainWords)

theorem statement_word {k : Kind} (h : Statement k) {w : Str} (hw : w ∈ keywords) (hl : w ∉ plainWords) : k ≠ .word w := by
  obtain ⟨s, rfl, h⟩ := h
  intro e
  cases e
  rcases h with h | h
  · exact nameWord_ne h hw rfl
  · exact hl h

/-- The first token of a statement or of a value -/
def Beginning (k : Kind) : Prop := Statement k ∨ k = .sign '&' ∨ ∃ s, k = .text s

theorem beginning_word {k : Kind} (h : Beginning k) {w : Str} (hw : w ∈ keywords) (hl : w ∉ plainWords) : k ≠ .word w := by
  rcases h with h | rfl | ⟨s, rfl⟩
  · exact statement_word h hw hl
  · simp
  · simp

theorem beginning_sign {k : Kind} (h : Beginning k) {c : Char} (hc : c ≠ '&') : k ≠ .sign c := by
  rcases h with ⟨s, rfl, _⟩ | rfl | ⟨s, rfl⟩
  · simp
  · intro e
    cases e
    exact hc rfl
  · simp

theorem beginning_noAttribute {k : Kind} (h : Beginning k) : NoAttribute k := by
  refine ⟨beginning_sign h (by decide), fun s => ?_⟩
  rcases h with ⟨s, rfl, _⟩ | rfl | ⟨s, rfl⟩ <;> simp

theorem beginning_none {place : Place} {ts : List Token} (h : Starts Beginning ts) : beginning place ts = none := by
  rw [beginning, attributes_none (h.mono fun k => beginning_noAttribute)]
  simp only [Option.bind_eq_bind, Option.bind_some]
  rw [visibility_none (h.mono fun k hk => beginning_word hk (by decide) (by decide))]
  simp only
  rw [opening_none (h.mono fun k hk w hw => beginning_word hk
    ((by decide : ∀ w ∈ itemWords, w ∈ keywords) w hw) ((by decide : ∀ w ∈ itemWords, w ∉ plainWords) w hw))]
  simp only
  exact blockOpening_none (h.mono fun k hk => ⟨beginning_sign hk (by decide), fun w hw => beginning_word hk
    ((by decide : ∀ w ∈ blockWords, w ∈ keywords) w hw) ((by decide : ∀ w ∈ blockWords, w ∉ plainWords) w hw)⟩)

theorem beginning_statement {place : Place} {ts : List Token} (h : Starts Statement ts) : beginning place ts = none :=
  beginning_none (h.mono fun _ => .inl)

/-! ### Statements and declarations -/

theorem arguments_ok {ts : List Token} {as : List Tok} (h : RustLayout.Arguments ts as) {c : Token} (hc : IsSign c ')')
    (us : List Token) : arguments (ts ++ c :: us) = some (as, us) := by
  have h1 : (∀ t ∈ ts, isArgument t.kind = true) ∧ ts.map Token.argument = as := by
    induction h with
    | nil => exact ⟨(fun _ h => by cases h), rfl⟩
    | @cons t u ts us ha hu _ ih =>
      refine ⟨fun t' ht' => ?_, ?_⟩
      · rcases List.mem_cons.1 ht' with rfl | ht'
        · exact (isArgument_iff _).2 ha
        · exact ih.1 t' ht'
      · rw [List.map_cons, ih.2]
        cases hu <;> rfl
  obtain ⟨e1, e2⟩ := span_split (p := fun t : Token => isArgument t.kind) (bs := us) (b := c) h1.1 (by rw [hc]; decide)
  rw [arguments]
  simp only [e1, e2]
  rw [expect_one _ hc]
  simp [h1.2]

theorem plain_start {hs : List Token} (h : Are PlainKinds hs) : Starts Statement hs := by
  unfold Are at h
  generalize hk : hs.map Token.kind = ks at h
  cases h with
  | call h =>
    obtain ⟨s, ls, rfl, h'⟩ := call_head h
    exact starts_kinds hk ⟨s, rfl, h'.imp_right (by rintro rfl; decide)⟩
  | assign h =>
    obtain ⟨s, ls, rfl, h'⟩ := chain_head h
    exact starts_kinds hk ⟨s, rfl, h'.imp_right (by rintro rfl; decide)⟩
  | letIs => exact starts_kinds hk ⟨_, rfl, .inr (by decide)⟩
  | letMut => exact starts_kinds hk ⟨_, rfl, .inr (by decide)⟩
  | returns => exact starts_kinds hk ⟨_, rfl, .inr (by decide)⟩
  | returnIs => exact starts_kinds hk ⟨_, rfl, .inr (by decide)⟩
  | breakIs => exact starts_kinds hk ⟨_, rfl, .inr (by decide)⟩
  | continueIs => exact starts_kinds hk ⟨_, rfl, .inr (by decide)⟩

theorem name_sound {ts us : List Token} {n : Str} {l c : Nat} (h : name ts = some ((n, l, c), us)) :
    ∃ t, ts = t :: us ∧ IsName t n ∧ t.line = l ∧ t.column = c := by
  unfold name at h
  split at h
  · split at h
    · cases h
    · rename_i hn
      cases h
      exact ⟨_, rfl, ⟨rfl, (keywords_iff _).1 hn⟩, rfl, rfl⟩
  · cases h

theorem expect_sound {ks : List Kind} {ts us : List Token} (h : expect ks ts = some us) :
    ∃ hs, ts = hs ++ us ∧ hs.map Token.kind = ks := by
  rw [expect] at h
  split at h
  · rename_i hk
    cases h
    exact ⟨_, (List.take_append_drop _ _).symm, hk⟩
  · cases h

theorem moreNames_sound (ts : List Token) : ∃ hs, ts = hs ++ (moreNames ts).2 ∧ MoreNames hs (moreNames ts).1 := by
  fun_induction moreNames ts with
  | case1 d l c s l' c' ts h ih =>
    obtain ⟨hs, e, ih⟩ := ih
    obtain ⟨rfl, hs'⟩ := h
    exact ⟨⟨.joint c!"::", l, c⟩ :: ⟨.word s, l', c'⟩ :: hs, by rw [List.cons_append, List.cons_append, ← e],
      .cons rfl ⟨(rfl : Kind.word s = .word s), (keywords_iff _).1 hs'⟩ ih⟩
  | case2 => exact ⟨[], rfl, .nil⟩
  | case3 => exact ⟨[], rfl, .nil⟩

theorem moreNames_ok {hs : List Token} {ss : List Str} (h : MoreNames hs ss) {us : List Token}
    (hu : Starts (fun k => ∀ d, k ≠ .joint d) us) : moreNames (hs ++ us) = (ss, us) := by
  induction h with
  | nil =>
    obtain ⟨⟨k, l, c⟩, us, rfl, h⟩ := hu
    rw [List.nil_append]
    unfold moreNames
    split
    · rename_i e
      cases e
      exact absurd rfl (h _)
    · rfl
  | @cons j n s ts ss hj hn _ ih =>
    obtain ⟨k, l, c⟩ := j
    obtain ⟨k', l', c'⟩ := n
    cases hj
    obtain ⟨h1, h2⟩ := hn
    cases h1
    rw [List.cons_append, List.cons_append, moreNames, if_pos ⟨rfl, (keywords_iff _).2 h2⟩, ih]

theorem moreNames_kinds {hs : List Token} {ss : List Str} (h : MoreNames hs ss) : ∀ k ∈ hs.map Token.kind, InPath k := by
  induction h with
  | nil => nofun
  | cons hj hn _ ih =>
    intro k hk
    simp only [List.map_cons, List.mem_cons] at hk
    rcases hk with rfl | rfl | hk
    · exact .inr hj
    · exact .inl ⟨_, hn.1⟩
    · exact ih k hk

theorem macroCall_begins {place : Place} {ts : List Token} {x : Mac × List Token} (h : macroCall place ts = some x) :
    ∃ hs e r, ts = hs ++ e :: r ∧ IsSign e '!' ∧ ∀ k ∈ hs.map Token.kind, InPath k := by
  rw [macroCall] at h
  split at h
  · replace h := Option.bind_eq_some_iff.1 h
    obtain ⟨⟨⟨n, l1, c1⟩, ts1⟩, h1, h⟩ := h
    obtain ⟨t, rfl, a1, rfl, rfl⟩ := name_sound h1
    replace h := Option.bind_eq_some_iff.1 h
    obtain ⟨ts2, h2, h⟩ := h
    obtain ⟨ns, e1, hn⟩ := moreNames_sound ts1
    obtain ⟨hs, e2, a2⟩ := expect_sound h2
    obtain ⟨x, hs, rfl, x1, a2⟩ := List.map_eq_cons_iff.1 a2
    refine ⟨t :: ns, x, hs ++ ts2, by rw [e1, e2]; simp, x1, ?_⟩
    intro k hk
    rcases List.mem_cons.1 hk with rfl | hk
    · exact .inl ⟨_, a1.1⟩
    · exact moreNames_kinds hn k hk
  · cases h

/-- No macro call: there is no exclamation mark, or something else comes before it. -/
theorem macroCall_none {place : Place} {vs us : List Token} (hv : ∀ k ∈ vs.map Token.kind, k ≠ .sign '!')
    (hu : us = [] ∨ Starts (fun k => ∃ c, k = .sign c ∧ c ≠ '!') us) : macroCall place (vs ++ us) = none := by
  cases h : macroCall place (vs ++ us) with
  | none => rfl
  | some x =>
    exfalso
    obtain ⟨hs, e, r, e1, he, hh⟩ := macroCall_begins h
    rcases List.append_eq_append_iff.1 e1 with ⟨as, e2, e3⟩ | ⟨cs, e2, e3⟩
    · rcases hu with rfl | ⟨t, us, rfl, c, hc, hn⟩
      · cases as <;> cases e3
      · cases as with
        | nil =>
          cases e3
          rw [he] at hc
          cases hc
          exact hn rfl
        | cons a as =>
          cases e3
          exact path_sign (hh t.kind (by rw [e2]; simp)) c hc
    · cases cs with
      | nil =>
        rw [List.nil_append] at e3
        subst e3
        rcases hu with h | ⟨t, us, h, c, hc, hn⟩
        · cases h
        · cases h
          rw [he] at hc
          cases hc
          exact hn rfl
      | cons a cs =>
        cases e3
        exact hv e.kind (by rw [e2]; simp) he

theorem macroCall_keyword {place : Place} {ts : List Token} (h : Starts (fun k => ∀ s, k = .word s → s ∈ keywords) ts) :
    macroCall place ts = none := by
  obtain ⟨⟨k, l, c⟩, us, rfl, h⟩ := h
  unfold macroCall
  split
  · have : name (⟨k, l, c⟩ :: us) = none := by
      cases k with
      | word s => rw [name, if_pos (h s rfl)]
      | text => rfl
      | sign => rfl
      | joint => rfl
      | doc => rfl
    rw [this]
    rfl
  · rfl

theorem statement_plain {hs : List Token} (h : Are PlainKinds hs) {d : Token} (hd : IsSign d ';') (us : List Token) :
    statement .body (hs ++ d :: us) = some (none, us) := by
  have hm : macroCall .body (hs ++ d :: us) = none :=
    macroCall_none (plain_end h (by decide)) (.inr ⟨_, _, rfl, _, hd, by decide⟩)
  rw [statement, hm]
  simp only
  rw [plain, if_pos rfl, upTo_ok (plain_end h (by decide)) hd]
  simp only [Option.bind_eq_bind, Option.bind_some, (isPlain_iff _).2 h, if_true]
  rfl

/-- The first token of a declaration -/
def Declares (k : Kind) : Prop := k = .sign '#' ∨ (∃ s, k = .doc s) ∨ ∃ s ∈ (c!"pub" :: declarationWords), k = .word s

theorem declaration_start {hs : List Token} (h : Are DeclarationKinds hs) :
    Starts (fun k => ∃ s ∈ declarationWords, k = .word s) hs := by
  unfold Are at h
  generalize hk : hs.map Token.kind = ks at h
  cases h with
  | useIs => exact starts_kinds hk ⟨_, by decide, rfl⟩
  | structIs => exact starts_kinds hk ⟨_, by decide, rfl⟩
  | constIs => exact starts_kinds hk ⟨_, by decide, rfl⟩
  | staticIs => exact starts_kinds hk ⟨_, by decide, rfl⟩
  | typeIs => exact starts_kinds hk ⟨_, by decide, rfl⟩

theorem declared_start {hs : List Token} {d : Token} (h : Declared hs d) :
    Starts (fun k => ∃ s ∈ declarationWords, k = .word s) hs := by
  cases h with
  | plain h _ => exact declaration_start h
  | record h _ =>
    unfold Are at h
    generalize hk : hs.map Token.kind = ks at h
    cases h with
    | structIs => exact starts_kinds hk ⟨_, by decide, rfl⟩
    | enumIs => exact starts_kinds hk ⟨_, by decide, rfl⟩

theorem declares {as vs hs us : List Token} (ha : Are AttributesKinds as) (hv : vs = [] ∨ Are PublicKinds vs)
    {d : Token} (h : Declared hs d) : Starts Declares (as ++ (vs ++ (hs ++ us))) ∧ Starts NoAttribute (vs ++ (hs ++ us)) := by
  have h1 := (declared_start h).append us
  have h2 : Starts (fun k => ∃ s ∈ (c!"pub" :: declarationWords), k = .word s) (vs ++ (hs ++ us)) := by
    rcases hv with rfl | hv
    · exact h1.mono fun k ⟨s, hs, h⟩ => ⟨s, List.mem_cons_of_mem _ hs, h⟩
    · exact ((public_start hv).append _).mono fun k h => ⟨_, by decide, h⟩
  refine ⟨?_, h2.mono fun k ⟨s, _, h⟩ => word_noAttribute h⟩
  rcases attributes_start ha with rfl | ha
  · exact h2.mono fun k h => .inr (.inr h)
  · exact (ha.append _).mono fun k h => h.imp_right .inl

theorem declares_word {k : Kind} (h : Declares k) {w : Str} (hw : w ∉ (c!"pub" :: declarationWords)) : k ≠ .word w := by
  rcases h with rfl | ⟨s, rfl⟩ | ⟨s, hs, rfl⟩
  · simp
  · simp
  · intro e
    cases e
    exact hw hs

theorem visibility_declaration {vs hs us : List Token} (hv : vs = [] ∨ Are PublicKinds vs) {d : Token} (h : Declared hs d) :
    (visibility (vs ++ (hs ++ us))).2 = hs ++ us := by
  have h1 := (declared_start h).append us
  rcases hv with rfl | hv
  · rw [List.nil_append, visibility_none (h1.mono ?_)]
    rintro k ⟨s, hs, rfl⟩ e
    cases e
    exact absurd hs (by decide)
  · rw [visibility_ok hv (h1.mono ?_)]
    rintro k ⟨s, hs, rfl⟩ e
    cases e

theorem beginning_declaration {place : Place} {as vs hs us : List Token} (ha : Are AttributesKinds as)
    (hv : vs = [] ∨ Are PublicKinds vs) {d : Token} (h : Declared hs d) : beginning place (as ++ (vs ++ (hs ++ us))) = none := by
  obtain ⟨h1, h2⟩ := declares (us := us) ha hv h
  rw [beginning, attributes_ok ha h2 _ (by simp)]
  simp only [Option.bind_eq_bind, Option.bind_some]
  have h3 := visibility_declaration (us := us) hv h
  cases hx : visibility (vs ++ (hs ++ us)) with
  | mk b xs =>
    rw [hx] at h3
    simp only at h3
    subst h3
    simp only
    rw [opening_none (((declared_start h).append us).mono ?_)]
    · refine blockOpening_none (h1.mono fun k hk => ⟨?_, fun w hw => declares_word hk ?_⟩)
      · rcases hk with rfl | ⟨s, rfl⟩ | ⟨s, _, rfl⟩
        · decide
        · simp
        · simp
      · exact (by decide : ∀ w ∈ blockWords, w ∉ (c!"pub" :: declarationWords)) w hw
    · rintro k ⟨s, hs, rfl⟩ w hw e
      cases e
      exact absurd hs ((by decide : ∀ w ∈ itemWords, w ∉ declarationWords) _ hw)

theorem upTo_mem {k : Kind} {as bs us : List Token} {b : Token} {ks : List Kind} (h : upTo k (as ++ b :: bs) = some (ks, us))
    (ha : ∀ x ∈ as.map Token.kind, x ≠ k) (hb : b.kind ≠ k) : b.kind ∈ ks := by
  unfold upTo at h
  split at h
  · cases h
  · cases h
    rw [List.takeWhile_append_of_pos (fun x hx => by simpa using ha _ (List.mem_map.2 ⟨x, hx, rfl⟩)),
      List.takeWhile_cons_of_pos (by simpa using hb)]
    simp

theorem ended_ok {c : Char} {p : List Kind → Bool} {hs : List Token} {d : Token} (h : p (hs.map Token.kind) = true)
    (he : ∀ k ∈ hs.map Token.kind, k ≠ .sign c) (hd : IsSign d c) (us : List Token) : ended c p (hs ++ d :: us) = some us := by
  rw [ended, upTo_ok he hd]
  simp only [Option.bind_eq_bind, Option.bind_some, h, if_true]

/-- The brace of a struct or an enum comes before a semicolon. -/
theorem ended_record {hs : List Token} (h : Are RecordKinds hs) (us : List Token) : ended ';' isDeclaration (hs ++ us) = none := by
  have three : ∀ {w s : Str} {ks : List Kind}, hs.map Token.kind = .word w :: .word s :: .sign '{' :: ks →
      ended ';' isDeclaration (hs ++ us) = none := by
    intro w s ks e
    obtain ⟨a, l, rfl, ha, e⟩ := List.map_eq_cons_iff.1 e
    obtain ⟨b, l, rfl, hb, e⟩ := List.map_eq_cons_iff.1 e
    obtain ⟨c, l, rfl, hc, e⟩ := List.map_eq_cons_iff.1 e
    rw [ended]
    cases hu : upTo (.sign ';') (a :: b :: c :: l ++ us) with
    | none => rfl
    | some x =>
      obtain ⟨ks, xs⟩ := x
      have hm := upTo_mem (as := [a, b]) (b := c) (bs := l ++ us) hu (by
        simp only [List.map_cons, List.map_nil, ha, hb]
        exact cons_end (by simp) (cons_end (by simp) nofun)) (by rw [hc]; decide)
      simp only [Option.bind_eq_bind, Option.bind_some]
      rw [if_neg]
      rw [isDeclaration_iff]
      exact fun hd => declaration_end hd (c := '{') (by decide) _ hm hc
  unfold Are at h
  generalize hk : hs.map Token.kind = ks at h
  cases h with
  | structIs => exact three hk
  | enumIs => exact three hk

theorem statement_declaration {place : Place} (hp : place = .items ∨ place = .body) {as vs hs : List Token}
    (ha : Are AttributesKinds as) (hv : vs = [] ∨ Are PublicKinds vs) {d : Token} (h : Declared hs d)
    (us : List Token) : statement place (as ++ (vs ++ (hs ++ d :: us))) = some (none, us) := by
  obtain ⟨h1, h2⟩ := declares (us := d :: us) ha hv h
  have h3 : plain place (as ++ (vs ++ (hs ++ d :: us))) = none := by
    obtain ⟨t, ts, e, ht⟩ := h1
    rw [e, plain]
    split
    · cases hu : upTo (.sign ';') (t :: ts) with
      | none => rfl
      | some x =>
        obtain ⟨ks, xs⟩ := x
        obtain ⟨ls, rfl⟩ := upTo_head hu (by
          rcases ht with e | ⟨s, e⟩ | ⟨s, _, e⟩
          · rw [e]; decide
          · rw [e]; simp
          · rw [e]; simp)
        simp only [Option.bind_eq_bind, Option.bind_some]
        rw [if_neg]
        rw [isPlain_iff]
        intro hpl
        have hpl : Are PlainKinds (t :: ls.map fun k => ⟨k, 0, 0⟩) := by
          unfold Are
          rw [List.map_cons, List.map_map]
          simpa [Function.comp_def] using hpl
        obtain ⟨_, _, e, s, e2, hs⟩ := plain_start hpl
        cases e
        rcases hs with hs | hs
        · rcases ht with e | ⟨s, e⟩ | ⟨w, hw, e⟩
          · rw [e] at e2; cases e2
          · rw [e] at e2; cases e2
          · rw [e] at e2
            cases e2
            exact nameWord_ne hs ((by decide : ∀ w ∈ (c!"pub" :: declarationWords), w ∈ keywords) _ hw) rfl
        · exact declares_word ht ((by decide : ∀ w ∈ plainWords, w ∉ c!"pub" :: declarationWords) _ hs) e2
    · rfl
  rw [statement, macroCall_keyword (h1.mono ?_)]
  · simp only [h3]
    have hi : place.hasItems = true := by rcases hp with rfl | rfl <;> rfl
    rw [declaration, if_pos hi, attributes_ok ha h2 _ (by simp)]
    simp only [Option.bind_eq_bind, Option.bind_some]
    rw [visibility_declaration hv h]
    cases h with
    | plain h hd =>
      rw [ended_ok ((isDeclaration_iff _).2 h) (declaration_end h (by decide)) hd]
      rfl
    | record h hd =>
      rw [ended_record h, ended_ok ((isRecord_iff _).2 h) (record_end h) hd]
      rfl
  · rintro k hk s rfl
    rcases hk with e | ⟨s, e⟩ | ⟨w, hw, e⟩
    · cases e
    · cases e
    · cases e
      exact (by decide : ∀ w ∈ (c!"pub" :: declarationWords), w ∈ keywords) _ hw

/-! ### Code -/

/-- After the code: the end, or a closing brace -/
def Ends (ts : List Token) : Prop := ts = [] ∨ ∃ t r, ts = t :: r ∧ IsSign t '}'

theorem code_ends {tail : List Token} (h : Ends tail) (place : Place) (fuel : Nat) :
    code (fuel + 1) place tail = some (.nil, tail) := by
  rcases h with rfl | ⟨t, r, rfl, h⟩
  · rw [code]
  · rw [code]
    exact if_pos h

theorem code_braces {place : Place} {ts vs ws tail : List Token} {o : Opening} {inner rest : Forest} {c : Token} {fuel : Nat}
    (ht : Starts (· ≠ .sign '}') ts) (ho : beginning place ts = some (o, vs)) (hc : IsSign c '}')
    (h1 : code fuel o.inside vs = some (inner, c :: ws)) (h2 : code fuel place ws = some (rest, tail)) :
    code (fuel + 1) place ts = some (o.build inner rest, tail) := by
  obtain ⟨t, us, rfl, ht⟩ := ht
  rw [code, if_neg ht, ho]
  simp only [Option.bind_eq_bind, h1, Option.bind_some, expect_one ws hc, h2]
  rfl

theorem code_statement {place : Place} {ts ws tail : List Token} {m : Option Mac} {rest : Forest} {fuel : Nat}
    (ht : Starts (· ≠ .sign '}') ts) (ho : beginning place ts = none) (h1 : statement place ts = some (m, ws))
    (h2 : code fuel place ws = some (rest, tail)) : code (fuel + 1) place ts = some (withStatement m rest, tail) := by
  obtain ⟨t, us, rfl, ht⟩ := ht
  rw [code, if_neg ht, ho]
  simp only [Option.bind_eq_bind, h1, Option.bind_some, h2]
  rfl

theorem code_last {place : Place} {ts tail : List Token} {f : Forest} {fuel : Nat} (ht : Starts (· ≠ .sign '}') ts)
    (ho : beginning place ts = none) (h1 : statement place ts = none) (h2 : last place ts = some (f, tail)) :
    code (fuel + 1) place ts = some (f, tail) := by
  obtain ⟨t, us, rfl, ht⟩ := ht
  rw [code, if_neg ht, ho]
  simp only [h1, h2]

/-! ### The value at the end of a body -/

theorem upTo_none {k : Kind} {ts : List Token} (h : ∀ x ∈ ts.map Token.kind, x ≠ k) : upTo k ts = none := by
  unfold upTo
  rw [(span_all fun x hx => by simpa using h _ (List.mem_map.2 ⟨x, hx, rfl⟩)).2]

/-- No statement: the next semicolon is behind a closing brace or an exclamation mark. -/
theorem statement_none {ts : List Token} (h : Starts Beginning ts) (hm : macroCall .body ts = none)
    (hu : ∀ ks us, upTo (.sign ';') ts = some (ks, us) → ∃ c ∈ c!";!}{", .sign c ∈ ks) : statement .body ts = none := by
  have h1 : plain .body ts = none := by
    rw [plain, if_pos rfl]
    cases e : upTo (.sign ';') ts with
    | none => rfl
    | some x =>
      obtain ⟨ks, us⟩ := x
      obtain ⟨c, hc, hk⟩ := hu _ _ e
      simp only [Option.bind_eq_bind, Option.bind_some]
      rw [if_neg]
      rw [isPlain_iff]
      exact fun hp => plain_end hp hc _ hk rfl
  have h2 : declaration .body ts = none := by
    rw [declaration, if_pos (by rfl : Place.body.hasItems = true), attributes_none (h.mono fun k => beginning_noAttribute)]
    simp only [Option.bind_eq_bind, Option.bind_some]
    rw [visibility_none (h.mono fun k hk => beginning_word hk (by decide) (by decide))]
    have h1 : ended ';' isDeclaration ts = none := by
      rw [ended]
      cases e : upTo (.sign ';') ts with
      | none => rfl
      | some x =>
        obtain ⟨ks, us⟩ := x
        obtain ⟨c, hc, hk⟩ := hu _ _ e
        simp only [Option.bind_eq_bind, Option.bind_some]
        rw [if_neg]
        rw [isDeclaration_iff]
        exact fun hp => declaration_end hp hc _ hk rfl
    have h2 : ended '}' isRecord ts = none := by
      obtain ⟨t, ts, rfl, ht⟩ := h
      rw [ended]
      cases e : upTo (.sign '}') (t :: ts) with
      | none => rfl
      | some x =>
        obtain ⟨ks, us⟩ := x
        obtain ⟨ls, rfl⟩ := upTo_head e (beginning_sign ht (by decide))
        simp only [Option.bind_eq_bind, Option.bind_some]
        rw [if_neg]
        rw [isRecord_iff]
        generalize hk : t.kind = k at ht
        intro hr
        cases hr with
        | structIs => exact beginning_word ht (w := c!"struct") (by decide) (by decide) rfl
        | enumIs => exact beginning_word ht (w := c!"enum") (by decide) (by decide) rfl
    rw [h1, h2]
  rw [statement, hm]
  simp only [h1, h2]
  rfl

theorem ends_split {hs tail : List Token} (h : ∀ x ∈ hs.map Token.kind, x ≠ .sign '}') (ht : Ends tail) :
    (hs ++ tail).takeWhile (·.kind != .sign '}') = hs ∧ (hs ++ tail).dropWhile (·.kind != .sign '}') = tail := by
  have h' : ∀ x ∈ hs, (x.kind != .sign '}') = true := fun x hx => by simpa using h _ (List.mem_map.2 ⟨x, hx, rfl⟩)
  rcases ht with rfl | ⟨t, r, rfl, ht⟩
  · rw [List.append_nil]
    exact span_all h'
  · exact span_split h' (by rw [ht]; decide)

theorem atom_start {hs : List Token} (h : Are ExpressionKinds hs) : Starts Beginning hs := by
  unfold Are at h
  generalize hk : hs.map Token.kind = ks at h
  have word : ∀ {s : Str}, NameWord s ∨ s = c!"self" → Beginning (.word s) := fun h =>
    .inl ⟨_, rfl, h.imp_right (by rintro rfl; decide)⟩
  rcases h with h | h
  · cases h with
    | text => exact starts_kinds hk (.inr (.inr ⟨_, rfl⟩))
    | chain h =>
      obtain ⟨s, ls, rfl, h'⟩ := chain_head h
      exact starts_kinds hk (word h')
    | reference => exact starts_kinds hk (.inr (.inl rfl))
  · obtain ⟨s, ls, rfl, h'⟩ := call_head h
    exact starts_kinds hk (word h')

theorem macroCall_value {hs tail : List Token} (h : Are ExpressionKinds hs) (ht : Ends tail) :
    macroCall .body (hs ++ tail) = none := by
  refine macroCall_none (expression_end h (by decide)) ?_
  rcases ht with rfl | ⟨t, r, rfl, ht⟩
  · exact .inl rfl
  · exact .inr ⟨t, r, rfl, _, ht, by decide⟩

theorem macroCall_ok {n : Token} {s : Str} {ns : List Token} {ss : List Str} {e o : Token} {ts : List Token} {as : List Tok} {c d : Token} (hn : IsName n s)
    (hm : MoreNames ns ss) (he : IsSign e '!') (ho : IsSign o '(') (ha : RustLayout.Arguments ts as) (hc : IsSign c ')') (hd : IsSign d ';')
    (us : List Token) :
    macroCall .body (n :: (ns ++ e :: o :: (ts ++ c :: d :: us))) = some (⟨s :: ss, n.line, n.column, as⟩, us) := by
  rw [macroCall, if_pos rfl, name_ok hn]
  simp only [Option.bind_eq_bind, Option.bind_some]
  rw [moreNames_ok hm ⟨_, _, rfl, by rw [he]; simp⟩]
  have e1 : e :: o :: (ts ++ c :: d :: us) = [e, o] ++ (ts ++ c :: (d :: us)) := by simp
  rw [e1]
  rw [expect_append (by rw [List.map_cons, List.map_cons, he, ho]; rfl : [e, o].map (·.kind) = [.sign '!', .sign '('])]
  simp only [Option.bind_some]
  rw [arguments_ok ha hc]
  simp only [Option.bind_some, expect_one us hd]
  rfl

theorem macroCall_open {n : Token} {s : Str} {ns : List Token} {ss : List Str} {e o : Token} {ts : List Token} {as : List Tok} {c : Token} (hn : IsName n s)
    (hm : MoreNames ns ss) (he : IsSign e '!') (ho : IsSign o '(') (ha : RustLayout.Arguments ts as) (hc : IsSign c ')') {tail : List Token}
    (ht : Ends tail) : macroCall .body (n :: (ns ++ e :: o :: (ts ++ c :: tail))) = none := by
  rw [macroCall, if_pos rfl, name_ok hn]
  simp only [Option.bind_eq_bind, Option.bind_some]
  rw [moreNames_ok hm ⟨_, _, rfl, by rw [he]; simp⟩]
  have e1 : e :: o :: (ts ++ c :: tail) = [e, o] ++ (ts ++ c :: tail) := by simp
  rw [e1]
  rw [expect_append (by rw [List.map_cons, List.map_cons, he, ho]; rfl : [e, o].map (·.kind) = [.sign '!', .sign '('])]
  simp only [Option.bind_some]
  rw [arguments_ok ha hc]
  simp only [Option.bind_some]
  rcases ht with rfl | ⟨t, r, rfl, ht⟩
  · rfl
  · rw [expect_none _ (by rw [ht]; decide)]
    rfl

theorem arguments_kinds {ts : List Token} {as : List Tok} (h : RustLayout.Arguments ts as) :
    ∀ k ∈ ts.map Token.kind, k ≠ .sign '}' := by
  induction h with
  | nil => nofun
  | cons ha _ _ ih =>
    refine cons_end ?_ ih
    rcases ha with ⟨s, h⟩ | ⟨s, h⟩ | ⟨c, h, hc⟩
    · rw [h]; simp
    · rw [h]; simp
    · rw [h]; intro e; cases e; exact hc (by decide)

theorem last_value {hs tail : List Token} (h : Are ExpressionKinds hs) (ht : Ends tail) :
    last .body (hs ++ tail) = some (.node .nil .nil, tail) := by
  obtain ⟨e1, e2⟩ := ends_split (expression_end h (by decide)) ht
  rw [last, if_pos rfl]
  simp only [e1, e2]
  exact if_pos ((isExpression_iff _).2 h)

theorem last_mac {n : Token} {s : Str} {ns : List Token} {ss : List Str} {e o : Token} {ts : List Token} {as : List Tok} {c : Token} (hn : IsName n s)
    (hm : MoreNames ns ss) (he : IsSign e '!') (ho : IsSign o '(') (ha : RustLayout.Arguments ts as) (hc : IsSign c ')') {tail : List Token}
    (ht : Ends tail) :
    last .body (n :: (ns ++ e :: o :: (ts ++ [c])) ++ tail) = some (.mac ⟨s :: ss, n.line, n.column, as⟩ .nil, tail) := by
  obtain ⟨e1, e2⟩ := ends_split (hs := n :: (ns ++ e :: o :: (ts ++ [c]))) (by
    refine cons_end (by rw [hn.1]; simp) fun k hk => ?_
    rw [List.map_append] at hk
    rcases List.mem_append.1 hk with hk | hk
    · exact path_sign (moreNames_kinds hm k hk) _
    refine cons_end (by rw [he]; decide) (cons_end (by rw [ho]; decide) ?_) k hk
    rw [List.map_append]
    intro k hk
    rcases List.mem_append.1 hk with hk | hk
    · exact arguments_kinds ha k hk
    · rw [List.map_cons, List.map_nil, List.mem_singleton] at hk
      rw [hk, hc]
      decide) ht
  rw [last, if_pos rfl]
  simp only [e1, e2]
  rw [if_neg]
  · have := macroCall_ok hn hm he ho ha hc (d := ⟨.sign ';', 0, 0⟩) rfl []
    have e3 : n :: (ns ++ e :: o :: (ts ++ [c])) ++ [⟨.sign ';', 0, 0⟩] =
        n :: (ns ++ e :: o :: (ts ++ c :: [⟨.sign ';', 0, 0⟩])) := by simp
    rw [e3, this]
  · rw [isExpression_iff]
    intro hx
    exact expression_end hx (c := '!') (by decide) e.kind (by simp) he

theorem item_start {place : Place} {as vs hs : List Token} {i : Rs.Item} {line column : Nat} {inside : Place}
    (ha : Are AttributesKinds as) (hv : VisibilityAt place i vs) (hh : Head place hs i line column inside) {o : Token}
    (ho : IsSign o '{') (ts : List Token) : Starts (· ≠ .sign '}') (as ++ (vs ++ (hs ++ o :: ts))) := by
  rcases attributes_start ha with rfl | ha
  · rcases hv with rfl | ⟨hv, _⟩
    · exact ((opening_head hh ho ts).2.append _).mono fun k ⟨s, _, h⟩ => by rw [h]; simp
    · exact ((public_start hv).append _).mono fun k h => by rw [h]; simp
  · refine (ha.append _).mono ?_
    rintro k (rfl | ⟨s, rfl⟩)
    · decide
    · simp

theorem code_written {place : Place} {f : Forest} {ts : List Token} (h : Written place f ts) :
    ∀ (tail : List Token), Ends tail → ∀ fuel, ts.length < fuel → code fuel place (ts ++ tail) = some (f, tail) := by
  induction h with
  | nil =>
    intro tail ht fuel hf
    obtain ⟨fuel, rfl⟩ : ∃ f, fuel = f + 1 := ⟨fuel - 1, by omega⟩
    exact code_ends ht _ _
  | @item place as vs hs i line column inside o inner ts c rest us ha hv hh ho _ hc _ ih1 ih2 =>
    intro tail ht fuel hf
    obtain ⟨fuel, rfl⟩ : ∃ f, fuel = f + 1 := ⟨fuel - 1, by omega⟩
    have e : as ++ (vs ++ (hs ++ o :: (ts ++ c :: us))) ++ tail = as ++ (vs ++ (hs ++ o :: (ts ++ c :: (us ++ tail)))) := by simp
    simp only [List.length_append, List.length_cons] at hf
    rw [e]
    exact code_braces (o := ⟨some (i, line, column), inside⟩) (item_start ha hv hh ho _) (beginning_item ha hv hh ho _) hc
      (ih1 _ (.inr ⟨c, _, rfl, hc⟩) fuel (by omega)) (ih2 tail ht fuel (by omega))
  | @block hs o inner ts c rest us hb ho _ hc _ ih1 ih2 =>
    intro tail ht fuel hf
    obtain ⟨fuel, rfl⟩ : ∃ f, fuel = f + 1 := ⟨fuel - 1, by omega⟩
    have e : hs ++ o :: (ts ++ c :: us) ++ tail = hs ++ o :: (ts ++ c :: (us ++ tail)) := by simp
    simp only [List.length_append, List.length_cons] at hf
    rw [e]
    refine code_braces (o := ⟨none, .body⟩) ((block_start hb ho _).mono ?_) (beginning_block hb ho _) hc
      (ih1 _ (.inr ⟨c, _, rfl, hc⟩) fuel (by omega)) (ih2 tail ht fuel (by omega))
    rintro k (rfl | ⟨s, _, rfl⟩)
    · decide
    · simp
  | @mac n s ns ss e o ts as c d rest us hn hm he ho ha hc hd _ ih =>
    intro tail ht fuel hf
    obtain ⟨fuel, rfl⟩ : ∃ f, fuel = f + 1 := ⟨fuel - 1, by omega⟩
    simp only [List.length_append, List.length_cons] at hf
    have e1 : n :: (ns ++ e :: o :: (ts ++ c :: d :: us)) ++ tail =
        n :: (ns ++ e :: o :: (ts ++ c :: d :: (us ++ tail))) := by simp
    rw [e1]
    refine code_statement (m := some ⟨s :: ss, n.line, n.column, as⟩) ⟨_, _, rfl, by rw [hn.1]; simp⟩
      (beginning_statement ⟨_, _, rfl, s, hn.1, .inl hn.2⟩) ?_ (ih tail ht fuel (by omega))
    rw [statement, macroCall_ok hn hm he ho ha hc hd]
  | @plain hs d rest us hp hd _ ih =>
    intro tail ht fuel hf
    obtain ⟨fuel, rfl⟩ : ∃ f, fuel = f + 1 := ⟨fuel - 1, by omega⟩
    simp only [List.length_append, List.length_cons] at hf
    have e1 : hs ++ d :: us ++ tail = hs ++ d :: (us ++ tail) := by simp
    rw [e1]
    have hs' := (plain_start hp).append (d :: (us ++ tail))
    exact code_statement (m := none) (hs'.mono fun k ⟨s, h, _⟩ => by rw [h]; simp) (beginning_statement hs')
      (statement_plain hp hd _) (ih tail ht fuel (by omega))
  | @declaration place as vs hs d rest us hp ha hv hh _ ih =>
    intro tail ht fuel hf
    obtain ⟨fuel, rfl⟩ : ∃ f, fuel = f + 1 := ⟨fuel - 1, by omega⟩
    simp only [List.length_append, List.length_cons] at hf
    have e1 : as ++ (vs ++ (hs ++ d :: us)) ++ tail = as ++ (vs ++ (hs ++ d :: (us ++ tail))) := by simp
    rw [e1]
    refine code_statement (m := none) ((declares ha hv hh).1.mono ?_) (beginning_declaration ha hv hh)
      (statement_declaration hp ha hv hh _) (ih tail ht fuel (by omega))
    rintro k (rfl | ⟨s, rfl⟩ | ⟨s, _, rfl⟩)
    · decide
    · simp
    · simp
  | @value hs h =>
    intro tail ht fuel hf
    obtain ⟨fuel, rfl⟩ : ∃ f, fuel = f + 1 := ⟨fuel - 1, by omega⟩
    have hs' := (atom_start h).append tail
    refine code_last (hs'.mono fun k hk => beginning_sign hk (by decide)) (beginning_none hs')
      (statement_none hs' (macroCall_value h ht) ?_) (last_value h ht)
    intro ks us hu
    rcases ht with rfl | ⟨t, r, rfl, ht⟩
    · rw [List.append_nil, upTo_none (expression_end h (by decide))] at hu
      cases hu
    · have := upTo_mem hu (expression_end h (by decide)) (by rw [ht]; decide)
      rw [ht] at this
      exact ⟨'}', by decide, this⟩
  | @lastMac n s ns ss e o ts as c hn hm he ho ha hc =>
    intro tail ht fuel hf
    obtain ⟨fuel, rfl⟩ : ∃ f, fuel = f + 1 := ⟨fuel - 1, by omega⟩
    have hs' : Starts Beginning (n :: (ns ++ e :: o :: (ts ++ [c])) ++ tail) := ⟨_, _, rfl, .inl ⟨s, hn.1, .inl hn.2⟩⟩
    refine code_last (hs'.mono fun k hk => beginning_sign hk (by decide)) (beginning_none hs')
      (statement_none hs' ?_ ?_) (last_mac hn hm he ho ha hc ht)
    · have e1 : n :: (ns ++ e :: o :: (ts ++ [c])) ++ tail = n :: (ns ++ e :: o :: (ts ++ c :: tail)) := by simp
      rw [e1]
      exact macroCall_open hn hm he ho ha hc ht
    · intro ks us hu
      have e1 : n :: (ns ++ e :: o :: (ts ++ [c])) ++ tail = n :: ns ++ e :: (o :: (ts ++ [c]) ++ tail) := by simp
      rw [e1] at hu
      have := upTo_mem hu (cons_end (by rw [hn.1]; simp) fun k hk => path_sign (moreNames_kinds hm k hk) _) (by rw [he]; decide)
      rw [he] at this
      exact ⟨'!', by decide, this⟩

/-- The reader reads all code, however it is laid out. -/
theorem C164_read {text : Str} {f : Forest} (h : IsCode text f) : read text = some f := by
  obtain ⟨ts, h1, h2⟩ := h
  have hl := lex_laid h1 text.length (Nat.le_refl _)
  have hc := code_written h2 [] (.inl rfl) (ts.length + 1) (Nat.lt_succ_self _)
  rw [List.append_nil] at hc
  rw [read]
  show (do let ts ← lex text.length (lineAfter [], columnAfter []) text; _) = _
  rw [hl]
  simp only [Option.bind_eq_bind, Option.bind_some, hc]
  rfl

/-! ## The reader reads nothing else -/

theorem blockComment_sound : ∀ {r used rest : Str}, blockComment r = some (used, rest) →
    ∃ s, BlockText s ∧ used = s ++ c!"*/" ∧ r = s ++ c!"*/" ++ rest
  | [], _, _, h => by cases h
  | c :: r, used, rest, h => by
    rw [blockComment] at h
    split at h
    · rename_i hc
      cases h
      obtain ⟨rfl, h2⟩ := hc
      refine ⟨[], .nil, rfl, ?_⟩
      cases r with
      | nil => cases h2
      | cons d r => cases h2; rfl
    · rename_i h1
      split at h
      · cases h
      · rename_i h2
        obtain ⟨⟨u, t⟩, h3, h4⟩ := Option.map_eq_some_iff.1 h
        cases h4
        obtain ⟨s, hs, rfl, rfl⟩ := blockComment_sound h3
        refine ⟨c :: s, .cons (fun h => h2 (.inl h)) (fun h => h1 ⟨h.1, ?_⟩) (fun h => h2 (.inr ⟨h.1, ?_⟩)) hs, rfl, rfl⟩
        · cases s with
          | nil => cases h.2
          | cons d s => exact h.2
        · cases s with
          | nil => rfl
          | cons d s => rcases h.2 with h | h
                        · cases h
                        · exact h

theorem takeWhile_line (r : Str) : '\n' ∉ r.takeWhile (· != '\n') ∧
    (r.dropWhile (· != '\n') = [] ∨ ∃ t, r.dropWhile (· != '\n') = '\n' :: t) := by
  induction r with
  | nil => exact ⟨by simp, .inl rfl⟩
  | cons c r ih =>
    by_cases hc : c = '\n'
    · subst hc
      exact ⟨by simp, .inr ⟨r, by simp⟩⟩
    · have hc' : (fun x : Char => x != '\n') c = true := by simpa using hc
      rw [List.takeWhile_cons_of_pos (p := fun x => x != '\n') hc', List.dropWhile_cons_of_pos (p := fun x => x != '\n') hc']
      refine ⟨?_, ih.2⟩
      simp only [List.mem_cons, not_or]
      exact ⟨Ne.symm hc, ih.1⟩

theorem comment_sound {r used rest : Str} (h : comment r = some (used, rest)) :
    (∃ s, LineText s ∧ used = '/' :: s ∧ r = '/' :: (s ++ rest) ∧ (rest = [] ∨ ∃ t, rest = '\n' :: t)) ∨
    ∃ s, BlockText s ∧ s.head? ≠ some '*' ∧ s.head? ≠ some '!' ∧ s ≠ [] ∧ used = '*' :: (s ++ c!"*/") ∧
      r = '*' :: (s ++ c!"*/" ++ rest) := by
  cases r with
  | nil => cases h
  | cons c r =>
    rw [comment] at h
    split at h
    · rename_i hc
      subst hc
      split at h
      · cases h
      · rename_i hn
        cases h
        obtain ⟨h1, h2⟩ := takeWhile_line r
        simp only [not_or] at hn
        have hh : ∀ d, (r.takeWhile (· != '\n')).head? = some d → r.head? = some d := by
          intro d hd
          cases r with
          | nil => cases hd
          | cons e r =>
            rw [List.takeWhile_cons] at hd
            split at hd
            · exact hd
            · cases hd
        exact .inl ⟨_, ⟨h1, hn.2.2, fun h => hn.1 (hh _ h), fun h => hn.2.1 (hh _ h)⟩, rfl,
          by rw [List.takeWhile_append_dropWhile], h2⟩
    · split at h
      · rename_i hc
        subst hc
        split at h
        · cases h
        · rename_i hn
          simp only [not_or] at hn
          obtain ⟨⟨u, t⟩, h3, h4⟩ := Option.map_eq_some_iff.1 h
          cases h4
          obtain ⟨s, hs, rfl, rfl⟩ := blockComment_sound h3
          refine .inr ⟨s, hs, fun h => hn.1 ?_, fun h => hn.2 ?_, ?_, rfl, rfl⟩
          · cases s with
            | nil => cases h
            | cons d s => exact h
          · cases s with
            | nil => cases h
            | cons d s => exact h
          · rintro rfl
            exact hn.1 rfl
      · cases h

theorem literal_sound : ∀ {r used rest : Str}, literal r = some (used, rest) →
    ∃ s, '"' ∉ s ∧ '\\' ∉ s ∧ '\r' ∉ s ∧ used = s ++ c!"\"" ∧ r = s ++ c!"\"" ++ rest
  | [], _, _, h => by cases h
  | c :: r, used, rest, h => by
    rw [literal] at h
    split at h
    · rename_i hc
      cases h
      subst hc
      exact ⟨[], by simp, by simp, by simp, rfl, rfl⟩
    · rename_i h1
      split at h
      · cases h
      · rename_i h2
        simp only [not_or] at h2
        obtain ⟨⟨u, t⟩, h3, h4⟩ := Option.map_eq_some_iff.1 h
        cases h4
        obtain ⟨s, a, b, d, rfl, rfl⟩ := literal_sound h3
        refine ⟨c :: s, ?_, ?_, ?_, rfl, rfl⟩
        · simp only [List.mem_cons, not_or]; exact ⟨Ne.symm h1, a⟩
        · simp only [List.mem_cons, not_or]; exact ⟨Ne.symm h2.1, b⟩
        · simp only [List.mem_cons, not_or]; exact ⟨Ne.symm h2.2, d⟩

theorem gap_append {g g' : Str} (h : Gap g) (h' : Gap g') : Gap (g ++ g') := by
  induction h with
  | nil => exact h'
  | space hc _ ih => exact .space hc ih
  | @line s g hs _ ih =>
    have := Gap.line hs ih
    simpa using this
  | @block s g hs h1 h2 h3 _ ih =>
    have := Gap.block hs h1 h2 h3 ih
    simpa using this

theorem laid_gap {before g r : Str} {ts : List Token} (hg : Gap g) (h : Laid (before ++ g) ts r) : Laid before ts (g ++ r) := by
  cases h with
  | done h => exact .done (gap_append hg h)
  | @comment _ g' s h hs =>
    have := Laid.comment (before := before) (gap_append hg h) hs
    simpa using this
  | @token _ g' k s ts r h hk ha h =>
    have e : before ++ g ++ g' ++ s = before ++ (g ++ g') ++ s := by simp
    rw [e] at h
    have := Laid.token (before := before) (gap_append hg ‹Gap g'›) hk ha h
    simpa using this

theorem lex_zero {p : Nat × Nat} {c : Char} {r : Str} {ts : List Token} (h : lex 0 p (c :: r) = some ts) : False := by
  rw [lex] at h
  · cases h
  · intro h; cases h

theorem notWord {r : Str} (h : wordGoesOn r = false) : ∀ c, r.head? = some c → ¬ WordChar c := by
  intro c hc
  cases r with
  | nil => cases hc
  | cons d r =>
    cases hc
    rw [← isPart_iff]
    simpa [wordGoesOn] using h

theorem notText {r : Str} (h : textGoesOn r = false) : (∀ c, r.head? = some c → ¬ WordChar c) ∧ r.head? ≠ some '.' := by
  rw [textGoesOn, Bool.or_eq_false_iff] at h
  exact ⟨notWord h.1, by simpa using h.2⟩

theorem lex_sound (fuel : Nat) : ∀ (before text : Str) (ts : List Token),
    lex fuel (lineAfter before, columnAfter before) text = some ts → Laid before ts text := by
  have e : ∀ a b : Str, b.foldl move (lineAfter a, columnAfter a) = (lineAfter (a ++ b), columnAfter (a ++ b)) := by
    intro a b
    rw [← position, ← position, List.foldl_append]
  have e1 : ∀ (a : Str) (c : Char), move (lineAfter a, columnAfter a) c = (lineAfter (a ++ [c]), columnAfter (a ++ [c])) :=
    fun a c => e a [c]
  induction fuel using Nat.strongRecOn with
  | ind fuel ih =>
    intro before text ts h
    cases text with
    | nil => rw [lex_nil] at h; cases h; exact .done .nil
    | cons c r =>
      cases fuel with
      | zero => exact (lex_zero h).elim
      | succ fuel =>
        rw [lex] at h
        split at h
        · rename_i hc
          rw [e1] at h
          exact laid_gap (g := [c]) (.space hc .nil) (ih fuel (Nat.lt_succ_self _) _ _ _ h)
        · split at h
          · rename_i hc
            subst hc
            split at h
            · rename_i s t hd
              split at h
              · cases h
              · rename_i hn
                obtain ⟨rfl, d1, d2, d3⟩ := documentation_sound hd
                obtain ⟨us, h3, rfl⟩ := Option.map_eq_some_iff.1 h
                rw [e1, e] at h3
                have h4 := ih fuel (Nat.lt_succ_self _) _ _ _ h3
                have e2 : before ++ ['/'] ++ (c!"//" ++ s) = before ++ [] ++ (c!"///" ++ s) := by simp
                rw [e2] at h4
                have := Laid.token (before := before) .nil (.doc d1 hn d2) d3 h4
                simpa using this
            obtain ⟨⟨u, t⟩, h1, h2⟩ := Option.bind_eq_some_iff.1 h
            simp only at h2
            rw [e1, e] at h2
            rcases comment_sound h1 with ⟨s, hs, rfl, rfl, ht⟩ | ⟨s, hs, a1, a2, a3, rfl, rfl⟩
            · rcases ht with rfl | ⟨t', rfl⟩
              · rw [lex_nil] at h2
                cases h2
                have := Laid.comment (before := before) .nil hs
                simpa using this
              · cases fuel with
                | zero => exact (lex_zero h2).elim
                | succ fuel =>
                  rw [lex, if_pos (by decide), e1] at h2
                  have := ih fuel (by omega) _ _ _ h2
                  have e2 : before ++ ['/'] ++ '/' :: s ++ ['\n'] = before ++ (c!"//" ++ s ++ c!"\n" ++ []) := by simp
                  rw [e2] at this
                  have := laid_gap (.line hs .nil) this
                  simpa using this
            · have := ih fuel (Nat.lt_succ_self _) _ _ _ h2
              have e2 : before ++ ['/'] ++ '*' :: (s ++ c!"*/") = before ++ (c!"/*" ++ s ++ c!"*/" ++ []) := by simp
              rw [e2] at this
              have := laid_gap (.block hs a1 a2 a3 .nil) this
              simpa using this
          · split at h
            · rename_i hc
              subst hc
              obtain ⟨⟨u, t⟩, h1, h2⟩ := Option.bind_eq_some_iff.1 h
              simp only at h2
              obtain ⟨s, a1, a2, a3, rfl, rfl⟩ := literal_sound h1
              split at h2
              · cases h2
              · rename_i hw
                obtain ⟨us, h3, rfl⟩ := Option.map_eq_some_iff.1 h2
                rw [e1, e] at h3
                have h4 := ih fuel (Nat.lt_succ_self _) _ _ _ h3
                have e2 : before ++ ['"'] ++ (s ++ c!"\"") = before ++ [] ++ ('"' :: s ++ c!"\"") := by simp
                rw [e2] at h4
                have := Laid.token (before := before) .nil (.text a1 a2 a3) (notText (by simpa using hw)) h4
                simpa using this
            · split at h
              · rename_i hc
                simp only at h
                split at h
                · cases h
                · rename_i hn
                  simp only [not_or] at hn
                  obtain ⟨us, h3, rfl⟩ := Option.map_eq_some_iff.1 h
                  rw [e1, e] at h3
                  have h4 := ih fuel (Nat.lt_succ_self _) _ _ _ h3
                  have e2 : before ++ [c] ++ r.takeWhile isPart = before ++ [] ++ (c :: r.takeWhile isPart) := by simp
                  rw [e2] at h4
                  have hd : ∀ d, (r.dropWhile isPart).head? = some d → ¬ WordChar d := by
                    intro d hd
                    rw [← isPart_iff]
                    have := List.head?_dropWhile_not isPart r
                    rw [hd] at this
                    simpa using this
                  have ha : ∀ d ∈ r.takeWhile isPart, WordChar d := fun d hd =>
                    (isPart_iff d).1 (List.all_eq_true.1 List.all_takeWhile d hd)
                  have := Laid.token (before := before) .nil (.word (by simpa [isStart] using hc) ha hn.1) ⟨hd, hn.2⟩ h4
                  simpa using this
              · split at h
                · rename_i hc
                  simp only at h
                  split at h
                  · cases h
                  · rename_i hw
                    obtain ⟨us, h3, rfl⟩ := Option.map_eq_some_iff.1 h
                    rw [e1, e] at h3
                    have h4 := ih fuel (Nat.lt_succ_self _) _ _ _ h3
                    have e2 : before ++ [c] ++ r.takeWhile Char.isDigit = before ++ [] ++ (c :: r.takeWhile Char.isDigit) := by simp
                    rw [e2] at h4
                    have ha : ∀ d ∈ r.takeWhile Char.isDigit, d.isDigit = true := fun d hd =>
                      List.all_eq_true.1 List.all_takeWhile d hd
                    have := Laid.token (before := before) .nil (.number hc ha) (notText (by simpa using hw)) h4
                    simpa using this
                · have joint : ∀ {d : Char} {j : Str}, j = [c, d] → j ∈ [c!"::", c!"->"] → r.head? = some d →
                      (lex fuel (move (move (lineAfter before, columnAfter before) c) d) r.tail).map
                        (⟨.joint j, lineAfter before, columnAfter before⟩ :: ·) = some ts → Laid before ts (c :: r) := by
                    rintro d j rfl hj hd h
                    obtain ⟨us, h3, rfl⟩ := Option.map_eq_some_iff.1 h
                    rw [e1, e1] at h3
                    have h4 := ih fuel (Nat.lt_succ_self _) _ _ _ h3
                    have e2 : before ++ [c] ++ [d] = before ++ [] ++ [c, d] := by simp
                    rw [e2] at h4
                    have := Laid.token (before := before) .nil (.joint hj) trivial h4
                    cases r with
                    | nil => cases hd
                    | cons d' r => cases hd; simpa using this
                  split at h
                  · rename_i hc
                    obtain ⟨rfl, hd⟩ := hc
                    exact joint (d := ':') rfl (by decide) hd h
                  · rename_i hn
                    split at h
                    · rename_i hc
                      obtain ⟨rfl, hd⟩ := hc
                      exact joint (d := '>') rfl (by decide) hd h
                    · split at h
                      · rename_i hc
                        obtain ⟨us, h3, rfl⟩ := Option.map_eq_some_iff.1 h
                        rw [e1] at h3
                        have h4 := ih fuel (Nat.lt_succ_self _) _ _ _ h3
                        have e2 : before ++ [c] = before ++ [] ++ [c] := by simp
                        rw [e2] at h4
                        have := Laid.token (before := before) .nil (.sign (by simpa [isSign] using hc))
                          (fun h1 h2 => hn ⟨h1, h2⟩) h4
                        simpa using this
                      · cases h

theorem expect_one_sound {k : Kind} {ts us : List Token} (h : expect [k] ts = some us) :
    ∃ t, ts = t :: us ∧ t.kind = k := by
  obtain ⟨hs, rfl, h2⟩ := expect_sound h
  obtain ⟨t, hs', rfl, h3, h4⟩ := List.map_eq_cons_iff.1 h2
  cases List.map_eq_nil_iff.1 h4
  exact ⟨t, rfl, h3⟩

theorem functionAt (place : Place) (n : Str) : FunctionAt place n (function place n) := by
  cases place
  · exact .item
  · exact .inner
  · exact .method
  · exact .traitMethod

theorem upTo_sound {k : Kind} {ts us : List Token} {ks : List Kind} (h : upTo k ts = some (ks, us)) :
    ∃ hs t, ts = hs ++ t :: us ∧ t.kind = k ∧ ks = hs.map Token.kind := by
  unfold upTo at h
  split at h
  · cases h
  · rename_i t vs hd
    cases h
    obtain ⟨e, ht⟩ := dropWhile_cons_eq hd
    exact ⟨_, t, e, by simpa using ht, rfl⟩

theorem attributes_sound (fuel : Nat) : ∀ {ts us : List Token}, attributes fuel ts = some us →
    ∃ as, ts = as ++ us ∧ Are AttributesKinds as := by
  induction fuel with
  | zero => intro ts us h; cases h; exact ⟨[], rfl, .nil⟩
  | succ fuel ih =>
    intro ts us h
    unfold attributes at h
    split at h
    · obtain ⟨as, rfl, h1⟩ := ih h
      exact ⟨_ :: as, rfl, .doc h1⟩
    · split at h
      · cases h; exact ⟨[], rfl, .nil⟩
      · rename_i he
        obtain ⟨hs, rfl, h1⟩ := expect_sound he
        replace h := Option.bind_eq_some_iff.1 h
        obtain ⟨⟨ks, vs⟩, h2, h⟩ := h
        simp only at h
        split at h
        · rename_i hm
          obtain ⟨ms, t, rfl, ht, rfl⟩ := upTo_sound h2
          obtain ⟨as, rfl, h3⟩ := ih h
          refine ⟨hs ++ (ms ++ t :: as), by simp, ?_⟩
          have := AttributesKinds.bracketed ((isMeta_iff _).1 hm) h3
          rw [Are, List.map_append, List.map_append, List.map_cons, ht, h1]
          exact this
        · cases h

theorem visibility_sound {ts us : List Token} {b : Bool} (h : visibility ts = (b, us)) :
    ∃ vs, ts = vs ++ us ∧ ((b = false ∧ vs = []) ∨ (b = true ∧ Are PublicKinds vs)) := by
  unfold visibility at h
  split at h
  · cases h; exact ⟨[], rfl, .inl ⟨rfl, rfl⟩⟩
  · rename_i he
    obtain ⟨t, rfl, ht⟩ := expect_one_sound he
    split at h
    · rename_i hf
      cases h
      obtain ⟨s, hs, hx⟩ := List.exists_of_findSome?_eq_some hf
      obtain ⟨vs, rfl, hv⟩ := expect_sound hx
      refine ⟨t :: vs, rfl, .inr ⟨rfl, ?_⟩⟩
      rw [Are, List.map_cons, ht, hv]
      exact .within hs
    · cases h
      refine ⟨[t], rfl, .inr ⟨rfl, ?_⟩⟩
      rw [Are, List.map_cons, ht]
      exact .everywhere

theorem opening_sound {place : Place} {ts us : List Token} {o : Opening} (h : opening place ts = some (o, us)) :
    ∃ hs b i l c, ts = hs ++ b :: us ∧ IsSign b '{' ∧ o.item = some (i, l, c) ∧ Head place hs i l c o.inside := by
  have hi : place.hasItems = true → place = .items ∨ place = .body := by
    cases place <;> simp [Place.hasItems]
  unfold opening at h
  split at h
  · rename_i s l c ts
    split at h
    · rename_i hw
      subst hw
      replace h := Option.bind_eq_some_iff.1 h
      obtain ⟨⟨⟨n, l1, c1⟩, ts1⟩, h1, h⟩ := h
      replace h := Option.bind_eq_some_iff.1 h
      obtain ⟨⟨gs, ts2⟩, h2, h⟩ := h
      replace h := Option.bind_eq_some_iff.1 h
      obtain ⟨⟨ks, ts3⟩, h3, h⟩ := h
      replace h := Option.bind_eq_some_iff.1 h
      obtain ⟨⟨rs, ts4⟩, h4, h⟩ := h
      obtain ⟨t, rfl, a1, rfl, rfl⟩ := name_sound h1
      obtain ⟨gs, a, rfl, a2, rfl⟩ := upTo_sound h2
      obtain ⟨ps, b, rfl, a3, rfl⟩ := upTo_sound h3
      obtain ⟨qs, d, rfl, a4, rfl⟩ := upTo_sound h4
      simp only at h
      split at h
      · rename_i hk
        rw [Bool.and_eq_true, Bool.and_eq_true, isGenerics_iff, isParameters_iff, isResult_iff] at hk
        cases h
        exact ⟨⟨.word c!"fn", l, c⟩ :: t :: (gs ++ a :: (ps ++ b :: qs)), d, _, _, _, by simp, a4, rfl,
          .function rfl a1 (functionAt _ _) hk.1.1 a2 hk.1.2 a3 hk.2⟩
      · cases h
    · split at h
      · rename_i hw
        obtain ⟨rfl, hp⟩ := hw
        replace h := Option.bind_eq_some_iff.1 h
        obtain ⟨⟨⟨n, l1, c1⟩, ts1⟩, h1, h⟩ := h
        replace h := Option.bind_eq_some_iff.1 h
        obtain ⟨ts2, h2, h⟩ := h
        obtain ⟨t, rfl, a1, rfl, rfl⟩ := name_sound h1
        obtain ⟨b, rfl, a2⟩ := expect_one_sound h2
        cases h
        exact ⟨[_, t], b, _, _, _, rfl, a2, rfl, .module (hi hp) rfl a1⟩
      · split at h
        · rename_i hw
          obtain ⟨rfl, hp⟩ := hw
          replace h := Option.bind_eq_some_iff.1 h
          obtain ⟨⟨⟨n, l1, c1⟩, ts1⟩, h1, h⟩ := h
          replace h := Option.bind_eq_some_iff.1 h
          obtain ⟨ts2, h2, h⟩ := h
          obtain ⟨t, rfl, a1, rfl, rfl⟩ := name_sound h1
          obtain ⟨b, rfl, a2⟩ := expect_one_sound h2
          cases h
          exact ⟨[_, t], b, _, _, _, rfl, a2, rfl, .trait (hi hp) rfl a1⟩
        · split at h
          · rename_i hw
            obtain ⟨rfl, hp⟩ := hw
            replace h := Option.bind_eq_some_iff.1 h
            obtain ⟨⟨⟨n, l1, c1⟩, ts1⟩, h1, h⟩ := h
            obtain ⟨t, rfl, a1, rfl, rfl⟩ := name_sound h1
            simp only at h
            split at h
            · replace h := Option.bind_eq_some_iff.1 h
              obtain ⟨ts2, h2, h⟩ := h
              obtain ⟨b, rfl, a2⟩ := expect_one_sound h2
              cases h
              exact ⟨[_, t], b, _, _, _, rfl, a2, rfl, .impl (hi hp) rfl a1⟩
            · rename_i hf
              obtain ⟨f, rfl, a3⟩ := expect_one_sound hf
              replace h := Option.bind_eq_some_iff.1 h
              obtain ⟨⟨⟨n, l1, c1⟩, ts1⟩, h1, h⟩ := h
              replace h := Option.bind_eq_some_iff.1 h
              obtain ⟨ts2, h2, h⟩ := h
              obtain ⟨u, rfl, a4, rfl, rfl⟩ := name_sound h1
              obtain ⟨b, rfl, a2⟩ := expect_one_sound h2
              cases h
              exact ⟨[_, t, f, u], b, _, _, _, rfl, a2, rfl, .implFor (hi hp) rfl a1 a3 a4⟩
          · cases h
  · cases h

/-- What the beginning of something in braces consists of. -/
def Opens (place : Place) (o : Opening) (hs : List Token) : Prop :=
  (∃ as vs gs i l c, hs = as ++ (vs ++ gs) ∧ Are AttributesKinds as ∧ VisibilityAt place i vs ∧ o.item = some (i, l, c) ∧
    Head place gs i l c o.inside) ∨
  (o.item = none ∧ o.inside = .body ∧ place = .body ∧ Are BlockKinds hs)

theorem beginning_sound {place : Place} {ts us : List Token} {o : Opening} (h : beginning place ts = some (o, us)) :
    ∃ hs b, ts = hs ++ b :: us ∧ IsSign b '{' ∧ Opens place o hs := by
  rw [beginning] at h
  replace h := Option.bind_eq_some_iff.1 h
  obtain ⟨vs, h1, h⟩ := h
  obtain ⟨as, rfl, ha⟩ := attributes_sound _ h1
  cases hv : visibility vs with
  | mk p ws =>
    rw [hv] at h
    simp only at h
    obtain ⟨ps, rfl, hp⟩ := visibility_sound hv
    split at h
    · rename_i ho
      split at h
      · cases h
      · rename_i hn
        cases h
        obtain ⟨gs, b, i, l, c, rfl, h2, h3, h4⟩ := opening_sound ho
        refine ⟨as ++ (ps ++ gs), b, by simp, h2, .inl ⟨as, ps, gs, i, l, c, rfl, ha, ?_, h3, h4⟩⟩
        rcases hp with ⟨_, rfl⟩ | ⟨rfl, hp⟩
        · exact .inl rfl
        · refine .inr ⟨hp, ?_⟩
          have hm : mayBePublic place o = true := by simpa using hn
          rw [mayBePublic, Bool.and_eq_true, h3] at hm
          refine ⟨by simpa using hm.1, ?_⟩
          rintro t n rfl
          exact absurd hm.2 (by simp)
    · rw [blockOpening] at h
      split at h
      · rename_i hpl
        replace h := Option.bind_eq_some_iff.1 h
        obtain ⟨⟨ks, xs⟩, h2, h⟩ := h
        obtain ⟨hs, t, e, ht, rfl⟩ := upTo_sound h2
        simp only at h
        split at h
        · rename_i hb
          cases h
          exact ⟨hs, t, e, ht, .inr ⟨rfl, rfl, hpl, (isBlock_iff _).1 hb⟩⟩
        · cases h
      · cases h

theorem arguments_sound {ts us : List Token} {as : List Tok} (h : arguments ts = some (as, us)) :
    ∃ hs c, ts = hs ++ c :: us ∧ RustLayout.Arguments hs as ∧ IsSign c ')' := by
  rw [arguments] at h
  replace h := Option.bind_eq_some_iff.1 h
  obtain ⟨ts2, h2, h⟩ := h
  obtain ⟨c, h3, a2⟩ := expect_one_sound h2
  cases h
  refine ⟨ts.takeWhile (fun t => isArgument t.kind), c, ?_, ?_, a2⟩
  · rw [← h3, List.takeWhile_append_dropWhile]
  · have ha : ∀ t ∈ ts.takeWhile (fun t => isArgument t.kind), isArgument t.kind = true := fun t ht =>
      List.all_eq_true.1 List.all_takeWhile t ht
    have key : ∀ hs : List Token, (∀ t ∈ hs, isArgument t.kind = true) → RustLayout.Arguments hs (hs.map Token.argument) := by
      intro hs
      induction hs with
      | nil => intro _; exact .nil
      | cons t hs ih =>
        intro hb
        have hb1 := (isArgument_iff _).1 (hb t (.head _))
        refine .cons hb1 ?_ (ih fun t ht => hb t (.tail _ ht))
        obtain ⟨k, l, c⟩ := t
        cases k
        · exact .word
        · exact .text
        · exact .sign
        · rcases hb1 with ⟨_, h⟩ | ⟨_, h⟩ | ⟨_, h, _⟩ <;> cases h
        · rcases hb1 with ⟨_, h⟩ | ⟨_, h⟩ | ⟨_, h, _⟩ <;> cases h
    exact key _ ha

theorem macroCall_sound {place : Place} {ts us : List Token} {m : Mac} (h : macroCall place ts = some (m, us)) :
    place = .body ∧ ∃ n s ns ss e o hs as c d, ts = n :: (ns ++ e :: o :: (hs ++ c :: d :: us)) ∧
      m = ⟨s :: ss, n.line, n.column, as⟩ ∧ IsName n s ∧ MoreNames ns ss ∧ IsSign e '!' ∧ IsSign o '(' ∧ RustLayout.Arguments hs as ∧ IsSign c ')' ∧ IsSign d ';' := by
  rw [macroCall] at h
  split at h
  · rename_i hp
    replace h := Option.bind_eq_some_iff.1 h
    obtain ⟨⟨⟨n, l1, c1⟩, ts1⟩, h1, h⟩ := h
    obtain ⟨t, rfl, a1, rfl, rfl⟩ := name_sound h1
    replace h := Option.bind_eq_some_iff.1 h
    obtain ⟨ts2, h2, h⟩ := h
    replace h := Option.bind_eq_some_iff.1 h
    obtain ⟨⟨as, ts3⟩, h3, h⟩ := h
    replace h := Option.bind_eq_some_iff.1 h
    obtain ⟨ts4, h4, h⟩ := h
    obtain ⟨ns, e1, hm⟩ := moreNames_sound ts1
    obtain ⟨hs, e2, a2⟩ := expect_sound h2
    rw [e2] at e1
    obtain ⟨x, hs, rfl, x1, a2⟩ := List.map_eq_cons_iff.1 a2
    obtain ⟨y, hs, rfl, y1, a2⟩ := List.map_eq_cons_iff.1 a2
    cases List.map_eq_nil_iff.1 a2
    obtain ⟨as', c, rfl, a3, a4⟩ := arguments_sound h3
    obtain ⟨d, rfl, a5⟩ := expect_one_sound h4
    cases h
    exact ⟨hp, t, n, ns, _, x, y, as', as, c, d, by rw [e1]; simp, rfl, a1, hm, x1, y1, a3, a4, a5⟩
  · cases h

theorem last_sound {place : Place} {ts us : List Token} {f : Forest} (h : last place ts = some (f, us)) :
    ∃ hs, ts = hs ++ us ∧ Written place f hs := by
  rw [last] at h
  split at h
  · rename_i hp
    subst hp
    simp only at h
    split at h
    · rename_i hx
      cases h
      exact ⟨_, List.takeWhile_append_dropWhile.symm, .value ((isExpression_iff _).1 hx)⟩
    · split at h
      · rename_i hm
        cases h
        obtain ⟨_, n, s, ns, ss, e, o, hs, as, c, d, e1, rfl, a1, b1, a2, a3, a4, a5, a6⟩ := macroCall_sound hm
        have e2 : n :: (ns ++ e :: o :: (hs ++ c :: d :: [])) = n :: (ns ++ e :: o :: (hs ++ [c])) ++ [d] := by simp
        rw [e2] at e1
        refine ⟨_, List.takeWhile_append_dropWhile.symm, ?_⟩
        rw [(List.append_inj' e1 rfl).1]
        exact .lastMac a1 b1 a2 a3 a4 a5
      · cases h
  · cases h

theorem ended_sound {c : Char} {p : List Kind → Bool} {ts us : List Token} (h : ended c p ts = some us) :
    ∃ hs t, ts = hs ++ t :: us ∧ IsSign t c ∧ p (hs.map Token.kind) = true := by
  rw [ended] at h
  obtain ⟨⟨ks, xs⟩, h1, h⟩ := Option.bind_eq_some_iff.1 h
  obtain ⟨hs, t, rfl, ht, rfl⟩ := upTo_sound h1
  simp only at h
  split at h
  · rename_i hk
    cases h
    exact ⟨hs, t, rfl, ht, hk⟩
  · cases h

theorem statement_sound {place : Place} {ts us : List Token} {m : Option Mac} (h : statement place ts = some (m, us)) :
    ∃ hs, ts = hs ++ us ∧ ∀ rest vs, Written place rest vs → Written place (withStatement m rest) (hs ++ vs) := by
  rw [statement] at h
  split at h
  · rename_i hm
    cases h
    obtain ⟨rfl, n, s, ns, ss, e, o, hs, as, c, d, rfl, rfl, a1, b1, a2, a3, a4, a5, a6⟩ := macroCall_sound hm
    refine ⟨n :: (ns ++ e :: o :: (hs ++ [c, d])), by simp, fun rest vs hw => ?_⟩
    have := Written.mac a1 b1 a2 a3 a4 a5 a6 hw
    simpa [withStatement] using this
  · obtain ⟨ws, hx, e⟩ := Option.map_eq_some_iff.1 h
    clear h
    have h := hx
    clear hx
    cases e
    split at h
    · rename_i hpl
      cases h
      rw [plain] at hpl
      split at hpl
      · rename_i hp
        subst hp
        replace hpl := Option.bind_eq_some_iff.1 hpl
        obtain ⟨⟨ks, xs⟩, h1, hpl⟩ := hpl
        obtain ⟨hs, t, rfl, ht, rfl⟩ := upTo_sound h1
        simp only at hpl
        split at hpl
        · rename_i hk
          cases hpl
          refine ⟨hs ++ [t], by simp, fun rest vs hw => ?_⟩
          have := Written.plain (hs := hs) ((isPlain_iff _).1 hk) ht hw
          simpa [withStatement] using this
        · cases hpl
      · cases hpl
    · rw [declaration] at h
      split at h
      · rename_i hp
        replace h := Option.bind_eq_some_iff.1 h
        obtain ⟨ys, h1, h⟩ := h
        obtain ⟨as, rfl, ha⟩ := attributes_sound _ h1
        cases hv : visibility ys with
        | mk p zs =>
          rw [hv] at h
          obtain ⟨vs, rfl, hv'⟩ := visibility_sound hv
          have hd : ∃ hs t, zs = hs ++ t :: us ∧ Declared hs t := by
            simp only at h
            split at h
            · rename_i h2
              cases h
              obtain ⟨hs, t, rfl, ht, hk⟩ := ended_sound h2
              exact ⟨hs, t, rfl, .plain ((isDeclaration_iff _).1 hk) ht⟩
            · obtain ⟨hs, t, rfl, ht, hk⟩ := ended_sound h
              exact ⟨hs, t, rfl, .record ((isRecord_iff _).1 hk) ht⟩
          obtain ⟨hs, t, rfl, hd⟩ := hd
          refine ⟨as ++ (vs ++ (hs ++ [t])), by simp, fun rest us hw => ?_⟩
          have hp' : place = .items ∨ place = .body := by
            cases place <;> simp [Place.hasItems] at hp ⊢
          have := Written.declaration hp' ha (hv'.imp And.right And.right) hd hw
          simpa [withStatement] using this
      · cases h

theorem code_sound (fuel : Nat) : ∀ (place : Place) (ts : List Token) (f : Forest) (us : List Token),
    code fuel place ts = some (f, us) → ∃ hs, ts = hs ++ us ∧ Written place f hs := by
  induction fuel with
  | zero => intro place ts f us h; rw [code] at h; cases h
  | succ fuel ih =>
    intro place ts f us h
    cases ts with
    | nil => rw [code] at h; cases h; exact ⟨[], rfl, .nil⟩
    | cons t ts =>
      rw [code] at h
      split at h
      · cases h; exact ⟨[], rfl, .nil⟩
      · split at h
        · rename_i ho
          replace h := Option.bind_eq_some_iff.1 h
          obtain ⟨⟨inner, ts1⟩, h1, h⟩ := h
          replace h := Option.bind_eq_some_iff.1 h
          obtain ⟨ts2, h2, h⟩ := h
          replace h := Option.bind_eq_some_iff.1 h
          obtain ⟨⟨rest, ts3⟩, h3, h⟩ := h
          cases h
          obtain ⟨hs, b, e1, a1, a2⟩ := beginning_sound ho
          obtain ⟨ins, rfl, a3⟩ := ih _ _ _ _ h1
          obtain ⟨c, rfl, a4⟩ := expect_one_sound h2
          obtain ⟨vs, rfl, a5⟩ := ih _ _ _ _ h3
          refine ⟨hs ++ b :: (ins ++ c :: vs), by rw [e1]; simp, ?_⟩
          rcases a2 with ⟨as, ps, gs, i, l, d, rfl, a8, a9, a6, a7⟩ | ⟨a6, a7, rfl, a8⟩
          · rw [Opening.build, a6]
            have := Written.item a8 a9 a7 a1 a3 a4 a5
            simpa using this
          · rw [Opening.build, a6]
            rw [a7] at a3
            exact .block a8 a1 a3 a4 a5
        · split at h
          · rename_i h1
            replace h := Option.bind_eq_some_iff.1 h
            obtain ⟨⟨rest, ts2⟩, h2, h⟩ := h
            cases h
            obtain ⟨hs, e1, a1⟩ := statement_sound h1
            obtain ⟨vs, rfl, a2⟩ := ih _ _ _ _ h2
            exact ⟨hs ++ vs, by rw [e1]; simp, a1 _ _ a2⟩
          · exact last_sound h

/-- **C164** The reader reads code, in every layout, and nothing else. -/
theorem C164_reader (text : Str) (f : Forest) : read text = some f ↔ IsCode text f := by
  refine ⟨fun h => ?_, C164_read⟩
  rw [read] at h
  replace h := Option.bind_eq_some_iff.1 h
  obtain ⟨ts, h1, h⟩ := h
  replace h := Option.bind_eq_some_iff.1 h
  obtain ⟨⟨g, us⟩, h2, h⟩ := h
  simp only at h
  split at h
  · rename_i hu
    cases h
    obtain ⟨hs, rfl, h3⟩ := code_sound _ _ _ _ _ h2
    rw [List.isEmpty_iff] at hu
    subst hu
    rw [List.append_nil] at h1
    exact ⟨hs, lex_sound _ [] _ _ h1, h3⟩
  · cases h

/-! ## What a file says -/

theorem written_located {place : Place} {f : Forest} {ts : List Token} (h : Written place f ts) (p : Path) :
    ∀ (ns : List Str) (loc : Option Location), (place = .body → loc.isSome) → ∀ o ∈ occs p ns loc f, o.loc.isSome := by
  induction h with
  | nil => intro ns loc _ o ho; cases ho
  | item _ _ _ _ _ _ _ ih1 ih2 =>
    intro ns loc hl o ho
    rcases List.mem_append.1 ho with ho | ho
    · exact ih1 _ _ (fun _ => rfl) o ho
    · exact ih2 _ _ hl o ho
  | block _ _ _ _ _ ih1 ih2 =>
    intro ns loc hl o ho
    rcases List.mem_append.1 ho with ho | ho
    · exact ih1 _ _ hl o ho
    · exact ih2 _ _ hl o ho
  | mac _ _ _ _ _ _ _ _ ih =>
    intro ns loc hl o ho
    rcases List.mem_cons.1 ho with rfl | ho
    · exact hl rfl
    · exact ih _ _ hl o ho
  | plain _ _ _ ih =>
    intro ns loc hl o ho
    exact ih _ _ hl o ho
  | declaration _ _ _ _ _ ih =>
    intro ns loc hl o ho
    exact ih _ _ hl o ho
  | value => intro ns loc _ o ho; cases ho
  | lastMac =>
    intro ns loc hl o ho
    rcases List.mem_cons.1 ho with rfl | ho
    · exact hl rfl
    · cases ho

theorem marks_located {debug : List Tok → Str} {p : Path} {os : List Occ} {es : List Entry} {errs : List Error}
    (h : AllMarks debug p os es errs) (hl : ∀ o ∈ os, o.loc.isSome) : ∀ e ∈ es, e.loc.isSome := by
  induction h with
  | nil => intro e he; cases he
  | other _ _ ih => exact ih fun o ho => hl o (.tail _ ho)
  | good _ _ _ ih =>
    intro e he
    rcases List.mem_cons.1 he with rfl | he
    · exact hl _ (.head _)
    · exact ih (fun o ho => hl o (.tail _ ho)) e he
  | bad _ _ _ ih => exact ih fun o ho => hl o (.tail _ ho)

theorem code_says (debug : List Tok → Str) (p : Path) {text : Str} {f : Forest} (h : IsCode text f) :
    ∃ reqs errs, Says debug p f reqs errs := by
  obtain ⟨ts, _, h2⟩ := h
  obtain ⟨es, errs, h3, -, -⟩ := Rs.fold_eq debug p (occs p [] none f)
  obtain ⟨reqs, h4⟩ := Ren.grouped_exists es (marks_located h3 (written_located h2 p [] none (fun h => by cases h)))
  exact ⟨reqs, errs, es, h3, h4⟩

/-- **C164** What a file with this code says: the marks of the code. -/
theorem C164_file {env : Env} (hs : ReadsRust env.syn) {w : World} {p : Path} {text : Str} {f : Forest}
    (ho : env.os.openFile w p = .ok ⟨Utf8.encode text, none⟩) (h : IsCode text f) (reqs : List Requirement)
    (errs : List Error) : PathMeans env w .rust p reqs errs ↔
      ∃ es, AllMarks env.syn.debug p (occs p [] none f) es errs ∧ Grouped reqs es := by
  obtain ⟨f', h1, h2⟩ := hs text f (C164_read h)
  constructor
  · intro hm
    cases hm with
    | closed h => rw [ho] at h; cases h
    | opened h hm =>
      rw [ho] at h
      cases h
      cases hm with
      | rust hw hr =>
        have hw := (readWhole_iff _ _).1 ((readWhole_iff _ _).2 ((readWhole_iff _ _).1 hw))
        have hw' := (readWhole_iff _ _).1 (ReadWhole.all text)
        rw [hw'] at hw
        subst hw
        cases hr with
        | unreadable h => cases h
        | syntaxError _ h => rw [h1] at h; cases h
        | marks _ h h3 h4 =>
          rw [h1] at h
          cases h
          rw [h2] at h3
          exact ⟨_, h3, h4⟩
  · rintro ⟨es, h3, h4⟩
    rw [← h2] at h3
    exact .opened ho (.rust (.all _) (.marks rfl h1 h3 h4))

/-! ## Other layouts -/

theorem calls_same (f : Forest) : ∀ p p' ns ns' loc loc', (occs p ns loc f).map Occ.mac = (occs p' ns' loc' f).map Occ.mac := by
  induction f with
  | nil => intros; rfl
  | mac m f ih => intro p p' ns ns' loc loc'; simp only [occs, List.map_cons, ih p p' ns ns' loc loc']
  | item i l c f g ih1 ih2 =>
    intro p p' ns ns' loc loc'
    simp only [occs, List.map_append, ih1 p p' (ns ++ [itemName i]) (ns' ++ [itemName i]) (some ⟨p, some (.lineAndColumn l c)⟩)
      (some ⟨p', some (.lineAndColumn l c)⟩), ih2 p p' ns ns' loc loc']
  | node f g ih1 ih2 =>
    intro p p' ns ns' loc loc'
    simp only [occs, List.map_append, ih1 p p' ns ns' loc loc', ih2 p p' ns ns' loc loc']

theorem counted_iff (f : Forest) : Counted f ↔ ∀ p ns loc, ∀ m ∈ (occs p ns loc f).map Occ.mac, IsMark m →
    m.tokens.length ≠ 2 ∧ m.tokens.length ≤ 3 := by
  constructor
  · intro h p ns loc m hm
    rw [calls_same f p [] ns [] loc none] at hm
    obtain ⟨o, ho, rfl⟩ := List.mem_map.1 hm
    exact h o ho
  · intro h o ho
    exact h [] [] none o.mac (List.mem_map.2 ⟨o, ho, rfl⟩)

theorem counted_parts {f g : Forest} (h : ∀ p ns loc ns' loc', ∀ m ∈ (occs p ns loc f).map Occ.mac ++ (occs p ns' loc' g).map Occ.mac,
    IsMark m → m.tokens.length ≠ 2 ∧ m.tokens.length ≤ 3) : Counted f ∧ Counted g :=
  ⟨(counted_iff f).2 fun p ns loc m hm => h p ns loc ns loc m (List.mem_append.2 (.inl hm)),
   (counted_iff g).2 fun p ns loc m hm => h p ns loc ns loc m (List.mem_append.2 (.inr hm))⟩

theorem counted_item {i : Rs.Item} {l c : Nat} {f g : Forest} (h : Counted (.item i l c f g)) : Counted f ∧ Counted g := by
  refine counted_parts fun p ns loc ns' loc' m hm => ?_
  rw [counted_iff] at h
  refine h p ns loc m ?_
  simp only [occs, List.map_append]
  rw [calls_same f p p (ns ++ [itemName i]) ns (some ⟨p, some (.lineAndColumn l c)⟩) loc, calls_same g p p ns ns' loc loc']
  exact hm

theorem counted_node {f g : Forest} (h : Counted (.node f g)) : Counted f ∧ Counted g := by
  refine counted_parts fun p ns loc ns' loc' m hm => ?_
  rw [counted_iff] at h
  refine h p ns loc m ?_
  simp only [occs, List.map_append]
  rw [calls_same g p p ns ns' loc loc']
  exact hm

theorem kinds_append {as bs ts' : List Token} (h : (as ++ bs).map Token.kind = ts'.map Token.kind) :
    ∃ as' bs', ts' = as' ++ bs' ∧ as.map Token.kind = as'.map Token.kind ∧ bs.map Token.kind = bs'.map Token.kind := by
  rw [List.map_append] at h
  obtain ⟨as', bs', h1, h2, h3⟩ := List.map_eq_append_iff.1 h.symm
  exact ⟨as', bs', h1, h2.symm, h3.symm⟩

theorem kinds_cons {t : Token} {ts ts' : List Token} (h : (t :: ts).map Token.kind = ts'.map Token.kind) :
    ∃ t' us, ts' = t' :: us ∧ t.kind = t'.kind ∧ ts.map Token.kind = us.map Token.kind := by
  cases ts' with
  | nil => cases h
  | cons t' us =>
    obtain ⟨h1, h2⟩ := List.cons.inj h
    exact ⟨t', us, rfl, h1, h2⟩

theorem kinds_nil {ts' : List Token} (h : ([] : List Token).map Token.kind = ts'.map Token.kind) : ts' = [] := by
  cases ts' with
  | nil => rfl
  | cons => cases h

theorem isWord_same {t t' : Token} (h : t.kind = t'.kind) {s : Str} (hw : RustLayout.IsWord t s) : RustLayout.IsWord t' s :=
  h.symm.trans hw

theorem isSign_same {t t' : Token} (h : t.kind = t'.kind) {c : Char} (hw : IsSign t c) : IsSign t' c := h.symm.trans hw

theorem isName_same {t t' : Token} (h : t.kind = t'.kind) {s : Str} (hw : IsName t s) : IsName t' s :=
  ⟨isWord_same h hw.1, hw.2⟩

theorem are_same {ts ts' : List Token} (h : ts.map Token.kind = ts'.map Token.kind) {P : List Kind → Prop} (hp : Are P ts) :
    Are P ts' := by
  unfold Are at hp ⊢
  exact h ▸ hp

theorem declared_same {ts ts' : List Token} (h : ts.map Token.kind = ts'.map Token.kind) {t t' : Token} (ht : t.kind = t'.kind)
    (hd : Declared ts t) : Declared ts' t' := by
  cases hd with
  | plain h1 h2 => exact .plain (are_same h h1) (isSign_same ht h2)
  | record h1 h2 => exact .record (are_same h h1) (isSign_same ht h2)

theorem moreNames_same {ts : List Token} {ss : List Str} (h : MoreNames ts ss) : ∀ {ts' : List Token},
    ts.map Token.kind = ts'.map Token.kind → MoreNames ts' ss := by
  induction h with
  | nil => intro ts' hk; cases kinds_nil hk; exact .nil
  | cons hj hn _ ih =>
    intro ts' hk
    obtain ⟨_, _, rfl, k1, hk⟩ := kinds_cons hk
    obtain ⟨_, _, rfl, k2, hk⟩ := kinds_cons hk
    exact .cons (k1.symm.trans hj) (isName_same k2 hn) (ih hk)

theorem arguments_same {ts : List Token} {as : List Tok} (h : RustLayout.Arguments ts as) : ∀ {ts' : List Token},
    ts.map Token.kind = ts'.map Token.kind → ∃ as', RustLayout.Arguments ts' as' ∧
      as.map (fun t => (t.isIdent, t.text)) = as'.map (fun t => (t.isIdent, t.text)) := by
  induction h with
  | nil => intro ts' hk; cases kinds_nil hk; exact ⟨[], .nil, rfl⟩
  | @cons t u ts us ha hu _ ih =>
    intro ts' hk
    obtain ⟨⟨k, l, c⟩, us', rfl, h1, h2⟩ := kinds_cons hk
    obtain ⟨as', h3, h4⟩ := ih h2
    have ha' : IsArgument ⟨k, l, c⟩ := by
      unfold IsArgument at ha ⊢
      exact h1 ▸ ha
    cases hu <;> cases h1
    · exact ⟨_, .cons ha' .word h3, by simp only [List.map_cons, h4]⟩
    · exact ⟨_, .cons ha' .text h3, by simp only [List.map_cons, h4]⟩
    · exact ⟨_, .cons ha' .sign h3, by simp only [List.map_cons, h4]⟩

theorem head_same {place : Place} {hs : List Token} {i : Rs.Item} {line column : Nat} {inside : Place}
    (h : Head place hs i line column inside) {hs' : List Token} (hk : hs.map Token.kind = hs'.map Token.kind) :
    ∃ line' column', Head place hs' i line' column' inside := by
  cases h with
  | function h1 h2 h3 hg h4 h5 h6 h7 =>
    obtain ⟨_, _, rfl, k1, hk⟩ := kinds_cons hk
    obtain ⟨_, _, rfl, k2, hk⟩ := kinds_cons hk
    obtain ⟨_, _, rfl, k0, hk⟩ := kinds_append hk
    obtain ⟨_, _, rfl, k3, hk⟩ := kinds_cons hk
    obtain ⟨_, _, rfl, k4, hk⟩ := kinds_append hk
    obtain ⟨_, _, rfl, k5, hk⟩ := kinds_cons hk
    exact ⟨_, _, .function (isWord_same k1 h1) (isName_same k2 h2) h3 (are_same k0 hg) (isSign_same k3 h4) (are_same k4 h5)
      (isSign_same k5 h6) (are_same hk h7)⟩
  | module hp h1 h2 =>
    obtain ⟨_, _, rfl, k1, hk⟩ := kinds_cons hk
    obtain ⟨_, _, rfl, k2, hk⟩ := kinds_cons hk
    cases kinds_nil hk
    exact ⟨_, _, .module hp (isWord_same k1 h1) (isName_same k2 h2)⟩
  | trait hp h1 h2 =>
    obtain ⟨_, _, rfl, k1, hk⟩ := kinds_cons hk
    obtain ⟨_, _, rfl, k2, hk⟩ := kinds_cons hk
    cases kinds_nil hk
    exact ⟨_, _, .trait hp (isWord_same k1 h1) (isName_same k2 h2)⟩
  | impl hp h1 h2 =>
    obtain ⟨_, _, rfl, k1, hk⟩ := kinds_cons hk
    obtain ⟨_, _, rfl, k2, hk⟩ := kinds_cons hk
    cases kinds_nil hk
    exact ⟨_, _, .impl hp (isWord_same k1 h1) (isName_same k2 h2)⟩
  | implFor hp h1 h2 h3 h4 =>
    obtain ⟨_, _, rfl, k1, hk⟩ := kinds_cons hk
    obtain ⟨_, _, rfl, k2, hk⟩ := kinds_cons hk
    obtain ⟨_, _, rfl, k3, hk⟩ := kinds_cons hk
    obtain ⟨_, _, rfl, k4, hk⟩ := kinds_cons hk
    cases kinds_nil hk
    exact ⟨_, _, .implFor hp (isWord_same k1 h1) (isName_same k2 h2) (isWord_same k3 h3) (isName_same k4 h4)⟩

theorem written_same (debug : List Tok → Str) {place : Place} {f : Forest} {ts : List Token} (h : Written place f ts) :
    ∀ {ts' : List Token}, ts.map Token.kind = ts'.map Token.kind → Counted f →
      ∃ f', Written place f' ts' ∧ SameCode debug f f' := by
  induction h with
  | nil => intro ts' hk _; cases kinds_nil hk; exact ⟨.nil, .nil, .nil⟩
  | item ha hv hh ho _ hc _ ih1 ih2 =>
    intro ts' hk hf
    obtain ⟨c1, c2⟩ := counted_item hf
    obtain ⟨_, _, rfl, k5, hk⟩ := kinds_append hk
    obtain ⟨_, _, rfl, k6, hk⟩ := kinds_append hk
    obtain ⟨hs', _, rfl, k1, hk⟩ := kinds_append hk
    obtain ⟨_, _, rfl, k2, hk⟩ := kinds_cons hk
    obtain ⟨_, _, rfl, k3, hk⟩ := kinds_append hk
    obtain ⟨_, _, rfl, k4, hk⟩ := kinds_cons hk
    obtain ⟨_, _, hh'⟩ := head_same hh k1
    obtain ⟨g1, w1, s1⟩ := ih1 k3 c1
    obtain ⟨g2, w2, s2⟩ := ih2 hk c2
    refine ⟨_, .item (are_same k5 ha) ?_ hh' (isSign_same k2 ho) w1 (isSign_same k4 hc) w2, .item s1 s2⟩
    rcases hv with rfl | ⟨hv, hp⟩
    · exact .inl (kinds_nil k6)
    · exact .inr ⟨are_same k6 hv, hp⟩
  | block hb ho _ hc _ ih1 ih2 =>
    intro ts' hk hf
    obtain ⟨c1, c2⟩ := counted_node hf
    obtain ⟨_, _, rfl, k1, hk⟩ := kinds_append hk
    obtain ⟨_, _, rfl, k2, hk⟩ := kinds_cons hk
    obtain ⟨_, _, rfl, k3, hk⟩ := kinds_append hk
    obtain ⟨_, _, rfl, k4, hk⟩ := kinds_cons hk
    obtain ⟨g1, w1, s1⟩ := ih1 k3 c1
    obtain ⟨g2, w2, s2⟩ := ih2 hk c2
    exact ⟨_, .block (are_same k1 hb) (isSign_same k2 ho) w1 (isSign_same k4 hc) w2, .node s1 s2⟩
  | @mac n s ns ss e o ts as c d rest us hn hm he ho ha hc hd _ ih =>
    intro ts' hk hf
    rw [counted_iff] at hf
    obtain ⟨_, _, rfl, k1, hk⟩ := kinds_cons hk
    obtain ⟨_, _, rfl, k0, hk⟩ := kinds_append hk
    obtain ⟨_, _, rfl, k2, hk⟩ := kinds_cons hk
    obtain ⟨_, _, rfl, k3, hk⟩ := kinds_cons hk
    obtain ⟨_, _, rfl, k4, hk⟩ := kinds_append hk
    obtain ⟨_, _, rfl, k5, hk⟩ := kinds_cons hk
    obtain ⟨_, _, rfl, k6, hk⟩ := kinds_cons hk
    obtain ⟨as', a1, a2⟩ := arguments_same ha k4
    obtain ⟨g, w1, s1⟩ := ih hk ((counted_iff _).2 fun p ns loc m hm => hf p ns loc m (.tail _ hm))
    refine ⟨_, .mac (isName_same k1 hn) (moreNames_same hm k0) (isSign_same k2 he) (isSign_same k3 ho) a1 (isSign_same k5 hc) (isSign_same k6 hd) w1,
      .mac ⟨rfl, a2, fun hm hl => ?_⟩ s1⟩
    have hx := hf [] [] none _ (.head _) hm
    change as.length ≠ 2 ∧ as.length ≤ 3 at hx
    change as.length = 2 ∨ 3 < as.length at hl
    omega
  | plain hp hd _ ih =>
    intro ts' hk hf
    obtain ⟨_, _, rfl, k1, hk⟩ := kinds_append hk
    obtain ⟨_, _, rfl, k2, hk⟩ := kinds_cons hk
    obtain ⟨g, w1, s1⟩ := ih hk (counted_node hf).2
    exact ⟨_, .plain (are_same k1 hp) (isSign_same k2 hd) w1, .node .nil s1⟩
  | declaration hp ha hv hh _ ih =>
    intro ts' hk hf
    obtain ⟨_, _, rfl, k1, hk⟩ := kinds_append hk
    obtain ⟨_, _, rfl, k2, hk⟩ := kinds_append hk
    obtain ⟨_, _, rfl, k3, hk⟩ := kinds_append hk
    obtain ⟨_, _, rfl, k4, hk⟩ := kinds_cons hk
    obtain ⟨g, w1, s1⟩ := ih hk (counted_node hf).2
    refine ⟨_, .declaration hp (are_same k1 ha) ?_ (declared_same k3 k4 hh) w1, .node .nil s1⟩
    rcases hv with rfl | hv
    · exact .inl (kinds_nil k2)
    · exact .inr (are_same k2 hv)
  | value h =>
    intro ts' hk _
    exact ⟨_, .value (are_same hk h), .node .nil .nil⟩
  | @lastMac n s ns ss e o ts as c hn hm he ho ha hc =>
    intro ts' hk hf
    rw [counted_iff] at hf
    obtain ⟨_, _, rfl, k1, hk⟩ := kinds_cons hk
    obtain ⟨_, _, rfl, k0, hk⟩ := kinds_append hk
    obtain ⟨_, _, rfl, k2, hk⟩ := kinds_cons hk
    obtain ⟨_, _, rfl, k3, hk⟩ := kinds_cons hk
    obtain ⟨_, _, rfl, k4, hk⟩ := kinds_append hk
    obtain ⟨_, _, rfl, k5, hk⟩ := kinds_cons hk
    cases kinds_nil hk
    obtain ⟨as', a1, a2⟩ := arguments_same ha k4
    refine ⟨_, .lastMac (isName_same k1 hn) (moreNames_same hm k0) (isSign_same k2 he) (isSign_same k3 ho) a1 (isSign_same k5 hc),
      .mac ⟨rfl, a2, fun hm hl => ?_⟩ .nil⟩
    have hx := hf [] [] none _ (.head _) hm
    change as.length ≠ 2 ∧ as.length ≤ 3 at hx
    change as.length = 2 ∨ 3 < as.length at hl
    omega

/-- **C164** A file with the same tokens laid out in another way says the same, but for the places. -/
theorem C164_layout {env : Env} (hs : ReadsRust env.syn) {w w' : World} {p q : Path} {t t' : Str}
    (ho : env.os.openFile w p = .ok ⟨Utf8.encode t, none⟩) (ho' : env.os.openFile w' q = .ok ⟨Utf8.encode t', none⟩)
    (h : Relaid t t') : ∃ reqs errs reqs' errs', PathMeans env w .rust p reqs errs ∧ PathMeans env w' .rust q reqs' errs' ∧
      reqs'.map forgetReq = reqs.map forgetReq ∧ errs'.map forgetError = errs.map forgetError := by
  obtain ⟨ts, ts', f, h1, h2, h3, h4, h5⟩ := h
  obtain ⟨f', h6, h7⟩ := written_same env.syn.debug h4 h3 h5
  have hc : IsCode t f := ⟨ts, h1, h4⟩
  have hc' : IsCode t' f' := ⟨ts', h2, h6⟩
  obtain ⟨reqs, errs, h8⟩ := code_says env.syn.debug p hc
  obtain ⟨reqs', errs', h9, h10, h11⟩ := sameCode_says (q := q) h7 h8
  exact ⟨reqs, errs, reqs', errs', (C164_file hs ho hc _ _).2 h8, (C164_file hs ho' hc' _ _).2 h9, h10, h11⟩

theorem renamed_same (r : Requirement) : renamed id r = r :=
  renamed_unaffected ⟨rfl, fun _ _ => rfl⟩

theorem renamedProblem_same {env : Env} {w : World} {parser : ArtefactParser} {p : Path} {reqs : List Requirement}
    {errs : List Error} (h : PathMeans env w parser p reqs errs) : ∀ e ∈ errs, renamedProblem id e = e := by
  intro e he
  cases h with
  | closed h => cases he with
    | head => rfl
    | tail _ h => cases h
  | opened h hm =>
    rcases fileErrors_kinds hm e he with ⟨l, m, rfl⟩ | ⟨l, a, i, rfl⟩ | ⟨q, m, rfl⟩ | ⟨m, rfl⟩ <;> rfl

theorem path_same {env : Env} {w w' : World} {parser : ArtefactParser} {p q : Path} {reqs reqs' : List Requirement}
    {errs errs' : List Error} (h : PathMeans env w parser p reqs errs) (h' : PathMeans env w' parser q reqs' errs')
    (hr : reqs'.map forgetReq = reqs.map forgetReq) (he : errs'.map forgetError = errs.map forgetError) :
    PathRenamed id env w w' parser p q := by
  refine ⟨reqs, errs, reqs', errs', h, h', ?_, ?_⟩
  · rw [hr]
    exact List.map_congr_left fun r _ => by rw [renamed_same]
  · rw [he]
    exact List.map_congr_left fun e he => by rw [renamedProblem_same h e he]

theorem file_same {env : Env} {w w' : World} {parser : ArtefactParser} {p q : Path} {reqs : List Requirement}
    {errs : List Error} (ho : env.os.openFile w p = env.os.openFile w' q) (hn : SameName parser p q)
    (hm : PathMeans env w parser p reqs errs) : PathRenamed id env w w' parser p q := by
  cases hm with
  | closed h => exact path_same (.closed h) (.closed (ho ▸ h)) rfl rfl
  | opened h hm =>
    have hn' : SameName parser q p := fun hp => by
      obtain ⟨name, a, b⟩ := hn hp
      exact ⟨name, b, a⟩
    exact path_same (.opened h hm) (.opened (ho ▸ h) (C132_file env parser _ q p hn' hm)) (forgetReqs_in ..) (forgetErrors_in ..)

theorem file_relaid {env : Env} (hs : ReadsRust env.syn) {w w' : World} {p q : Path} {parser : ArtefactParser}
    (h : FileRelaid env w w' parser p q) : PathRenamed id env w w' parser p q := by
  cases h with
  | same ho hn hm => exact file_same ho hn hm
  | code ho ho' h =>
    obtain ⟨reqs, errs, reqs', errs', h1, h2, h3, h4⟩ := C164_layout hs ho ho' h
    exact path_same h1 h2 h3 h4

/-- If all files say the same, the project is the same. -/
theorem filewise_same {R : ArtefactParser → Path → Path → Prop} {env : Env} {w w' : World}
    (hR : ∀ parser p q, R parser p q → PathRenamed id env w w' parser p q) {base base' : Path} {config config' : Config}
    (h : ProjectFilewise R env w w' base base' config config') : ProjectRenamed id env w w' base base' config config' := by
  refine ⟨fun _ _ h => h, h.relations, h.jobs, h.defaultJobs, Ren.pairs_mono (fun ac ac' ha => ?_) h.artefacts⟩
  obtain ⟨h1, h2, h3, h4, fs, fs', h5, h6, h7⟩ := ha
  exact ⟨h1, h2, h3, h4, fs, fs', h5, h6, Ren.pairs_mono (hR _) h7⟩

/-- **C164** The layout of the code does not matter for what is found, but for the places. -/
theorem C164_project {env : Env} (hs : ReadsRust env.syn) {w w' : World} {base base' : Path} {config config' : Config}
    (hm : ProjectFilewise (FileRelaid env w w') env w w' base base' config config') {c : Controller} (h : Controller.new env w config base = .ok c) :
    ∃ c', Controller.new env w' config' base' = .ok c' ∧ ArtefactsRenamed id c.graph.artefacts c'.graph.artefacts ∧
      ResultRenamed id c.tracedGraph c'.tracedGraph :=
  C150_project (filewise_same (fun _ _ _ => file_relaid hs) hm) h

/-- **C164** The layout of the code does not matter for the exit status. -/
theorem C164_exit {env : Env} (hs : ReadsRust env.syn) {w w' : World} {opt opt' : Arguments}
    {config config' : Config} (hm : ProjectFilewise (FileRelaid env w w') env w w' opt.baseDir opt'.baseDir config config')
    (hj : opt.jobs = opt'.jobs) (hg : GoodConfig env w opt.configFile config)
    (hg' : GoodConfig env w' opt'.configFile config') (h : (Main.main env opt w).1 ≤ 1)
    (h' : (Main.main env opt' w').1 ≤ 1) : (Main.main env opt w).1 = (Main.main env opt' w').1 :=
  C150_exit (filewise_same (fun _ _ _ => file_relaid hs) hm) hj hg hg' h h'

end RustText

namespace RustTextExample

open CtrlExample RustText Spec.RustLayout

/-- The reader in place of `syn`; it shows how many tokens a wrong mark has. -/
def syn : Syn := ⟨fun t => match RustText.read t with
  | some f => .ok f
  | none => .error (1, 0, c!"expected an item"), fun ts => (toString ts.length).toList⟩

theorem reads : ReadsRust syn := by
  intro text f h
  exact ⟨f, by simp only [syn, h], fun _ => rfl⟩

def plain : Str := c!"// the code
mod m {
    /* one / two * three */
    fn f() {
        requirement_covered!(REQ_A, \"title a\");
        println!(\"// no comment\");
        loop { { requirement_covered!(); } }
        g();
        requirement_covered!(REQ_B);
    }
    impl T for S { fn g() { requirement_covered!(\"REQ_C\"); } }
} // the end"

/-- The same in fewer lines. -/
def dense : Str := c!"mod m{fn f(){requirement_covered!(/* here */REQ_A,\"title a\");println!(\"// no comment\");loop{{
requirement_covered!();}}g();requirement_covered!(REQ_B);}impl T for S{fn g(){requirement_covered!(\"REQ_C\"
);}}}"

def forest : Forest :=
  .item (.mod c!"m") 2 4
    (.item (.fn c!"f") 4 7
      (.mac ⟨[c!"requirement_covered"], 5, 8, [⟨true, c!"REQ_A", 5, 29⟩, ⟨false, c!",", 5, 34⟩, ⟨false, c!"\"title a\"", 5, 36⟩]⟩
      (.mac ⟨[c!"println"], 6, 8, [⟨false, c!"\"// no comment\"", 6, 17⟩]⟩
      (.node (.node (.mac ⟨[c!"requirement_covered"], 7, 17, []⟩ .nil) .nil)
      (.node .nil
      (.mac ⟨[c!"requirement_covered"], 9, 8, [⟨true, c!"REQ_B", 9, 29⟩]⟩ .nil)))))
    (.item (.impl c!"S" (some (false, c!"T"))) 11 15
      (.item (.implMethod c!"g") 11 22
        (.mac ⟨[c!"requirement_covered"], 11, 28, [⟨false, c!"\"REQ_C\"", 11, 49⟩]⟩ .nil) .nil) .nil)) .nil

/-- The first text is this code. -/
theorem plain_code : IsCode plain forest := (C164_reader ..).1 (by decide +kernel)

/-- A function that is not closed, a nested comment, a mark outside of all functions: no code. -/
example : (∀ f, ¬ IsCode c!"fn f() {" f) ∧ (∀ f, ¬ IsCode c!"/* a /* b */ c */ mod m {}" f) ∧
    ∀ f, ¬ IsCode c!"requirement_covered!(A);" f := by
  refine ⟨fun f h => ?_, fun f h => ?_, fun f h => ?_⟩ <;>
  · have := (C164_reader ..).2 h
    have e : ∀ {x : Option Forest}, x = none → x ≠ some f := by rintro _ rfl h; cases h
    exact e (by decide +kernel) this

/-- Code with attributes, documentation, visibility, parameters, results and statements of all kinds. -/
def rich : Str := c!"/// Where it is kept
#[derive(Debug, Clone)]
pub struct Store;
use std::collections::Map;
#[cfg(test)]
mod tests {
    #[should_panic(expected = \"x\")]
    pub(crate) fn adds(x: &str, n: usize) -> bool {
        let a = Store::new(1, &x);
        if check(a) { requirement_covered!(REQ_A); }
        unsafe { f(); }
        while n { assert_eq!(a, 17); }
    }
    impl T for S {
        fn g(&mut self, x: T) -> a::B { requirement_covered!(REQ_B); }
    }
}"

def richForest : Forest :=
  .node .nil <| .node .nil <|
  .item (.mod c!"tests") 6 4
    (.item (.fn c!"adds") 8 18
      (.node .nil <|
       .node (.mac ⟨[c!"requirement_covered"], 10, 22, [⟨true, c!"REQ_A", 10, 43⟩]⟩ .nil) <|
       .node (.node .nil .nil) <|
       .node (.mac ⟨[c!"assert_eq"], 12, 18, [⟨true, c!"a", 12, 29⟩, ⟨false, c!",", 12, 30⟩, ⟨false, c!"17", 12, 32⟩]⟩ .nil) .nil)
    (.item (.impl c!"S" (some (false, c!"T"))) 14 15
      (.item (.implMethod c!"g") 15 11
        (.mac ⟨[c!"requirement_covered"], 15, 40, [⟨true, c!"REQ_B", 15, 61⟩]⟩ .nil) .nil) .nil)) .nil

theorem rich_code : IsCode rich richForest := (C164_reader ..).1 (by decide +kernel)

/-- An attribute or documentation before nothing, a receiver of a function, `- >`, a public `impl`, a public method of a
trait, documentation among the arguments of a macro: no code. -/
example : (∀ f, ¬ IsCode c!"#[test]" f) ∧ (∀ f, ¬ IsCode c!"mod m { /// end\n }" f) ∧ (∀ f, ¬ IsCode c!"fn f(self) {}" f) ∧
    (∀ f, ¬ IsCode c!"fn f() - > T {}" f) ∧ (∀ f, ¬ IsCode c!"pub impl S {}" f) ∧
    (∀ f, ¬ IsCode c!"trait T { pub fn f() {} }" f) ∧ ∀ f, ¬ IsCode c!"fn f() { m!(\n/// a\n); }" f := by
  refine ⟨fun f h => ?_, fun f h => ?_, fun f h => ?_, fun f h => ?_, fun f h => ?_, fun f h => ?_, fun f h => ?_⟩ <;>
  · have := (C164_reader ..).2 h
    have e : ∀ {x : Option Forest}, x = none → x ≠ some f := by rintro _ rfl h; cases h
    exact e (by decide +kernel) this

/-- Each of these without the fault is code. -/
example : (∃ f, IsCode c!"#[test] fn f() {}" f) ∧ (∃ f, IsCode c!"mod m { /// end\n fn f() {} }" f) ∧
    (∃ f, IsCode c!"impl S { fn f(self) {} }" f) ∧ (∃ f, IsCode c!"fn f() -> T {}" f) ∧ (∃ f, IsCode c!"impl S {}" f) ∧
    (∃ f, IsCode c!"trait T { fn f() {} }" f) ∧ ∃ f, IsCode c!"fn f() { m!(\n// a\n); }" f := by
  refine ⟨⟨.item (.fn c!"f") 1 11 .nil .nil, ?_⟩, ⟨.item (.mod c!"m") 1 4 (.item (.fn c!"f") 2 4 .nil .nil) .nil, ?_⟩,
    ⟨.item (.impl c!"S" none) 1 5 (.item (.implMethod c!"f") 1 12 .nil .nil) .nil, ?_⟩, ⟨.item (.fn c!"f") 1 3 .nil .nil, ?_⟩,
    ⟨.item (.impl c!"S" none) 1 5 .nil .nil, ?_⟩,
    ⟨.item (.trait c!"T") 1 6 (.item (.traitMethod c!"f") 1 13 .nil .nil) .nil, ?_⟩,
    ⟨.item (.fn c!"f") 1 3 (.mac ⟨[c!"m"], 1, 9, []⟩ .nil) .nil, ?_⟩⟩ <;>
  exact (C164_reader ..).1 (by decide +kernel)

/-- Code with constants, types with names, and statements that assign and jump. -/
def jumps : Str := c!"const LIMIT: usize = 10;
pub static NAME: &str = \"n\";
type Id = a::B;
fn f(xs: T) -> bool {
    let mut n: usize = 0;
    for x in rows(xs) {
        n = x;
        if done(n) { requirement_covered!(REQ_A); break; }
        continue;
    }
    if n { return; }
    const K: T = 1;
    return g(n);
}"

def jumpsForest : Forest :=
  .node .nil <| .node .nil <| .node .nil <|
  .item (.fn c!"f") 4 3
    (.node .nil <|
     .node (.node .nil <|
       .node (.mac ⟨[c!"requirement_covered"], 8, 21, [⟨true, c!"REQ_A", 8, 42⟩]⟩ (.node .nil .nil)) <|
       .node .nil .nil) <|
     .node (.node .nil .nil) <|
     .node .nil <|
     .node .nil .nil) .nil

theorem jumps_code : IsCode jumps jumpsForest := (C164_reader ..).1 (by decide +kernel)

/-- `mut` without a name, a comparison, a constant without type, a constant in an `impl`, `in` without a name, a statement
outside of all functions: no code. -/
example : (∀ f, ¬ IsCode c!"fn f() { let mut = 1; }" f) ∧ (∀ f, ¬ IsCode c!"fn f() { a == b; }" f) ∧
    (∀ f, ¬ IsCode c!"const A = 1;" f) ∧ (∀ f, ¬ IsCode c!"impl S { const A: T = 1; }" f) ∧
    (∀ f, ¬ IsCode c!"fn f() { for in x {} }" f) ∧ ∀ f, ¬ IsCode c!"return;" f := by
  refine ⟨fun f h => ?_, fun f h => ?_, fun f h => ?_, fun f h => ?_, fun f h => ?_, fun f h => ?_⟩ <;>
  · have := (C164_reader ..).2 h
    have e : ∀ {x : Option Forest}, x = none → x ≠ some f := by rintro _ rfl h; cases h
    exact e (by decide +kernel) this

/-- Code with fields and methods. -/
def methods : Str := c!"impl Tracer {
    fn add(&mut self, req: T) {
        self.count.total = req.size;
        let old = self.map.insert(req.id, &self.title);
        if graph::ROOT.has(old) { requirement_covered!(REQ_A); }
        m!(a.b, x.0);
        check(self);
    }
}"

def methodsForest : Forest :=
  .item (.impl c!"Tracer" none) 1 5
    (.item (.implMethod c!"add") 2 7
      (.node .nil <|
       .node .nil <|
       .node (.mac ⟨[c!"requirement_covered"], 5, 34, [⟨true, c!"REQ_A", 5, 55⟩]⟩ .nil) <|
       .mac ⟨[c!"m"], 6, 8, [⟨true, c!"a", 6, 11⟩, ⟨false, c!".", 6, 12⟩, ⟨true, c!"b", 6, 13⟩, ⟨false, c!",", 6, 14⟩,
         ⟨true, c!"x", 6, 16⟩, ⟨false, c!".", 6, 17⟩, ⟨false, c!"0", 6, 18⟩]⟩ <|
       .node .nil .nil) .nil) .nil

theorem methods_code : IsCode methods methodsForest := (C164_reader ..).1 (by decide +kernel)

/-- A field of a type, a point without a name, a name of the module after a field, a number with a point: no code. -/
example : (∀ f, ¬ IsCode c!"fn f(a: b.c) {}" f) ∧ (∀ f, ¬ IsCode c!"fn f() { a.(); }" f) ∧
    (∀ f, ¬ IsCode c!"fn f() { a.b::c(); }" f) ∧ ∀ f, ¬ IsCode c!"fn f() { m!(1.5); }" f := by
  refine ⟨fun f h => ?_, fun f h => ?_, fun f h => ?_, fun f h => ?_⟩ <;>
  · have := (C164_reader ..).2 h
    have e : ∀ {x : Option Forest}, x = none → x ≠ some f := by rintro _ rfl h; cases h
    exact e (by decide +kernel) this

/-- Bodies with a value or a macro call at the end. -/
def values : Str := c!"fn a() -> T { self.b }
fn c(d: &T) -> &str {
    if d.e() { requirement_covered!(REQ_A; \"x\") }
    f::g(d)
}
fn h() { requirement_covered!(REQ_B) }"

def valuesForest : Forest :=
  .item (.fn c!"a") 1 3 (.node .nil .nil) <|
  .item (.fn c!"c") 2 3
    (.node (.mac ⟨[c!"requirement_covered"], 3, 15, [⟨true, c!"REQ_A", 3, 36⟩, ⟨false, c!";", 3, 41⟩, ⟨false, c!"\"x\"", 3, 43⟩]⟩ .nil) <|
     .node .nil .nil) <|
  .item (.fn c!"h") 6 3 (.mac ⟨[c!"requirement_covered"], 6, 9, [⟨true, c!"REQ_B", 6, 30⟩]⟩ .nil) .nil

theorem values_code : IsCode values valuesForest := (C164_reader ..).1 (by decide +kernel)

/-- A value before something else, one outside of all functions, `let` without a semicolon: no code. -/
example : (∀ f, ¬ IsCode c!"fn f() { a b(); }" f) ∧ (∀ f, ¬ IsCode c!"mod m { a }" f) ∧
    (∀ f, ¬ IsCode c!"fn f() { m!() a }" f) ∧ ∀ f, ¬ IsCode c!"fn f() { let a = b }" f := by
  refine ⟨fun f h => ?_, fun f h => ?_, fun f h => ?_, fun f h => ?_⟩ <;>
  · have := (C164_reader ..).2 h
    have e : ∀ {x : Option Forest}, x = none → x ≠ some f := by rintro _ rfl h; cases h
    exact e (by decide +kernel) this

/-- Types with arguments. -/
def applied : Str := c!"type Ids = Vec<Option<&a::Id>>;
fn f(x: &Vec<&str>, y: T) -> Option<T> {
    let z: Vec<T>= g(x);
    requirement_covered!(REQ_A);
    y
}"

def appliedForest : Forest :=
  .node .nil <|
  .item (.fn c!"f") 2 3
    (.node .nil <| .mac ⟨[c!"requirement_covered"], 4, 4, [⟨true, c!"REQ_A", 4, 25⟩]⟩ <| .node .nil .nil) .nil

theorem applied_code : IsCode applied appliedForest := (C164_reader ..).1 (by decide +kernel)

/-- Arguments that are not closed, an argument without a type, an argument of a value: no code. -/
example : (∀ f, ¬ IsCode c!"type A = B<C;" f) ∧ (∀ f, ¬ IsCode c!"type A = <C>;" f) ∧
    (∀ f, ¬ IsCode c!"type A = B<C>>;" f) ∧ ∀ f, ¬ IsCode c!"fn f() { a<b>(); }" f := by
  refine ⟨fun f h => ?_, fun f h => ?_, fun f h => ?_, fun f h => ?_⟩ <;>
  · have := (C164_reader ..).2 h
    have e : ∀ {x : Option Forest}, x = none → x ≠ some f := by rintro _ rfl h; cases h
    exact e (by decide +kernel) this

/-- Structs with fields, and enums. -/
def records : Str := c!"/// a point
#[derive(Debug)]
pub struct Point { pub x: Vec<T>, y: &T, }
enum Colour { Red, Green }
struct Nothing {}
fn f() {
    enum Inner { A, }
    requirement_covered!(REQ_A);
}"

def recordsForest : Forest :=
  .node .nil <| .node .nil <| .node .nil <|
  .item (.fn c!"f") 6 3
    (.node .nil <| .mac ⟨[c!"requirement_covered"], 8, 4, [⟨true, c!"REQ_A", 8, 25⟩]⟩ .nil) .nil

theorem records_code : IsCode records recordsForest := (C164_reader ..).1 (by decide +kernel)

/-- A lone comma, a field without a type, a variant with one, a struct in an `impl` block: no code. -/
example : (∀ f, ¬ IsCode c!"enum A { , }" f) ∧ (∀ f, ¬ IsCode c!"struct A { x }" f) ∧
    (∀ f, ¬ IsCode c!"enum A { X: T }" f) ∧ ∀ f, ¬ IsCode c!"impl A { struct B {} }" f := by
  refine ⟨fun f h => ?_, fun f h => ?_, fun f h => ?_, fun f h => ?_⟩ <;>
  · have := (C164_reader ..).2 h
    have e : ∀ {x : Option Forest}, x = none → x ≠ some f := by rintro _ rfl h; cases h
    exact e (by decide +kernel) this

/-- Uses from the crate, and under other names. -/
def uses : Str := c!"use crate::marks::requirement_covered as r;
pub use super::a;
fn f() {
    use self::b::c; use d as e;
    requirement_covered!(REQ_A);
}"

def usesForest : Forest :=
  .node .nil <| .node .nil <|
  .item (.fn c!"f") 3 3
    (.node .nil <| .node .nil <| .mac ⟨[c!"requirement_covered"], 5, 4, [⟨true, c!"REQ_A", 5, 25⟩]⟩ .nil) .nil

theorem uses_code : IsCode uses usesForest := (C164_reader ..).1 (by decide +kernel)

/-- Nothing from the crate, no other name, two of them: no code. -/
example : (∀ f, ¬ IsCode c!"use crate::;" f) ∧ (∀ f, ¬ IsCode c!"use a as;" f) ∧
    (∀ f, ¬ IsCode c!"use a as b as c;" f) ∧ ∀ f, ¬ IsCode c!"use a::crate::b;" f := by
  refine ⟨fun f h => ?_, fun f h => ?_, fun f h => ?_, fun f h => ?_⟩ <;>
  · have := (C164_reader ..).2 h
    have e : ∀ {x : Option Forest}, x = none → x ≠ some f := by rintro _ rfl h; cases h
    exact e (by decide +kernel) this

/-- Macros with paths: no marks, also with the name of the macro for marks. -/
def pathCalls : Str := c!"fn f() {
    requirement_covered!(REQ_A);
    a :: requirement_covered!(REQ_B);
    a::b::c!()
}"

def pathCallsForest : Forest :=
  .item (.fn c!"f") 1 3
    (.mac ⟨[c!"requirement_covered"], 2, 4, [⟨true, c!"REQ_A", 2, 25⟩]⟩ <|
     .mac ⟨[c!"a", c!"requirement_covered"], 3, 4, [⟨true, c!"REQ_B", 3, 30⟩]⟩ <|
     .mac ⟨[c!"a", c!"b", c!"c"], 4, 4, []⟩ .nil) .nil

theorem pathCalls_code : IsCode pathCalls pathCallsForest := (C164_reader ..).1 (by decide +kernel)

/-- A path with a keyword, or without its last name: no code. -/
example : (∀ f, ¬ IsCode c!"fn f() { a::fn!(); }" f) ∧ (∀ f, ¬ IsCode c!"fn f() { a::!(); }" f) ∧
    ∀ f, ¬ IsCode c!"fn f() { a b!(); }" f := by
  refine ⟨fun f h => ?_, fun f h => ?_, fun f h => ?_⟩ <;>
  · have := (C164_reader ..).2 h
    have e : ∀ {x : Option Forest}, x = none → x ≠ some f := by rintro _ rfl h; cases h
    exact e (by decide +kernel) this

/-- Functions with parameters for types. -/
def generics : Str := c!"pub fn f<T, U: fmt::Debug>(x: Vec<T>, y: &U) -> T {
    requirement_covered!(REQ_A);
}
impl A { fn g<T>(&self) {} }"

def genericsForest : Forest :=
  .item (.fn c!"f") 1 7 (.mac ⟨[c!"requirement_covered"], 2, 4, [⟨true, c!"REQ_A", 2, 25⟩]⟩ .nil) <|
  .item (.impl c!"A" none) 4 5 (.item (.implMethod c!"g") 4 12 .nil .nil) .nil

theorem generics_code : IsCode generics genericsForest := (C164_reader ..).1 (by decide +kernel)

/-- Not in this part of Rust: empty lists and a comma at the end. No code: not closed, at the wrong place. -/
example : (∀ f, ¬ IsCode c!"fn f<>() {}" f) ∧ (∀ f, ¬ IsCode c!"fn f<T,>() {}" f) ∧
    (∀ f, ¬ IsCode c!"fn f<T() {}" f) ∧ ∀ f, ¬ IsCode c!"fn <T> f() {}" f := by
  refine ⟨fun f h => ?_, fun f h => ?_, fun f h => ?_, fun f h => ?_⟩ <;>
  · have := (C164_reader ..).2 h
    have e : ∀ {x : Option Forest}, x = none → x ≠ some f := by rintro _ rfl h; cases h
    exact e (by decide +kernel) this

def tokens (t : Str) : List Token := ((lex t.length (1, 0) t).getD [])

theorem plain_dense : Relaid plain dense := by
  refine ⟨tokens plain, tokens dense, forest, lex_sound _ [] _ _ (by decide +kernel : lex plain.length (1, 0) plain = some _),
    lex_sound _ [] _ _ (by decide +kernel : lex dense.length (1, 0) dense = some _), by decide +kernel, ?_, ?_⟩
  · obtain ⟨hs, h1, h2⟩ := code_sound ((tokens plain).length + 1) .items (tokens plain) forest [] (by decide +kernel)
    rw [List.append_nil] at h1
    rw [h1]
    exact h2
  · unfold Counted IsMark
    decide +kernel

def e : Env := { env RustExample.file config with syn := syn }

def withCode (t : Str) : List (Path × Str) := [
  (c!"p/req.md", c!"# REQ_A: title a\n# REQ_A: again\n# REQ_B: title b\n"),
  (c!"p/a.rs", t), (c!"p/Issue1.txt", []), (c!"/tags", c!"old\n"), (c!"requirements.toml", c!"...")]

theorem project_relaid : ProjectFilewise (FileRelaid e (world (withCode plain)) (world (withCode dense))) e (world (withCode plain)) (world (withCode dense)) c!"p" c!"p" config config := by
  refine ⟨rfl, rfl, rfl, .cons ⟨rfl, rfl, rfl, rfl, [c!"p/req.md"], [c!"p/req.md"], ?_, ?_, ?_⟩ <|
    .cons ⟨rfl, rfl, rfl, rfl, [c!"p/a.rs", c!"/src/b.rs"], [c!"p/a.rs", c!"/src/b.rs"], ?_, ?_, ?_⟩ <|
    .cons ⟨rfl, rfl, rfl, rfl, [c!"p/Issue1.txt"], [c!"p/Issue1.txt"], ?_, ?_, ?_⟩ .nil⟩
  · exact .inr ⟨by decide, c!"req.md", rfl, by decide⟩
  · exact .inr ⟨by decide, c!"req.md", rfl, by decide⟩
  · obtain ⟨_, _, _, _, h, _⟩ := C150_markdown (f := RenamedExample.f) (env := e) RenamedExample.markdown_renamed
    exact .cons (.same (by decide +kernel) (fun h => by cases h) (.opened (by decide +kernel) h)) .nil
  · exact .inl ⟨rfl, by decide, .cons (fs := [c!"p/a.rs"]) (by decide +kernel) <| .cons (fs := [c!"/src/b.rs"]) (by decide +kernel) .nil⟩
  · exact .inl ⟨rfl, by decide, .cons (fs := [c!"p/a.rs"]) (by decide +kernel) <| .cons (fs := [c!"/src/b.rs"]) (by decide +kernel) .nil⟩
  · exact .cons (.code (by decide +kernel) (by decide +kernel) plain_dense) <|
      .cons (.same (by decide +kernel) (fun h => by cases h) (.closed (e := c!"not found") (by decide +kernel))) .nil
  · exact .inr ⟨by decide, c!"Issue1.txt", rfl, by decide⟩
  · exact .inr ⟨by decide, c!"Issue1.txt", rfl, by decide⟩
  · exact .cons (.same (by decide +kernel)
      (fun _ => ⟨c!"Issue1.txt", fileName_iff.1 (by decide +kernel), fileName_iff.1 (by decide +kernel)⟩)
      (.opened (file := ⟨[], none⟩) (reqs := [⟨c!"Issue1", none, ⟨c!"p/Issue1.txt", none⟩, [], [], [], .empty⟩]) (errs := [])
        (by decide +kernel) ((C81_file ..).1 (by decide +kernel)))) .nil

set_option synthInstance.maxSize 2000 in
set_option synthInstance.maxHeartbeats 200000 in
/-- The same is covered, and the error is found in another line. -/
example : RenamedExample.found (Controller.new e (world (withCode plain)) config c!"p") = some
    ([[.format (.newWithLineAndColumn c!"p/a.rs" 7 17) c!"requirement_covered!() has no arguments",
      .io c!"/src/b.rs" c!"not found"], [.requirementWithoutTitle
      ⟨c!"Issue1", none, ⟨c!"p/Issue1.txt", none⟩, [], [], [], .empty⟩],
      [.duplicateRequirement (MovedExample.heading c!"p/req.md" c!"REQ_A" c!"title a" 1)
        (MovedExample.heading c!"p/req.md" c!"REQ_A" c!"again" 2)]],
      [[(c!"REQ_A", c!"m::f", .upwards), (c!"REQ_B", c!"m::f", .upwards)]], 2) ∧
    RenamedExample.found (Controller.new e (world (withCode dense)) config c!"p") = some
    ([[.format (.newWithLineAndColumn c!"p/a.rs" 2 0) c!"requirement_covered!() has no arguments",
      .io c!"/src/b.rs" c!"not found"], [.requirementWithoutTitle
      ⟨c!"Issue1", none, ⟨c!"p/Issue1.txt", none⟩, [], [], [], .empty⟩],
      [.duplicateRequirement (MovedExample.heading c!"p/req.md" c!"REQ_A" c!"title a" 1)
        (MovedExample.heading c!"p/req.md" c!"REQ_A" c!"again" 2)]],
      [[(c!"REQ_A", c!"m::f", .upwards), (c!"REQ_B", c!"m::f", .upwards)]], 2) := by
  decide +kernel

example : (Main.main e args (world (withCode plain))).1 = 1 ∧ (Main.main e args (world (withCode dense))).1 = 1 := by
  decide +kernel

end RustTextExample

end Reqtrace
