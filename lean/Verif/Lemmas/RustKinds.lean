import Verif.Spec.RustText

/-!
# Lemmas on the tests of the Rust reader for sequences of tokens
-/

namespace Reqtrace

namespace RustText

open Spec.RustLayout

theorem keywords_iff (s : Str) : s ∉ keywords ↔ s ∉ strictWords ∧ s ∉ reservedWords := by
  have a : ∀ s ∈ keywords, s ∈ strictWords ++ reservedWords := by decide +kernel
  have b : ∀ s ∈ strictWords ++ reservedWords, s ∈ keywords := by decide +kernel
  constructor
  · exact fun h => ⟨fun h' => h (b s (List.mem_append.2 (.inl h'))), fun h' => h (b s (List.mem_append.2 (.inr h')))⟩
  · intro h h'
    rcases List.mem_append.1 (a s h') with h' | h'
    · exact h.1 h'
    · exact h.2 h'

theorem isName_iff (s : Str) : isName s = true ↔ NameWord s := by
  rw [isName, decide_eq_true_iff]
  exact keywords_iff s

theorem nameWord_ne {s k : Str} (h : NameWord s) (hk : k ∈ keywords) : s ≠ k := by
  rintro rfl
  exact (keywords_iff _).2 h hk

/-! ## Sequences up to the first token of a kind -/

theorem span_split {α : Type} {p : α → Bool} {as bs : List α} {b : α} (ha : ∀ a ∈ as, p a = true) (hb : p b = false) :
    (as ++ b :: bs).takeWhile p = as ∧ (as ++ b :: bs).dropWhile p = b :: bs := by
  rw [List.takeWhile_append_of_pos ha, List.dropWhile_append_of_pos ha, List.takeWhile_cons_of_neg (by simp [hb]),
    List.dropWhile_cons_of_neg (by simp [hb]), List.append_nil]
  exact ⟨rfl, rfl⟩

theorem span_all {α : Type} {p : α → Bool} {as : List α} (ha : ∀ a ∈ as, p a = true) :
    as.takeWhile p = as ∧ as.dropWhile p = [] := by
  have h1 := List.takeWhile_append_of_pos (l₂ := []) ha
  have h2 := List.dropWhile_append_of_pos (l₂ := []) ha
  simp only [List.append_nil, List.takeWhile_nil, List.dropWhile_nil] at h1 h2
  exact ⟨h1, h2⟩

theorem dropWhile_cons_eq {α : Type} {p : α → Bool} {as bs : List α} {b : α} (h : as.dropWhile p = b :: bs) :
    as = as.takeWhile p ++ b :: bs ∧ p b = false := by
  refine ⟨by rw [← h, List.takeWhile_append_dropWhile], ?_⟩
  have := List.head?_dropWhile_not p as
  rw [h] at this
  simpa using this

/-! ## Paths, types, values -/

/-- A word or `::` -/
def InPath (k : Kind) : Prop := (∃ s, k = .word s) ∨ k = .joint c!"::"

theorem path_kinds {ks : List Kind} (h : PathKinds ks) : ∀ k ∈ ks, InPath k := by
  induction h with
  | one =>
    intro k hk
    rw [List.mem_singleton] at hk
    exact .inl ⟨_, hk⟩
  | more _ _ ih =>
    intro k hk
    rcases List.mem_cons.1 hk with rfl | hk
    · exact .inl ⟨_, rfl⟩
    · rcases List.mem_cons.1 hk with rfl | hk
      · exact .inr rfl
      · exact ih k hk

theorem path_head {ks : List Kind} (h : PathKinds ks) : ∃ s ls, ks = .word s :: ls ∧ NameWord s := by
  cases h with
  | one h => exact ⟨_, _, rfl, h⟩
  | more h _ => exact ⟨_, _, rfl, h⟩

theorem isPath_iff (ks : List Kind) : isPath ks = true ↔ PathKinds ks := by
  constructor
  · intro h
    induction ks using isPath.induct with
    | case1 s => rw [isPath] at h; exact .one ((isName_iff _).1 h)
    | case2 s d ks ih =>
      rw [isPath] at h
      simp only [Bool.and_eq_true, beq_iff_eq] at h
      obtain ⟨⟨h1, rfl⟩, h2⟩ := h
      exact .more ((isName_iff _).1 h1) (ih h2)
    | case3 ks h1 h2 =>
      rw [isPath] at h
      · cases h
      · exact h1
      · exact h2
  · intro h
    induction h with
    | one h => rw [isPath]; exact (isName_iff _).2 h
    | more h _ ih =>
      rw [isPath]
      simp only [Bool.and_eq_true, beq_iff_eq]
      exact ⟨⟨(isName_iff _).2 h, trivial⟩, ih⟩

theorem path_sign {k : Kind} (h : InPath k) (c : Char) : k ≠ .sign c := by
  rintro rfl
  rcases h with ⟨s, h⟩ | h <;> cases h

/-- The same with and without a reference -/
theorem type_reference {ks : List Kind} (h : TypeKinds (withoutReference ks)) (hh : ∃ s ls, withoutReference ks = .word s :: ls) :
    TypeKinds ks := by
  unfold withoutReference at h hh
  split at h
  · obtain ⟨s, ls, e⟩ := hh
    simp only at e
    cases h with
    | path h => exact .reference h
    | applied h1 h2 => exact .referenceApplied h1 h2
    | reference => cases e
    | referenceApplied => cases e
  · exact h

theorem isTypeWithin_sound (fuel : Nat) : ∀ ks : List Kind, isTypeWithin fuel ks = true → TypeKinds ks := by
  induction fuel with
  | zero => intro ks h; cases h
  | succ fuel ih =>
    intro ks h
    rw [isTypeWithin, Bool.and_eq_true, isPath_iff] at h
    obtain ⟨h1, h2⟩ := h
    obtain ⟨s, ls, e0, _⟩ := path_head h1
    have e1 := List.takeWhile_append_dropWhile (p := fun k : Kind => k != .sign '<') (l := withoutReference ks)
    refine type_reference ?_ ⟨s, ls ++ (withoutReference ks).dropWhile (· != .sign '<'), by rw [← List.cons_append, ← e0, e1]⟩
    split at h2
    · rename_i hd
      rw [hd, List.append_nil] at e1
      rw [e1] at h1
      exact .path h1
    · rename_i k ls hd
      obtain ⟨e, hk⟩ := dropWhile_cons_eq hd
      have hk' : k = .sign '<' := by simpa using hk
      subst hk'
      rw [Bool.and_eq_true, beq_iff_eq] at h2
      obtain ⟨ms, rfl⟩ := List.getLast?_eq_some_iff.1 h2.1
      rw [List.dropLast_concat] at h2
      rw [e]
      exact .applied h1 (ih _ h2.2)

theorem withoutReference_path {ps ks : List Kind} (h : PathKinds ps) : withoutReference (ps ++ ks) = ps ++ ks := by
  obtain ⟨s, ls, rfl, _⟩ := path_head h
  rfl

theorem isTypeWithin_path {ps : List Kind} (h : PathKinds ps) {ks : List Kind} (hk : withoutReference ks = ps) (fuel : Nat) :
    isTypeWithin (fuel + 1) ks = true := by
  obtain ⟨e1, e2⟩ := span_all (p := fun k : Kind => k != .sign '<') (as := ps)
    fun k hk => by simpa using path_sign (path_kinds h k hk) '<'
  rw [isTypeWithin, hk, e1, e2, (isPath_iff _).2 h]
  rfl

theorem isTypeWithin_applied {ps ls : List Kind} (h : PathKinds ps) {ks : List Kind}
    (hk : withoutReference ks = ps ++ .sign '<' :: (ls ++ [.sign '>'])) {fuel : Nat} (hl : isTypeWithin fuel ls = true) :
    isTypeWithin (fuel + 1) ks = true := by
  obtain ⟨e1, e2⟩ := span_split (p := fun k : Kind => k != .sign '<') (as := ps) (b := .sign '<') (bs := ls ++ [.sign '>'])
    (fun k hk => by simpa using path_sign (path_kinds h k hk) '<') (by decide)
  rw [isTypeWithin, hk, e1, e2, (isPath_iff _).2 h]
  simp [hl]

theorem isTypeWithin_complete {ks : List Kind} (h : TypeKinds ks) : ∀ fuel, ks.length < fuel → isTypeWithin fuel ks = true := by
  induction h with
  | path h =>
    intro fuel hf
    obtain ⟨fuel, rfl⟩ : ∃ f, fuel = f + 1 := ⟨fuel - 1, by omega⟩
    refine isTypeWithin_path h ?_ _
    have := withoutReference_path (ks := []) h
    rwa [List.append_nil] at this
  | applied h _ ih =>
    intro fuel hf
    obtain ⟨fuel, rfl⟩ : ∃ f, fuel = f + 1 := ⟨fuel - 1, by omega⟩
    simp only [List.length_append, List.length_cons] at hf
    exact isTypeWithin_applied h (withoutReference_path h) (ih _ (by omega))
  | reference h =>
    intro fuel hf
    obtain ⟨fuel, rfl⟩ : ∃ f, fuel = f + 1 := ⟨fuel - 1, by omega⟩
    exact isTypeWithin_path h rfl _
  | referenceApplied h _ ih =>
    intro fuel hf
    obtain ⟨fuel, rfl⟩ : ∃ f, fuel = f + 1 := ⟨fuel - 1, by omega⟩
    simp only [List.length_append, List.length_cons] at hf
    exact isTypeWithin_applied h rfl (ih _ (by omega))

theorem isType_iff (ks : List Kind) : isType ks = true ↔ TypeKinds ks :=
  ⟨isTypeWithin_sound _ _, fun h => isTypeWithin_complete h _ (Nat.lt_succ_self _)⟩

/-- A word, `::`, `&`, `.`, `<`, `>` or a literal -/
def InValue (k : Kind) : Prop := InPath k ∨ k = .sign '&' ∨ k = .sign '.' ∨ (∃ s, k = .text s) ∨ k = .sign '<' ∨ k = .sign '>'

theorem type_kinds {ks : List Kind} (h : TypeKinds ks) : ∀ k ∈ ks, InValue k := by
  have applied : ∀ {ps ks : List Kind}, PathKinds ps → (∀ k ∈ ks, InValue k) →
      ∀ k ∈ ps ++ .sign '<' :: (ks ++ [.sign '>']), InValue k := by
    intro ps ks h ih k hk
    simp only [List.mem_append, List.mem_cons, List.not_mem_nil, or_false] at hk
    rcases hk with hk | hk | hk | hk
    · exact .inl (path_kinds h k hk)
    · exact .inr (.inr (.inr (.inr (.inl hk))))
    · exact ih k hk
    · exact .inr (.inr (.inr (.inr (.inr hk))))
  induction h with
  | path h => exact fun k hk => .inl (path_kinds h k hk)
  | applied h _ ih => exact applied h ih
  | reference h =>
    intro k hk
    rcases List.mem_cons.1 hk with rfl | hk
    · exact .inr (.inl rfl)
    · exact .inl (path_kinds h k hk)
  | referenceApplied h _ ih =>
    intro k hk
    rcases List.mem_cons.1 hk with rfl | hk
    · exact .inr (.inl rfl)
    · exact applied h ih k hk

theorem fields_kinds {ks : List Kind} (h : FieldsKinds ks) : ∀ k ∈ ks, InValue k := by
  induction h with
  | nil => nofun
  | cons _ _ ih =>
    intro k hk
    simp only [List.mem_cons] at hk
    rcases hk with rfl | rfl | hk
    · exact .inr (.inr (.inl rfl))
    · exact .inl (.inl ⟨_, rfl⟩)
    · exact ih k hk

theorem chain_kinds {ks : List Kind} (h : ChainKinds ks) : ∀ k ∈ ks, InValue k := by
  cases h with
  | path h1 h2 =>
    intro k hk
    rcases List.mem_append.1 hk with hk | hk
    · exact .inl (path_kinds h1 k hk)
    · exact fields_kinds h2 k hk
  | selfIs h =>
    intro k hk
    rcases List.mem_cons.1 hk with rfl | hk
    · exact .inl (.inl ⟨_, rfl⟩)
    · exact fields_kinds h k hk

theorem chain_head {ks : List Kind} (h : ChainKinds ks) :
    ∃ s ls, ks = .word s :: ls ∧ (NameWord s ∨ s = c!"self") := by
  cases h with
  | path h1 _ =>
    obtain ⟨s, ls, rfl, h'⟩ := path_head h1
    exact ⟨s, _, rfl, .inl h'⟩
  | selfIs => exact ⟨_, _, rfl, .inr rfl⟩

theorem isFields_iff (ks : List Kind) : isFields ks = true ↔ FieldsKinds ks := by
  constructor
  · intro h
    induction ks using isFields.induct with
    | case1 => exact .nil
    | case2 s ks ih =>
      rw [isFields, Bool.and_eq_true, isName_iff] at h
      exact .cons h.1 (ih h.2)
    | case3 ks h1 h2 =>
      rw [isFields] at h
      · cases h
      · exact h1
      · exact h2
  · intro h
    induction h with
    | nil => rfl
    | cons h _ ih => rw [isFields, Bool.and_eq_true, isName_iff]; exact ⟨h, ih⟩

/-- Up to the first point, and the rest -/
theorem fields_split {ps fs : List Kind} (h1 : ∀ k ∈ ps, k ≠ .sign '.') (h2 : FieldsKinds fs) :
    (ps ++ fs).takeWhile (· != .sign '.') = ps ∧ (ps ++ fs).dropWhile (· != .sign '.') = fs := by
  cases h2 with
  | nil =>
    rw [List.append_nil]
    exact span_all fun k hk => by simpa using h1 k hk
  | cons => exact span_split (fun k hk => by simpa using h1 k hk) (by decide)

theorem isChain_iff (ks : List Kind) : isChain ks = true ↔ ChainKinds ks := by
  constructor
  · intro h
    rw [isChain, Bool.and_eq_true, Bool.or_eq_true, isPath_iff, isFields_iff, beq_iff_eq] at h
    obtain ⟨h1, h2⟩ := h
    rw [← List.takeWhile_append_dropWhile (p := fun k : Kind => k != .sign '.') (l := ks)]
    rcases h1 with h1 | h1
    · exact .path h1 h2
    · rw [h1]
      exact .selfIs h2
  · intro h
    rw [isChain, Bool.and_eq_true, Bool.or_eq_true, isPath_iff, isFields_iff, beq_iff_eq]
    cases h with
    | path h1 h2 =>
      obtain ⟨e1, e2⟩ := fields_split (fun k hk => path_sign (path_kinds h1 k hk) _) h2
      rw [e1, e2]
      exact ⟨.inl h1, h2⟩
    | selfIs h =>
      obtain ⟨e1, e2⟩ := fields_split (ps := [.word c!"self"]) (by simp) h
      rw [List.singleton_append] at e1 e2
      rw [e1, e2]
      exact ⟨.inr rfl, h⟩

theorem isAtom_iff (ks : List Kind) : isAtom ks = true ↔ AtomKinds ks := by
  constructor
  · intro h
    unfold isAtom at h
    split at h
    · exact .text
    · exact .reference ((isChain_iff _).1 h)
    · exact .chain ((isChain_iff _).1 h)
  · intro h
    cases h with
    | text => rfl
    | chain h =>
      obtain ⟨s, ls, rfl, _⟩ := chain_head h
      exact (isChain_iff _).2 h
    | reference h => exact (isChain_iff _).2 h

theorem atom_kinds {ks : List Kind} (h : AtomKinds ks) : ∀ k ∈ ks, InValue k := by
  intro k hk
  cases h with
  | text =>
    rw [List.mem_singleton] at hk
    exact .inr (.inr (.inr (.inl ⟨_, hk⟩)))
  | chain h => exact chain_kinds h k hk
  | reference h =>
    rcases List.mem_cons.1 hk with rfl | hk
    · exact .inr (.inl rfl)
    · exact chain_kinds h k hk

theorem value_sign {k : Kind} (h : InValue k) {c : Char} (hc : c ∉ c!"&.<>") : k ≠ .sign c := by
  rintro rfl
  rcases h with (⟨s, h⟩ | h) | h | h | ⟨s, h⟩ | h | h
  · cases h
  · cases h
  · cases h; exact hc (by decide)
  · cases h; exact hc (by decide)
  · cases h
  · cases h; exact hc (by decide)
  · cases h; exact hc (by decide)

/-! ## Lists -/

theorem isComma_false {k : Kind} (h : k ≠ .sign ',') : (!isComma k) = true := by
  simpa [isComma] using h

theorem separated_iff {p : List Kind → Bool} {P : List Kind → Prop} (hp : ∀ ks, p ks = true ↔ P ks)
    (hc : ∀ ks, P ks → ∀ k ∈ ks, k ≠ .sign ',') (fuel : Nat) : ∀ ks : List Kind, ks.length < fuel →
    (separated p fuel ks = true ↔ Separated P ks) := by
  induction fuel with
  | zero => intro ks hf; exact absurd hf (Nat.not_lt_zero _)
  | succ fuel ih =>
    intro ks hf
    rw [separated]
    constructor
    · intro h
      rw [Bool.and_eq_true, hp] at h
      obtain ⟨h1, h2⟩ := h
      split at h2
      · rename_i hd
        have := List.takeWhile_append_dropWhile (p := fun k => !isComma k) (l := ks)
        rw [hd, List.append_nil] at this
        rw [this] at h1
        exact .one h1
      · rename_i k ls hd
        obtain ⟨e, hk⟩ := dropWhile_cons_eq hd
        have hk' : k = .sign ',' := by simpa [isComma] using hk
        subst hk'
        have hl : ls.length < fuel := by
          have := congrArg List.length e
          simp only [List.length_append, List.length_cons] at this
          omega
        rw [e]
        exact .more h1 ((ih ls hl).1 h2)
    · intro h
      cases h with
      | one h =>
        obtain ⟨e1, e2⟩ := span_all (p := fun k => !isComma k) fun k hk => isComma_false (hc ks h k hk)
        rw [e1, e2, (hp ks).2 h]
        rfl
      | @more as ls h1 h2 =>
        obtain ⟨e1, e2⟩ := span_split (p := fun k => !isComma k) (bs := ls) (b := .sign ',')
          (fun k hk => isComma_false (hc as h1 k hk)) (by decide)
        rw [e1, e2, (hp as).2 h1]
        simp only [List.length_append, List.length_cons] at hf
        simpa using (ih ls (by omega)).2 h2

theorem separated_all {P : List Kind → Prop} {Q : Kind → Prop} (hQ : ∀ ks, P ks → ∀ k ∈ ks, Q k) (hc : Q (.sign ','))
    {ks : List Kind} (h : Separated P ks) : ∀ k ∈ ks, Q k := by
  induction h with
  | one h => exact hQ _ h
  | more h _ ih =>
    intro k hk
    rcases List.mem_append.1 hk with hk | hk
    · exact hQ _ h k hk
    · rcases List.mem_cons.1 hk with rfl | hk
      · exact hc
      · exact ih k hk

theorem listed_all {P : List Kind → Prop} {Q : Kind → Prop} (hQ : ∀ ks, P ks → ∀ k ∈ ks, Q k) (hc : Q (.sign ','))
    {ks : List Kind} (h : Listed P ks) : ∀ k ∈ ks, Q k := by
  rcases h with rfl | h
  · intro k hk; cases hk
  · exact separated_all hQ hc h

theorem listed_iff {p : List Kind → Bool} {P : List Kind → Prop} (hp : ∀ ks, p ks = true ↔ P ks)
    (hc : ∀ ks, P ks → ∀ k ∈ ks, k ≠ .sign ',') (ks : List Kind) : listed p ks = true ↔ Listed P ks := by
  rw [listed, Bool.or_eq_true, separated_iff hp hc _ ks (Nat.lt_succ_self _), List.isEmpty_iff]
  rfl

/-! ## Calls and what is made of them -/

theorem call_head {ks : List Kind} (h : CallKinds ks) :
    ∃ s ls, ks = .word s :: ls ∧ (NameWord s ∨ s = c!"self") := by
  cases h with
  | call h _ =>
    obtain ⟨s, ls, rfl, h'⟩ := chain_head h
    exact ⟨s, _, rfl, h'⟩

theorem atoms_iff (ks : List Kind) : listed isAtom ks = true ↔ Listed AtomKinds ks :=
  listed_iff isAtom_iff (fun _ h _ hk => value_sign (atom_kinds h _ hk) (by decide)) ks

theorem isCall_iff (ks : List Kind) : isCall ks = true ↔ CallKinds ks := by
  unfold isCall
  constructor
  · intro h
    rw [Bool.and_eq_true, isChain_iff] at h
    obtain ⟨h1, h2⟩ := h
    split at h2
    · cases h2
    · rename_i k ls hd
      obtain ⟨e, hk⟩ := dropWhile_cons_eq hd
      have hk' : k = .sign '(' := by simpa using hk
      subst hk'
      rw [Bool.and_eq_true, atoms_iff, beq_iff_eq] at h2
      have e2 := (dropWhile_cons_eq h2.2).1
      rw [e, e2]
      exact .call h1 h2.1
  · intro h
    cases h with
    | @call ps as h1 h2 =>
      obtain ⟨e1, e2⟩ := span_split (p := fun k : Kind => k != .sign '(') (bs := as ++ [.sign ')']) (b := .sign '(')
        (fun k hk => by simpa using value_sign (chain_kinds h1 k hk) (c := '(') (by decide)) (by decide)
      obtain ⟨e3, e4⟩ := span_split (p := fun k : Kind => k != .sign ')') (bs := []) (b := .sign ')') (as := as)
        (fun k hk => by
          have := listed_all (Q := fun k => k ≠ .sign ')') (fun ks h k hk => value_sign (atom_kinds h k hk) (by decide))
            (by decide) h2 k hk
          simpa using this) (by decide)
      rw [e1, e2]
      simp only [e3, e4, (isChain_iff _).2 h1, (atoms_iff _).2 h2, beq_self_eq_true, Bool.and_self]

theorem isExpression_iff (ks : List Kind) : isExpression ks = true ↔ ExpressionKinds ks := by
  rw [isExpression, Bool.or_eq_true, isAtom_iff, isCall_iff]
  rfl

theorem assigned_iff {p : List Kind → Bool} {P : List Kind → Prop} (hp : ∀ ks, p ks = true ↔ P ks)
    (hs : ∀ ks, P ks → ∀ k ∈ ks, k ≠ .sign '=') (ks : List Kind) :
    isAssigned p ks = true ↔ ∃ as bs, ks = as ++ .sign '=' :: bs ∧ P as ∧ ExpressionKinds bs := by
  constructor
  · intro h
    unfold isAssigned at h
    rw [Bool.and_eq_true, hp] at h
    obtain ⟨h1, h2⟩ := h
    split at h2
    · cases h2
    · rename_i k ls hd
      obtain ⟨e, hk⟩ := dropWhile_cons_eq hd
      have hk' : k = .sign '=' := by simpa using hk
      subst hk'
      exact ⟨_, _, e, h1, (isExpression_iff _).1 h2⟩
  · rintro ⟨as, bs, rfl, h1, h2⟩
    obtain ⟨e1, e2⟩ := span_split (p := fun k : Kind => k != .sign '=') (bs := bs) (b := .sign '=') (as := as)
      (fun k hk => by simpa using hs _ h1 k hk) (by decide)
    unfold isAssigned
    rw [e1, e2, (hp _).2 h1]
    simpa using (isExpression_iff _).2 h2

theorem assignedChain_iff (ks : List Kind) :
    isAssigned isChain ks = true ↔ ∃ as bs, ks = as ++ .sign '=' :: bs ∧ ChainKinds as ∧ ExpressionKinds bs :=
  assigned_iff isChain_iff (fun _ h k hk => value_sign (chain_kinds h k hk) (by decide)) ks

theorem typed_iff (ks : List Kind) : isAssigned isType ks = true ↔ TypedKinds (.sign ':' :: ks) := by
  rw [assigned_iff isType_iff (fun _ h k hk => value_sign (type_kinds h k hk) (by decide))]
  constructor
  · rintro ⟨as, bs, rfl, h1, h2⟩
    exact .typed h1 h2
  · intro h
    cases h with
    | typed h1 h2 => exact ⟨_, _, rfl, h1, h2⟩

theorem typed_head {ks : List Kind} (h : TypedKinds ks) : ∃ ls, ks = .sign ':' :: ls := by
  cases h with
  | typed => exact ⟨_, rfl⟩

theorem isValued_iff (ks : List Kind) : isValued ks = true ↔ ValuedKinds ks := by
  constructor
  · intro h
    unfold isValued at h
    split at h
    · exact .plain ((isExpression_iff _).1 h)
    · exact .typed ((typed_iff _).1 h)
    · cases h
  · intro h
    cases h with
    | plain h => exact (isExpression_iff _).2 h
    | typed h =>
      obtain ⟨ls, rfl⟩ := typed_head h
      exact (typed_iff _).2 h

theorem valued_head {ks : List Kind} (h : ValuedKinds ks) : ∃ c ls, ks = .sign c :: ls := by
  cases h with
  | plain => exact ⟨_, _, rfl⟩
  | typed h =>
    obtain ⟨ls, rfl⟩ := typed_head h
    exact ⟨_, _, rfl⟩

theorem isBinding_iff (ks : List Kind) : isBinding ks = true ↔ PlainKinds (.word c!"let" :: ks) := by
  constructor
  · intro h
    unfold isBinding at h
    split at h
    · simp only [Bool.and_eq_true, beq_iff_eq, isName_iff, isValued_iff] at h
      obtain ⟨⟨rfl, h1⟩, h2⟩ := h
      exact .letMut h1 h2
    · simp only [Bool.and_eq_true, isName_iff, isValued_iff] at h
      exact .letIs h.1 h.2
    · cases h
  · intro h
    generalize hl : Kind.word c!"let" :: ks = ls at h
    have no : ∀ {s : Str} {ls : List Kind}, NameWord s ∨ s = c!"self" → Kind.word c!"let" :: ks = .word s :: ls → False := by
      intro s ls hn e
      cases e
      rcases hn with hn | hn
      · exact hn.1 (by decide)
      · exact absurd hn (by decide)
    cases h with
    | call h =>
      obtain ⟨s, ms, rfl, hn⟩ := call_head h
      exact (no hn hl).elim
    | letIs h1 h2 =>
      cases hl
      obtain ⟨c, ls, rfl⟩ := valued_head h2
      rw [isBinding]
      · simp [(isName_iff _).2 h1, (isValued_iff _).2 h2]
      · simp
    | letMut h1 h2 =>
      cases hl
      simp [isBinding, (isName_iff _).2 h1, (isValued_iff _).2 h2]
    | assign h1 h2 =>
      obtain ⟨s, ms, rfl, hn⟩ := chain_head h1
      exact (no hn hl).elim
    | returns => cases hl
    | returnIs => cases hl
    | breakIs => cases hl
    | continueIs => cases hl

theorem isPlain_iff (ks : List Kind) : isPlain ks = true ↔ PlainKinds ks := by
  constructor
  · intro h
    unfold isPlain at h
    split at h
    · split at h
      · rename_i e
        subst e
        exact (isBinding_iff _).1 h
      · split at h
        · rename_i e
          subst e
          rw [Bool.or_eq_true, List.isEmpty_iff, isExpression_iff] at h
          rcases h with rfl | h
          · exact .returns
          · exact .returnIs h
        · split at h
          · rename_i e
            rw [List.isEmpty_iff] at h
            subst h
            rcases e with rfl | rfl
            · exact .breakIs
            · exact .continueIs
          · rw [Bool.or_eq_true, isCall_iff, assignedChain_iff] at h
            rcases h with h | ⟨as, bs, e, h1, h2⟩
            · exact .call h
            · rw [e]
              exact .assign h1 h2
    · cases h
  · have named : ∀ {s : Str} {ls : List Kind}, NameWord s ∨ s = c!"self" →
        (CallKinds (.word s :: ls) ∨ ∃ as bs, Kind.word s :: ls = as ++ .sign '=' :: bs ∧ ChainKinds as ∧ ExpressionKinds bs) →
        isPlain (.word s :: ls) = true := by
      intro s ls hn h
      have ne : ∀ w ∈ strictWords, w ≠ c!"self" → s ≠ w := by
        intro w hw hs e
        rcases hn with hn | hn
        · exact hn.1 (e ▸ hw)
        · exact hs (e.symm.trans hn)
      rw [isPlain, if_neg (ne _ (by decide) (by decide)), if_neg (ne _ (by decide) (by decide)),
        if_neg (not_or.2 ⟨ne _ (by decide) (by decide), ne _ (by decide) (by decide)⟩), Bool.or_eq_true, isCall_iff, assignedChain_iff]
      exact h
    intro h
    cases h with
    | call h =>
      obtain ⟨s, ls, rfl, hn⟩ := call_head h
      exact named hn (.inl h)
    | letIs h1 h2 => exact (isBinding_iff _).2 (.letIs h1 h2)
    | letMut h1 h2 => exact (isBinding_iff _).2 (.letMut h1 h2)
    | assign h1 h2 =>
      obtain ⟨s, ls, rfl, hn⟩ := chain_head h1
      exact named hn (.inr ⟨_, _, rfl, h1, h2⟩)
    | returns => rfl
    | returnIs h => simp [isPlain, (isExpression_iff _).2 h]
    | breakIs => rfl
    | continueIs => rfl

theorem isRooted_iff (ks : List Kind) : isRooted ks = true ↔ RootedKinds ks := by
  constructor
  · intro h
    unfold isRooted at h
    split at h
    · split at h
      · rename_i hs
        rw [Bool.and_eq_true, beq_iff_eq, isPath_iff] at h
        rw [h.1]
        exact .rooted hs h.2
      · exact .path ((isPath_iff _).1 h)
    · exact .path ((isPath_iff _).1 h)
  · intro h
    cases h with
    | path h =>
      obtain ⟨s, ls, rfl, hs⟩ := path_head h
      unfold isRooted
      split
      · rename_i e
        cases e
        rw [if_neg fun hm => nameWord_ne hs ((by decide : ∀ w ∈ [c!"crate", c!"self", c!"super"], w ∈ keywords) _ hm) rfl]
        exact (isPath_iff _).2 h
      · exact (isPath_iff _).2 h
    | rooted hs h =>
      rw [isRooted, if_pos hs, (isPath_iff _).2 h]
      rfl

theorem isUse_iff (ks : List Kind) : isUse ks = true ↔ UseKinds ks := by
  rw [isUse, Bool.or_eq_true, isRooted_iff]
  constructor
  · rintro (h | h)
    · exact .plain h
    · rw [Bool.and_eq_true, Bool.and_eq_true, isRooted_iff, beq_iff_eq] at h
      obtain ⟨⟨h1, h2⟩, h3⟩ := h
      split at h3
      · rename_i e
        obtain ⟨ls, rfl⟩ := List.getLast?_eq_some_iff.1 e
        rw [List.dropLast_concat] at h1 h2
        obtain ⟨ms, rfl⟩ := List.getLast?_eq_some_iff.1 h2
        rw [List.dropLast_concat] at h1
        have := UseKinds.named h1 ((isName_iff _).1 h3)
        rwa [List.append_assoc]
      · cases h3
  · intro h
    cases h with
    | plain h => exact .inl h
    | @named ls s h hs =>
      have e : ls ++ [.word c!"as", .word s] = (ls ++ [.word c!"as"]) ++ [.word s] := by simp
      rw [e, List.dropLast_concat, List.dropLast_concat, List.getLast?_concat, List.getLast?_concat]
      right
      simp [(isRooted_iff _).2 h, (isName_iff _).2 hs]

theorem use_kinds {ks : List Kind} (h : UseKinds ks) : ∀ k ∈ ks, InPath k := by
  have rooted : ∀ {ks : List Kind}, RootedKinds ks → ∀ k ∈ ks, InPath k := by
    intro ks h
    cases h with
    | path h => exact path_kinds h
    | rooted _ h =>
      intro k hk
      simp only [List.mem_cons] at hk
      rcases hk with rfl | rfl | hk
      · exact .inl ⟨_, rfl⟩
      · exact .inr rfl
      · exact path_kinds h k hk
  cases h with
  | plain h => exact rooted h
  | named h _ =>
    intro k hk
    rcases List.mem_append.1 hk with hk | hk
    · exact rooted h k hk
    · simp only [List.mem_cons, List.not_mem_nil, or_false] at hk
      rcases hk with rfl | rfl
      · exact .inl ⟨_, rfl⟩
      · exact .inl ⟨_, rfl⟩

theorem isDeclaration_iff (ks : List Kind) : isDeclaration ks = true ↔ DeclarationKinds ks := by
  constructor
  · intro h
    unfold isDeclaration at h
    split at h
    · simp only [Bool.or_eq_true, Bool.and_eq_true, beq_iff_eq, isUse_iff] at h
      rcases h with ((⟨rfl, h⟩ | ⟨rfl, h⟩) | ⟨hw, h⟩) | ⟨rfl, h⟩
      · exact .useIs h
      · split at h
        · exact .structIs ((isName_iff _).1 h)
        · cases h
      · split at h
        · rw [Bool.and_eq_true, isName_iff, typed_iff] at h
          rcases hw with rfl | rfl
          · exact .constIs h.1 h.2
          · exact .staticIs h.1 h.2
        · cases h
      · split at h
        · rw [Bool.and_eq_true, isName_iff, isType_iff] at h
          exact .typeIs h.1 h.2
        · cases h
    · cases h
  · intro h
    cases h with
    | useIs h => simp [isDeclaration, (isUse_iff _).2 h]
    | structIs h => simp [isDeclaration, (isName_iff _).2 h]
    | constIs h1 h2 =>
      obtain ⟨ls, rfl⟩ := typed_head h2
      simp [isDeclaration, (isName_iff _).2 h1, (typed_iff _).2 h2]
    | staticIs h1 h2 =>
      obtain ⟨ls, rfl⟩ := typed_head h2
      simp [isDeclaration, (isName_iff _).2 h1, (typed_iff _).2 h2]
    | typeIs h1 h2 => simp [isDeclaration, (isName_iff _).2 h1, (isType_iff _).2 h2]

theorem isBlock_iff (ks : List Kind) : isBlock ks = true ↔ BlockKinds ks := by
  constructor
  · intro h
    unfold isBlock at h
    split at h
    · exact .plain
    · simp only [Bool.or_eq_true, Bool.and_eq_true, beq_iff_eq, List.isEmpty_iff, isExpression_iff] at h
      rcases h with (⟨rfl | rfl, rfl⟩ | ⟨rfl | rfl, h⟩) | ⟨rfl, h⟩
      · exact .loop
      · exact .unsafeIs
      · exact .ifIs h
      · exact .whileIs h
      · split at h
        · simp only [Bool.and_eq_true, beq_iff_eq, isName_iff, isExpression_iff] at h
          obtain ⟨⟨h1, rfl⟩, h2⟩ := h
          exact .forIs h1 h2
        · cases h
    · cases h
  · intro h
    cases h with
    | plain => rfl
    | loop => rfl
    | unsafeIs => rfl
    | ifIs h => simp [isBlock, (isExpression_iff _).2 h]
    | whileIs h => simp [isBlock, (isExpression_iff _).2 h]
    | forIs h1 h2 => simp [isBlock, (isName_iff _).2 h1, (isExpression_iff _).2 h2]

/-- The kinds of tokens in an expression: those of values, commas and parentheses -/
def InExpression (k : Kind) : Prop := InValue k ∨ k = .sign ',' ∨ k = .sign '(' ∨ k = .sign ')'

theorem call_kinds {ks : List Kind} (h : CallKinds ks) : ∀ k ∈ ks, InExpression k := by
  cases h with
  | call h1 h2 =>
    intro k hk
    rcases List.mem_append.1 hk with hk | hk
    · exact .inl (chain_kinds h1 k hk)
    · rcases List.mem_cons.1 hk with rfl | hk
      · exact .inr (.inr (.inl rfl))
      · rcases List.mem_append.1 hk with hk | hk
        · exact listed_all (Q := InExpression) (fun ks h k hk => .inl (atom_kinds h k hk)) (.inr (.inl rfl)) h2 k hk
        · rw [List.mem_singleton] at hk
          exact .inr (.inr (.inr hk))

theorem expression_kinds {ks : List Kind} (h : ExpressionKinds ks) : ∀ k ∈ ks, InExpression k := by
  rcases h with h | h
  · exact fun k hk => .inl (atom_kinds h k hk)
  · exact call_kinds h

theorem expression_sign {k : Kind} (h : InExpression k) {c : Char} (hc : c ∉ c!"&.<>,()") : k ≠ .sign c := by
  rcases h with h | h | h | h
  · exact value_sign h fun h' => hc ((by decide : ∀ c ∈ c!"&.<>", c ∈ c!"&.<>,()") _ h')
  · rw [h]; intro e; cases e; exact hc (by decide)
  · rw [h]; intro e; cases e; exact hc (by decide)
  · rw [h]; intro e; cases e; exact hc (by decide)

theorem cons_end {k : Kind} {ks : List Kind} {c : Char} (h1 : k ≠ .sign c) (h2 : ∀ l ∈ ks, l ≠ .sign c) :
    ∀ l ∈ k :: ks, l ≠ .sign c := by
  intro l hl
  rcases List.mem_cons.1 hl with rfl | hl
  · exact h1
  · exact h2 l hl

theorem expression_end {ks : List Kind} (h : ExpressionKinds ks) {c : Char} (hc : c ∉ c!"&.<>,()") : ∀ k ∈ ks, k ≠ .sign c :=
  fun k hk => expression_sign (expression_kinds h k hk) hc

/-- Signs that are not in statements and declarations -/
theorem end_signs {c : Char} (hc : c ∈ c!";!}{") :
    c ∉ c!"&.<>,()" ∧ c ∉ c!"&.<>" ∧ Kind.sign '=' ≠ .sign c ∧ Kind.sign ':' ≠ .sign c := by
  revert c
  decide

theorem typed_end {ks : List Kind} (h : TypedKinds ks) {c : Char} (hc : c ∈ c!";!}{") : ∀ k ∈ ks, k ≠ .sign c := by
  obtain ⟨n1, n2, n3, n4⟩ := end_signs hc
  cases h with
  | typed h1 h2 =>
    refine cons_end n4 fun k hk => ?_
    rcases List.mem_append.1 hk with hk | hk
    · exact value_sign (type_kinds h1 k hk) n2
    · exact cons_end n3 (expression_end h2 n1) k hk

theorem valued_end {ks : List Kind} (h : ValuedKinds ks) {c : Char} (hc : c ∈ c!";!}{") : ∀ k ∈ ks, k ≠ .sign c := by
  obtain ⟨n1, n2, n3, n4⟩ := end_signs hc
  cases h with
  | plain h => exact cons_end n3 (expression_end h n1)
  | typed h => exact typed_end h hc

theorem plain_end {ks : List Kind} (h : PlainKinds ks) {c : Char} (hc : c ∈ c!";!}{") : ∀ k ∈ ks, k ≠ .sign c := by
  obtain ⟨n1, n2, n3, n4⟩ := end_signs hc
  cases h with
  | call h => exact fun k hk => expression_sign (call_kinds h k hk) n1
  | letIs _ h => exact cons_end (by simp) (cons_end (by simp) (valued_end h hc))
  | letMut _ h => exact cons_end (by simp) (cons_end (by simp) (cons_end (by simp) (valued_end h hc)))
  | assign h1 h2 =>
    intro k hk
    rcases List.mem_append.1 hk with hk | hk
    · exact value_sign (chain_kinds h1 k hk) n2
    · exact cons_end n3 (expression_end h2 n1) k hk
  | returns => exact cons_end (by simp) nofun
  | returnIs h => exact cons_end (by simp) (expression_end h n1)
  | breakIs => exact cons_end (by simp) nofun
  | continueIs => exact cons_end (by simp) nofun

theorem declaration_end {ks : List Kind} (h : DeclarationKinds ks) {c : Char} (hc : c ∈ c!";!}{") : ∀ k ∈ ks, k ≠ .sign c := by
  obtain ⟨n1, n2, n3, n4⟩ := end_signs hc
  cases h with
  | useIs h => exact cons_end (by simp) fun k hk => path_sign (use_kinds h k hk) _
  | structIs _ => exact cons_end (by simp) (cons_end (by simp) nofun)
  | constIs _ h => exact cons_end (by simp) (cons_end (by simp) (typed_end h hc))
  | staticIs _ h => exact cons_end (by simp) (cons_end (by simp) (typed_end h hc))
  | typeIs _ h =>
    exact cons_end (by simp) (cons_end (by simp) (cons_end n3 fun k hk => value_sign (type_kinds h k hk) n2))

theorem block_end {ks : List Kind} (h : BlockKinds ks) : ∀ k ∈ ks, k ≠ .sign '{' := by
  cases h with
  | plain => nofun
  | loop => exact cons_end (by simp) nofun
  | unsafeIs => exact cons_end (by simp) nofun
  | ifIs h => exact cons_end (by simp) (expression_end h (by decide))
  | whileIs h => exact cons_end (by simp) (expression_end h (by decide))
  | forIs _ h => exact cons_end (by simp) (cons_end (by simp) (cons_end (by simp) (expression_end h (by decide))))

/-! ## Functions -/

theorem isParameter_iff (ks : List Kind) : isParameter ks = true ↔ ParameterKinds ks := by
  constructor
  · intro h
    unfold isParameter at h
    split at h
    · rw [Bool.and_eq_true, isName_iff, isType_iff] at h
      exact .typed h.1 h.2
    · cases h
  · intro h
    cases h with
    | typed h1 h2 => simp [isParameter, (isName_iff _).2 h1, (isType_iff _).2 h2]

/-- The kinds of tokens in parameters -/
def InParameter (k : Kind) : Prop := InValue k ∨ k = .sign ':' ∨ k = .sign ','

theorem parameter_kinds {ks : List Kind} (h : ParameterKinds ks) : ∀ k ∈ ks, InValue k ∨ k = .sign ':' := by
  cases h with
  | typed h1 h2 =>
    intro k hk
    simp only [List.mem_cons] at hk
    rcases hk with rfl | rfl | hk
    · exact .inl (.inl (.inl ⟨_, rfl⟩))
    · exact .inr rfl
    · exact .inl (type_kinds h2 k hk)

theorem parameter_comma (ks : List Kind) (h : ParameterKinds ks) : ∀ k ∈ ks, k ≠ .sign ',' := by
  intro k hk
  rcases parameter_kinds h k hk with h | h
  · exact value_sign h (by decide)
  · rw [h]; decide

theorem isField_iff (ks : List Kind) : isField ks = true ↔ FieldKinds ks := by
  constructor
  · intro h
    unfold isField at h
    split at h
    · rw [isParameter_iff] at h
      split at h
      · rename_i e
        rw [e]
        exact .visible h
      · exact .hidden h
    · cases h
  · intro h
    cases h with
    | visible h =>
      rw [isField, if_pos rfl]
      exact (isParameter_iff _).2 h
    | hidden h =>
      have h' := h
      cases h with
      | typed h1 h2 =>
        rw [isField, if_neg (nameWord_ne h1 (by decide))]
        exact (isParameter_iff _).2 h'

theorem isVariant_iff (ks : List Kind) : isVariant ks = true ↔ VariantKinds ks := by
  constructor
  · intro h
    unfold isVariant at h
    split at h
    · exact .name ((isName_iff _).1 h)
    · cases h
  · rintro ⟨h⟩
    exact (isName_iff _).2 h

/-- The tokens of fields and variants -/
def InMember (k : Kind) : Prop := InValue k ∨ k = .sign ':'

theorem field_kinds {ks : List Kind} (h : FieldKinds ks) : ∀ k ∈ ks, InMember k := by
  cases h with
  | hidden h => exact parameter_kinds h
  | visible h =>
    intro k hk
    rcases List.mem_cons.1 hk with rfl | hk
    · exact .inl (.inl (.inl ⟨_, rfl⟩))
    · exact parameter_kinds h k hk

theorem variant_kinds {ks : List Kind} (h : VariantKinds ks) : ∀ k ∈ ks, InMember k := by
  cases h
  intro k hk
  exact .inl (.inl (.inl ⟨_, List.mem_singleton.1 hk⟩))

theorem member_sign {k : Kind} (h : InMember k) {c : Char} (hc : c ∉ c!"&.<>:") : k ≠ .sign c := by
  rcases h with h | h
  · exact value_sign h fun h => hc (List.mem_append_left [':'] h)
  · rintro rfl
    cases h
    exact hc (by decide)

theorem isMembers_iff {p : List Kind → Bool} {P : List Kind → Prop} (hp : ∀ ks, p ks = true ↔ P ks)
    (hc : ∀ ks, P ks → ∀ k ∈ ks, k ≠ .sign ',') (ks : List Kind) : isMembers p ks = true ↔ Members P ks := by
  rw [isMembers, Bool.or_eq_true, listed_iff hp hc, Bool.and_eq_true, beq_iff_eq,
    separated_iff hp hc _ ks.dropLast (by rw [List.length_dropLast]; omega)]
  constructor
  · rintro (h | ⟨h1, h2⟩)
    · exact .list h
    · obtain ⟨ls, rfl⟩ := List.getLast?_eq_some_iff.1 h1
      rw [List.dropLast_concat] at h2
      exact .comma h2
  · intro h
    cases h with
    | list h => exact .inl h
    | comma h => exact .inr ⟨List.getLast?_concat, by rwa [List.dropLast_concat]⟩

theorem isRecord_iff (ks : List Kind) : isRecord ks = true ↔ RecordKinds ks := by
  have hf := isMembers_iff isField_iff fun ks h k hk => member_sign (field_kinds h k hk) (by decide)
  have hv := isMembers_iff isVariant_iff fun ks h k hk => member_sign (variant_kinds h k hk) (by decide)
  constructor
  · intro h
    unfold isRecord at h
    split at h
    · simp only [Bool.and_eq_true, Bool.or_eq_true, beq_iff_eq, isName_iff, hf, hv] at h
      rcases h with ⟨h1, ⟨rfl, h2⟩ | ⟨rfl, h2⟩⟩
      · exact .structIs h1 h2
      · exact .enumIs h1 h2
    · cases h
  · intro h
    cases h with
    | structIs h1 h2 => simp [isRecord, (isName_iff _).2 h1, (hf _).2 h2]
    | enumIs h1 h2 => simp [isRecord, (isName_iff _).2 h1, (hv _).2 h2]

theorem separated_kinds {P : List Kind → Prop} {Q : Kind → Prop} (hP : ∀ ks, P ks → ∀ k ∈ ks, Q k) {ks : List Kind}
    (h : Separated P ks) : ∀ k ∈ ks, Q k ∨ k = .sign ',' := by
  induction h with
  | one h => exact fun k hk => .inl (hP _ h k hk)
  | more h _ ih =>
    intro k hk
    rcases List.mem_append.1 hk with hk | hk
    · exact .inl (hP _ h k hk)
    · rcases List.mem_cons.1 hk with hk | hk
      · exact .inr hk
      · exact ih k hk

theorem members_kinds {P : List Kind → Prop} {Q : Kind → Prop} (hP : ∀ ks, P ks → ∀ k ∈ ks, Q k) {ks : List Kind}
    (h : Members P ks) : ∀ k ∈ ks, Q k ∨ k = .sign ',' := by
  cases h with
  | list h =>
    rcases h with rfl | h
    · nofun
    · exact separated_kinds hP h
  | comma h =>
    intro k hk
    rcases List.mem_append.1 hk with hk | hk
    · exact separated_kinds hP h k hk
    · exact .inr (List.mem_singleton.1 hk)

theorem isGeneric_iff (ks : List Kind) : isGeneric ks = true ↔ GenericKinds ks := by
  constructor
  · intro h
    unfold isGeneric at h
    split at h
    · exact .name ((isName_iff _).1 h)
    · rw [Bool.and_eq_true, isName_iff, isPath_iff] at h
      exact .bounded h.1 h.2
    · cases h
  · intro h
    cases h with
    | name h => exact (isName_iff _).2 h
    | bounded h1 h2 => simp [isGeneric, (isName_iff _).2 h1, (isPath_iff _).2 h2]

theorem generic_kinds {ks : List Kind} (h : GenericKinds ks) : ∀ k ∈ ks, InMember k := by
  cases h with
  | name h =>
    intro k hk
    exact .inl (.inl (.inl ⟨_, List.mem_singleton.1 hk⟩))
  | bounded h1 h2 =>
    intro k hk
    simp only [List.mem_cons] at hk
    rcases hk with rfl | rfl | hk
    · exact .inl (.inl (.inl ⟨_, rfl⟩))
    · exact .inr rfl
    · exact .inl (.inl (path_kinds h2 k hk))

theorem isGenerics_iff (ks : List Kind) : isGenerics ks = true ↔ GenericsKinds ks := by
  have hs := fun (ls : List Kind) (n : Nat) => separated_iff isGeneric_iff
    (fun _ h k hk => member_sign (generic_kinds h k hk) (by decide)) n ls
  constructor
  · intro h
    unfold isGenerics at h
    split at h
    · exact .nothing
    · rename_i ks
      rw [Bool.and_eq_true, beq_iff_eq, hs _ _ (by rw [List.length_dropLast]; omega)] at h
      obtain ⟨ls, rfl⟩ := List.getLast?_eq_some_iff.1 h.1
      rw [List.dropLast_concat] at h
      exact .list h.2
    · cases h
  · intro h
    cases h with
    | nothing => rfl
    | list h =>
      rw [isGenerics, List.getLast?_concat, List.dropLast_concat, (hs _ _ (by simp; omega)).2 h]
      rfl

theorem generics_end {ks : List Kind} (h : GenericsKinds ks) : ∀ k ∈ ks, k ≠ .sign '(' := by
  cases h with
  | nothing => nofun
  | list h =>
    refine cons_end (by decide) fun k hk => ?_
    rcases List.mem_append.1 hk with hk | hk
    · rcases separated_kinds (fun _ => generic_kinds) h k hk with hk | rfl
      · exact member_sign hk (by decide)
      · decide
    · rw [List.mem_singleton.1 hk]
      decide

theorem record_end {ks : List Kind} (h : RecordKinds ks) : ∀ k ∈ ks, k ≠ .sign '}' := by
  have member : ∀ k : Kind, InMember k ∨ k = .sign ',' → k ≠ .sign '}' := by
    rintro k (h | rfl)
    · exact member_sign h (by decide)
    · decide
  cases h with
  | structIs _ h =>
    exact cons_end (by simp) (cons_end (by simp) (cons_end (by decide) fun k hk =>
      member k (members_kinds (fun _ => field_kinds) h k hk)))
  | enumIs _ h =>
    exact cons_end (by simp) (cons_end (by simp) (cons_end (by decide) fun k hk =>
      member k (members_kinds (fun _ => variant_kinds) h k hk)))

theorem isReceiver_iff (ks : List Kind) : isReceiver ks = true ↔ ReceiverKinds ks := by
  rw [isReceiver, decide_eq_true_iff]
  simp only [List.mem_cons, List.not_mem_nil, or_false]
  constructor
  · rintro (rfl | rfl | rfl)
    · exact .value
    · exact .shared
    · exact .exclusive
  · intro h
    cases h with
    | value => exact .inl rfl
    | shared => exact .inr (.inl rfl)
    | exclusive => exact .inr (.inr rfl)

theorem receiver_kinds {ks : List Kind} (h : ReceiverKinds ks) : ∀ k ∈ ks, InValue k := by
  intro k hk
  cases h with
  | value => rw [List.mem_singleton] at hk; exact .inl (.inl ⟨_, hk⟩)
  | shared =>
    simp only [List.mem_cons, List.not_mem_nil, or_false] at hk
    rcases hk with hk | hk
    · exact .inr (.inl hk)
    · exact .inl (.inl ⟨_, hk⟩)
  | exclusive =>
    simp only [List.mem_cons, List.not_mem_nil, or_false] at hk
    rcases hk with hk | hk | hk
    · exact .inr (.inl hk)
    · exact .inl (.inl ⟨_, hk⟩)
    · exact .inl (.inl ⟨_, hk⟩)

theorem isMethods_iff (place : Place) : place.isMethods = true ↔ place = .methods ∨ place = .traitMethods := by
  cases place <;> simp [Place.isMethods]

theorem isParameters_iff (place : Place) (ks : List Kind) : isParameters place ks = true ↔ ParametersKinds place ks := by
  have hs : ∀ ks : List Kind, separated isParameter (ks.length + 1) ks = true ↔ Separated ParameterKinds ks := fun ks =>
    separated_iff isParameter_iff parameter_comma _ ks (Nat.lt_succ_self _)
  unfold isParameters
  rw [Bool.or_eq_true, listed_iff isParameter_iff parameter_comma, Bool.and_eq_true, Bool.and_eq_true, isMethods_iff,
    isReceiver_iff]
  constructor
  · rintro (h | ⟨⟨h1, h2⟩, h3⟩)
    · exact .plain h
    · split at h3
      · rename_i hd
        have := List.takeWhile_append_dropWhile (p := fun k => !isComma k) (l := ks)
        rw [hd, List.append_nil] at this
        rw [this] at h2
        exact .receiver h1 h2
      · rename_i k ls hd
        obtain ⟨e, hk⟩ := dropWhile_cons_eq hd
        have hk' : k = .sign ',' := by simpa [isComma] using hk
        subst hk'
        rw [e]
        exact .receiverAnd h1 h2 ((hs _).1 h3)
  · intro h
    have hr : ∀ {rs}, ReceiverKinds rs → ∀ k ∈ rs, (!isComma k) = true := fun h k hk =>
      isComma_false (value_sign (receiver_kinds h k hk) (by decide))
    cases h with
    | plain h => exact .inl h
    | receiver h1 h2 =>
      obtain ⟨e1, e2⟩ := span_all (p := fun k => !isComma k) (hr h2)
      rw [e1, e2]
      exact .inr ⟨⟨h1, h2⟩, rfl⟩
    | @receiverAnd rs ls h1 h2 h3 =>
      obtain ⟨e1, e2⟩ := span_split (p := fun k => !isComma k) (bs := ls) (b := .sign ',') (hr h2) (by decide)
      rw [e1, e2]
      exact .inr ⟨⟨h1, h2⟩, (hs _).2 h3⟩

theorem parameters_end {place : Place} {ks : List Kind} (h : ParametersKinds place ks) : ∀ k ∈ ks, k ≠ .sign ')' := by
  have hp : ∀ ks, ParameterKinds ks → ∀ k ∈ ks, k ≠ .sign ')' := by
    intro ks h k hk
    rcases parameter_kinds h k hk with h | h
    · exact value_sign h (by decide)
    · rw [h]; decide
  have hr : ∀ {ks}, ReceiverKinds ks → ∀ k ∈ ks, k ≠ .sign ')' := fun h k hk => value_sign (receiver_kinds h k hk) (by decide)
  cases h with
  | plain h => exact listed_all hp (by decide) h
  | receiver _ h => exact hr h
  | receiverAnd _ h1 h2 =>
    intro k hk
    rcases List.mem_append.1 hk with hk | hk
    · exact hr h1 k hk
    · rcases List.mem_cons.1 hk with rfl | hk
      · decide
      · exact separated_all (Q := fun k => k ≠ .sign ')') hp (by decide) h2 k hk

theorem isResult_iff (ks : List Kind) : isResult ks = true ↔ ResultKinds ks := by
  constructor
  · intro h
    unfold isResult at h
    split at h
    · exact .nothing
    · rw [Bool.and_eq_true, beq_iff_eq, isType_iff] at h
      obtain ⟨rfl, h⟩ := h
      exact .type h
    · cases h
  · intro h
    cases h with
    | nothing => rfl
    | type h => simp [isResult, (isType_iff _).2 h]

theorem result_end {ks : List Kind} (h : ResultKinds ks) : ∀ k ∈ ks, k ≠ .sign '{' := by
  cases h with
  | nothing => intro k hk; cases hk
  | type h =>
    intro k hk
    rcases List.mem_cons.1 hk with rfl | hk
    · simp
    · exact value_sign (type_kinds h k hk) (by decide)

/-! ## Attributes -/

theorem isArgument_iff (k : Kind) : isArgument k = true ↔ ArgumentKind k := by
  cases k with
  | word s => simp [isArgument, isBracket, ArgumentKind]
  | text s => simp [isArgument, isBracket, ArgumentKind]
  | sign c => simp [isArgument, isBracket, ArgumentKind]
  | joint s => simp [isArgument, ArgumentKind]
  | doc s => simp [isArgument, ArgumentKind]

theorem argument_ne {k : Kind} (h : ArgumentKind k) {c : Char} (hc : c ∈ c!"(){}[]") : k ≠ .sign c := by
  rintro rfl
  rcases h with ⟨s, h⟩ | ⟨s, h⟩ | ⟨d, h, hd⟩
  · cases h
  · cases h
  · cases h; exact hd hc

theorem isMeta_iff (ks : List Kind) : isMeta ks = true ↔ MetaKinds ks := by
  unfold isMeta
  constructor
  · intro h
    rw [Bool.or_eq_true, Bool.or_eq_true, Bool.and_eq_true, Bool.and_eq_true] at h
    rcases h with (h | ⟨h1, h2⟩) | ⟨h1, h2⟩
    · exact .path ((isPath_iff _).1 h)
    · split at h2
      · rename_i k s hd
        obtain ⟨e, hk⟩ := dropWhile_cons_eq hd
        have hk' : k = .sign '=' := by simpa using hk
        subst hk'
        rw [e]
        exact .value ((isPath_iff _).1 h1)
      · cases h2
    · split at h2
      · rename_i k ls hd
        obtain ⟨e, hk⟩ := dropWhile_cons_eq hd
        have hk' : k = .sign '(' := by simpa using hk
        subst hk'
        rw [beq_iff_eq] at h2
        rw [e, (dropWhile_cons_eq h2).1]
        exact .list ((isPath_iff _).1 h1) fun k hk => (isArgument_iff k).1 (List.all_eq_true.1 List.all_takeWhile k hk)
      · cases h2
  · intro h
    have hs : ∀ {ks : List Kind} (c : Char), PathKinds ks → ∀ k ∈ ks, (fun k : Kind => k != .sign c) k = true :=
      fun c h k hk => by simpa using path_sign (path_kinds h k hk) c
    cases h with
    | path h => simp [(isPath_iff _).2 h]
    | @value ks s h =>
      obtain ⟨e1, e2⟩ := span_split (p := fun k : Kind => k != .sign '=') (bs := [.text s]) (b := .sign '=') (hs '=' h) (by decide)
      rw [e1, e2, (isPath_iff _).2 h]
      simp
    | @list ks as h ha =>
      obtain ⟨e1, e2⟩ := span_split (p := fun k : Kind => k != .sign '(') (bs := as ++ [.sign ')']) (b := .sign '(')
        (hs '(' h) (by decide)
      obtain ⟨_, e4⟩ := span_split (p := isArgument) (as := as) (bs := []) (b := .sign ')')
        (fun k hk => (isArgument_iff k).2 (ha k hk)) (by decide)
      rw [e1, e2, (isPath_iff _).2 h]
      simp only [e4, beq_self_eq_true, Bool.and_self, Bool.or_true]

theorem meta_end {ks : List Kind} (h : MetaKinds ks) : ∀ k ∈ ks, k ≠ .sign ']' := by
  cases h with
  | path h => exact fun k hk => path_sign (path_kinds h k hk) _
  | value h =>
    intro k hk
    simp only [List.mem_append, List.mem_cons, List.not_mem_nil, or_false] at hk
    rcases hk with hk | rfl | rfl
    · exact path_sign (path_kinds h k hk) _
    · decide
    · simp
  | list h ha =>
    intro k hk
    simp only [List.mem_append, List.mem_cons, List.not_mem_nil, or_false] at hk
    rcases hk with hk | rfl | hk | rfl
    · exact path_sign (path_kinds h k hk) _
    · decide
    · exact argument_ne (ha k hk) (by decide)
    · decide

end RustText

end Reqtrace
