import Verif.Regex
import Verif.Spec.Chars

/-!
# C121: white space and numbers
-/

namespace Reqtrace

open Spec

/-- **C121** What the parsers take as white space is White_Space of Unicode. -/
theorem C121_white_space (c : Char) : isWs c = true ↔ c.toNat ∈ whiteSpace := by
  unfold isWs whiteSpace
  simp only [Bool.or_eq_true, Bool.and_eq_true, decide_eq_true_eq, beq_iff_eq, List.mem_cons, List.not_mem_nil, or_false]
  omega

/-- **C121** So is what `\s` takes in patterns: one character of white space at a place, and there is such a place in a text
if and only if it has white space. -/
theorem C121_patterns :
    (∀ (start : Bool) (c : Char) (t : Str) (gs : List (Nat × Str)), c.toNat ∈ whiteSpace →
      Re.ws.run ⟨start, c :: t, gs⟩ some = some ⟨false, t, gs⟩) ∧
    (∀ (start : Bool) (c : Char) (t : Str) (gs : List (Nat × Str)), c.toNat ∉ whiteSpace →
      Re.ws.run ⟨start, c :: t, gs⟩ some = none) ∧
    (∀ (start : Bool) (gs : List (Nat × Str)), Re.ws.run ⟨start, [], gs⟩ some = none) ∧
    ∀ text : Str, Re.ws.isMatch text = true ↔ ∃ c ∈ text, c.toNat ∈ whiteSpace := by
  refine ⟨fun start c t gs h => ?_, fun start c t gs h => ?_, fun start gs => rfl, fun text => ?_⟩
  · simp only [Re.ws, Re.run, (C121_white_space c).2 h, if_true]
  · have h : isWs c = false := by rw [← Bool.not_eq_true, C121_white_space]; exact h
    simp [Re.ws, Re.run, h]
  · have key : ∀ (text : Str) (start : Bool), (searchFrom Re.ws start text).isSome = true ↔ ∃ c ∈ text, isWs c = true := by
      intro text
      induction text with
      | nil => intro start; simp [searchFrom, Re.ws, Re.run]
      | cons c t ih =>
        intro start
        rw [searchFrom, Option.isSome_or, Bool.or_eq_true, ih]
        simp only [Re.ws, Re.run, List.mem_cons, exists_eq_or_imp]
        refine or_congr ?_ Iff.rfl
        cases isWs c <;> simp
    rw [Re.isMatch, Re.captures, key]
    simp only [C121_white_space]

example : Re.ws.isMatch c!"a b" = true ∧ Re.ws.isMatch [Char.ofNat 0x2029] = true ∧ Re.ws.isMatch c!"ab" = false := by
  decide +kernel

/-- **C121** Nothing but white space is taken off a text, at both ends. -/
theorem C121_trim (s : Str) : ∃ a b, s = a ++ trim s ++ b ∧ (∀ c ∈ a, c.toNat ∈ whiteSpace) ∧ (∀ c ∈ b, c.toNat ∈ whiteSpace) ∧
    (∀ c, (trim s).head? = some c → c.toNat ∉ whiteSpace) ∧ (∀ c, (trim s).getLast? = some c → c.toNat ∉ whiteSpace) := by
  have hdrop : ∀ (l : Str) c, (l.dropWhile isWs).head? = some c → isWs c = false := by
    intro l
    induction l with
    | nil => intro c h; cases h
    | cons a l ih =>
      intro c h
      rw [List.dropWhile_cons] at h
      split at h
      · exact ih c h
      · cases h; simpa using ‹¬ isWs a = true›
  have htake : ∀ (l : Str), ∀ c ∈ l.takeWhile isWs, isWs c = true := fun l c h => by
    have := List.all_takeWhile (l := l) (p := isWs)
    exact List.all_eq_true.1 this c h
  have hno : ∀ c, isWs c = false → c.toNat ∉ whiteSpace := fun c h h' => by
    rw [(C121_white_space c).2 h'] at h; cases h
  refine ⟨s.takeWhile isWs, ((trimStart s).reverse.takeWhile isWs).reverse, ?_, ?_, ?_, ?_, ?_⟩
  · have h1 : s = s.takeWhile isWs ++ trimStart s := (List.takeWhile_append_dropWhile ..).symm
    have h2 : trimStart s = trim s ++ ((trimStart s).reverse.takeWhile isWs).reverse := by
      unfold trim trimEnd
      rw [← List.reverse_append, List.takeWhile_append_dropWhile, List.reverse_reverse]
    rw [List.append_assoc, ← h2]
    exact h1
  · exact fun c h => (C121_white_space c).1 (htake s c h)
  · exact fun c h => (C121_white_space c).1 (htake _ c (List.mem_reverse.1 h))
  · intro c h
    refine hno c (hdrop s c ?_)
    have h2 : trimStart s = trim s ++ ((trimStart s).reverse.takeWhile isWs).reverse := by
      unfold trim trimEnd
      rw [← List.reverse_append, List.takeWhile_append_dropWhile, List.reverse_reverse]
    show (trimStart s).head? = some c
    rw [h2, List.head?_append, h]
    rfl
  · intro c h
    refine hno c (hdrop (trimStart s).reverse c ?_)
    unfold trim trimEnd at h
    rw [List.getLast?_reverse] at h
    exact h

/-- **C121** Numbers are written in decimal notation. -/
theorem C121_decimal (n : Nat) : Decimal (natStr n) n := by
  unfold Decimal natStr
  have hd : ∀ d, d < 10 → d.digitChar ∈ c!"0123456789" ∧ d.digitChar.toNat - '0'.toNat = d ∧ (d.digitChar = '0' → d = 0) := by
    intro d hd
    have : ∀ d : Fin 10, (d : Nat).digitChar ∈ c!"0123456789" ∧ (d : Nat).digitChar.toNat - '0'.toNat = d ∧
      ((d : Nat).digitChar = '0' → (d : Nat) = 0) := by decide
    exact this ⟨d, hd⟩
  induction n using Nat.strongRecOn with
  | _ n ih =>
    rw [Nat.toDigits_eq_if (by decide)]
    split
    · rename_i hn
      obtain ⟨h1, h2, h3⟩ := hd n hn
      refine ⟨by simp, by simpa using h1, by simpa using h2, fun h => ?_⟩
      have := h3 (Option.some.inj h)
      subst this
      rfl
    · obtain ⟨h1, h2, h3, h4⟩ := ih (n / 10) (by omega)
      obtain ⟨h5, h6, h7⟩ := hd (n % 10) (Nat.mod_lt _ (by decide))
      refine ⟨by simp, ?_, ?_, ?_⟩
      · intro c hc
        rcases List.mem_append.1 hc with hc | hc
        · exact h2 c hc
        · cases List.mem_singleton.1 hc; exact h5
      · rw [List.foldl_append, h3]
        show 10 * (n / 10) + _ = n
        rw [h6]
        omega
      · intro h
        rw [List.head?_append, Option.or_of_isSome (by simpa [Option.isSome_iff_ne_none] using h1)] at h
        have := h4 h
        rw [this] at h3
        have : n / 10 = 0 := h3.symm
        omega

/-- **C121** A number has one notation, and a notation one number. -/
theorem C121_one {s : Str} {n : Nat} (h : Decimal s n) : s = natStr n := by
  have hd : ∀ c ∈ c!"0123456789", (c.toNat - '0'.toNat).digitChar = c ∧ c.toNat - '0'.toNat < 10 := by decide
  have key : ∀ (k : Nat) (s : Str) (n : Nat), s.length = k → Decimal s n → s = natStr n := by
    intro k
    induction k with
    | zero => intro s n hk h; exact absurd (List.length_eq_zero_iff.1 hk) h.1
    | succ k ih =>
      intro s n hk h
      obtain ⟨h1, h2, h3, h4⟩ := h
      have hs := List.dropLast_concat_getLast h1
      generalize s.dropLast = a at hs
      generalize s.getLast h1 = c at hs
      subst hs
      rw [List.foldl_append] at h3
      simp only [List.foldl_cons, List.foldl_nil] at h3
      obtain ⟨h5, h6⟩ := hd c (h2 c (by simp))
      cases a with
      | nil =>
        simp only [List.foldl_nil, Nat.mul_zero, Nat.zero_add] at h3
        subst h3
        unfold natStr
        rw [Nat.toDigits_of_lt_base h6, h5]
        rfl
      | cons x a =>
        have hx : x ≠ '0' := fun h => by
          have := h4 (by rw [h]; rfl)
          have := congrArg List.length this
          simp at this
        have h7 := ih (x :: a) _ (by simpa using hk) ⟨by simp, fun y hy => h2 y (List.mem_append_left _ hy), rfl, fun h => absurd (Option.some.inj h) hx⟩
        have hne : (x :: a).foldl (fun v c => 10 * v + (c.toNat - '0'.toNat)) 0 ≠ 0 := by
          intro h0
          rw [h0] at h7
          exact hx (List.cons.inj h7).1
        generalize (x :: a).foldl (fun v c => 10 * v + (c.toNat - '0'.toNat)) 0 = v at h3 h7 hne
        have hn : n / 10 = v ∧ n % 10 = c.toNat - '0'.toNat := by omega
        unfold natStr at h7 ⊢
        rw [Nat.toDigits_eq_if (by decide), if_neg (by omega), hn.1, hn.2, h5, h7]
  exact key _ s n rfl h

example : isWs (Char.ofNat 0x2029) = true ∧ isWs (Char.ofNat 0x200B) = false ∧ Decimal c!"1050" 1050 ∧ ¬ Decimal c!"01" 1 ∧
    trim c!" \t a b\r\n" = c!"a b" := by
  refine ⟨by decide, by decide, C121_decimal 1050, fun h => absurd (h.2.2.2 rfl) (by decide), by decide⟩

/-- **C121** The places that are made of a line, a line and a column, or a text. -/
theorem C121_places (file : Path) (l c : Nat) (s : Str) :
    Location.newWithNoPos file = ⟨file, none⟩ ∧ Location.newWithLineNo file l = ⟨file, some (.line l)⟩ ∧
    Location.newWithLineAndColumn file l c = ⟨file, some (.lineAndColumn l c)⟩ ∧
    Location.newWithStr file s = ⟨file, some (.string s)⟩ := ⟨rfl, rfl, rfl, rfl⟩

end Reqtrace
