import Verif.Lemmas.MdRegex
import Verif.Reader

/-!
# Lemmas about reading text from a file
-/

namespace Reqtrace

namespace Utf8

theorem newline_mem_encodeChar (c : Char) (h : (10 : UInt8) ∈ encodeChar c) : c = '\n' := by
  have hc := char_range c
  have key : ∀ n, n < 256 → (10 : UInt8) = byte n → n = 10 := by
    intro n hn h
    have := congrArg UInt8.toNat h
    rw [byte_toNat hn] at this
    exact this.symm
  have hten : c.toNat = 10 := by
    unfold encodeChar at h
    generalize hn : c.toNat = n at *
    dsimp only at h
    split at h
    · simp only [List.mem_singleton] at h
      exact key n (by omega) h
    split at h
    · simp only [List.mem_cons, List.not_mem_nil, or_false] at h
      rcases h with h | h <;> have := key _ (by omega) h <;> omega
    split at h
    · simp only [List.mem_cons, List.not_mem_nil, or_false] at h
      rcases h with h | h | h <;> have := key _ (by omega) h <;> omega
    · simp only [List.mem_cons, List.not_mem_nil, or_false] at h
      rcases h with h | h | h | h <;> have := key _ (by omega) h <;> omega
  have := Char.ofNat_toNat c
  rw [hten] at this
  exact this.symm

theorem encode_cons (c : Char) (s : Str) : encode (c :: s) = encodeChar c ++ encode s := rfl

theorem encode_nil : encode [] = [] := rfl

theorem encode_flatten (ls : List Str) : encode ls.flatten = (ls.map encode).flatten := by
  induction ls with
  | nil => rfl
  | cons l ls ih => simp [encode_append, ih]

theorem encode_eq_nil {s : Str} : encode s = [] ↔ s = [] := by
  constructor
  · intro h; exact encode_injective (h.trans encode_nil.symm)
  · rintro rfl; rfl

end Utf8

open Utf8

/-- Bytes without a line feed before other bytes belong to their first line. -/
theorem byteLines_prefix (p bs : Bytes) (hp : (10 : UInt8) ∉ p) (hne : p ≠ []) :
    byteLines (p ++ bs) = match byteLines bs with
      | [] => [p]
      | l :: ls => (p ++ l) :: ls := by
  induction p with
  | nil => exact absurd rfl hne
  | cons b p ih =>
    simp only [List.mem_cons, not_or] at hp
    rw [List.cons_append, byteLines, if_neg (fun h => hp.1 h.symm)]
    by_cases hp0 : p = []
    · subst hp0
      rw [List.nil_append]
      cases byteLines bs <;> rfl
    · rw [ih hp.2 hp0]
      cases byteLines bs <;> rfl

theorem byteLines_encode (t : Str) : byteLines (encode t) = (splitLines t).map encode := by
  induction t with
  | nil => rfl
  | cons c t ih =>
    rw [encode_cons]
    by_cases hc : c = '\n'
    · subst hc
      have : encodeChar '\n' = [10] := by decide
      rw [this, List.cons_append, List.nil_append, byteLines, if_pos rfl, ih]
      simp [splitLines, encode, this]
    · rw [byteLines_prefix _ _ (fun h => hc (newline_mem_encodeChar c h)) (encodeChar_ne_nil c), ih, splitLines]
      simp only [beq_iff_eq, hc, if_false]
      cases splitLines t with
      | nil => simp [encode]
      | cons l ls => simp [encode]

theorem byteLines_spec (bs : Bytes) : (byteLines bs).flatten = bs ∧
    (∀ l ∈ byteLines bs, l ≠ []) ∧ (∀ l ∈ (byteLines bs).dropLast, l.getLast? = some 10) ∧
    ∀ l ∈ byteLines bs, (10 : UInt8) ∉ l.dropLast := by
  induction bs with
  | nil => simp [byteLines]
  | cons b bs ih =>
    obtain ⟨h1, h2, h3, h4⟩ := ih
    rw [byteLines]
    split
    · rename_i hb
      subst hb
      refine ⟨by simp [h1], ?_, ?_, ?_⟩
      · intro l hl
        rcases List.mem_cons.1 hl with rfl | hl
        · exact List.cons_ne_nil _ _
        · exact h2 l hl
      · intro l hl
        cases hq : byteLines bs with
        | nil => rw [hq] at hl; cases hl
        | cons x xs =>
          rw [hq, List.dropLast_cons_of_ne_nil (List.cons_ne_nil _ _)] at hl
          rcases List.mem_cons.1 hl with rfl | hl
          · rfl
          · exact h3 l (by rw [hq]; exact hl)
      · intro l hl
        rcases List.mem_cons.1 hl with rfl | hl
        · simp
        · exact h4 l hl
    · rename_i hb
      cases hq : byteLines bs with
      | nil =>
        rw [hq] at h1
        simp at h1; subst h1
        simp
      | cons x xs =>
        rw [hq] at h1 h2 h3 h4
        refine ⟨by simpa using h1, ?_, ?_, ?_⟩
        · intro l hl
          rcases List.mem_cons.1 hl with rfl | hl
          · exact List.cons_ne_nil _ _
          · exact h2 l (List.mem_cons_of_mem _ hl)
        · intro l hl
          cases xs with
          | nil => simp at hl
          | cons y ys =>
            rw [List.dropLast_cons_of_ne_nil (List.cons_ne_nil _ _)] at hl h3
            rcases List.mem_cons.1 hl with rfl | hl
            · have hx := h2 x List.mem_cons_self
              have := h3 x List.mem_cons_self
              rw [List.getLast?_cons_of_ne_nil hx]; exact this
            · exact h3 l (List.mem_cons_of_mem _ hl)
        · intro l hl
          rcases List.mem_cons.1 hl with rfl | hl
          · have hx := h2 x List.mem_cons_self
            rw [List.dropLast_cons_of_ne_nil hx]
            simp only [List.mem_cons, not_or]
            exact ⟨fun h => hb h.symm, h4 x List.mem_cons_self⟩
          · exact h4 l (List.mem_cons_of_mem _ hl)

theorem decodeLines_encode (failure : Option Str) (ls : List Str) :
    decodeLines failure (ls.map encode) = ⟨ls.flatten, failure⟩ := by
  induction ls with
  | nil => rfl
  | cons l ls ih => rw [List.map_cons, decodeLines, decode_encode]; simp [ih]

/-- All lines before one that is not text are delivered, then an error. -/
theorem decodeLines_invalid (failure : Option Str) (ls : List Str) (b : Bytes) (rest : List Bytes)
    (hb : decode b = none) :
    decodeLines failure (ls.map encode ++ b :: rest) = ⟨ls.flatten, some invalidUtf8⟩ := by
  induction ls with
  | nil => simp [decodeLines, hb]
  | cons l ls ih => rw [List.map_cons, List.cons_append, decodeLines, decode_encode]; simp [ih]

/-- Either all lines are text, or there is a first that is not. -/
theorem lines_cases (bs : List Bytes) : (∃ ls : List Str, bs = ls.map encode) ∨
    ∃ (ls : List Str) (b : Bytes) (rest : List Bytes), bs = ls.map encode ++ b :: rest ∧ decode b = none := by
  induction bs with
  | nil => exact .inl ⟨[], rfl⟩
  | cons b bs ih =>
    cases hb : decode b with
    | none => exact .inr ⟨[], b, bs, rfl, hb⟩
    | some t =>
      have := decode_some hb
      subst this
      rcases ih with ⟨ls, rfl⟩ | ⟨ls, x, rest, rfl, hx⟩
      · exact .inl ⟨t :: ls, rfl⟩
      · exact .inr ⟨t :: ls, x, rest, rfl, hx⟩

/-- Text in UTF-8 is read as it is, line by line. -/
theorem File.lines_encode (t : Str) : File.lines ⟨encode t, none⟩ = ⟨t, none⟩ := by
  simp only [File.lines]
  rw [byteLines_encode, decodeLines_encode, (splitLines_spec t).1]

/-- Text in UTF-8 is read as it is, as a whole. -/
theorem File.whole_encode (t : Str) : File.whole ⟨encode t, none⟩ = ⟨t, none⟩ := by
  simp only [File.whole, decode_encode]

/-- Reading as a whole succeeds exactly for text in UTF-8 that can be read to its end. -/
theorem File.whole_ok (f : File) (t : Str) : f.whole = ⟨t, none⟩ ↔ f = ⟨encode t, none⟩ := by
  constructor
  · intro h
    obtain ⟨b, e⟩ := f
    cases e with
    | some e => simp [File.whole] at h
    | none =>
      simp only [File.whole] at h
      split at h
      · rename_i s hs
        cases h
        rw [decode_some hs]
      · cases h
  · rintro rfl; exact File.whole_encode t

/-- So does reading line by line. -/
theorem File.lines_ok (f : File) (t : Str) : f.lines = ⟨t, none⟩ ↔ f = ⟨encode t, none⟩ := by
  constructor
  · intro h
    obtain ⟨b, e⟩ := f
    cases e with
    | some e =>
      simp only [File.lines] at h
      rcases lines_cases ((byteLines b).filter (fun l => l.getLast? == some 10)) with ⟨ls, hl⟩ | ⟨ls, x, r, hl, hx⟩
      · rw [hl, decodeLines_encode] at h; cases h
      · rw [hl, decodeLines_invalid _ _ _ _ hx] at h; cases h
    | none =>
      simp only [File.lines] at h
      rcases lines_cases (byteLines b) with ⟨ls, hl⟩ | ⟨ls, x, r, hl, hx⟩
      · rw [hl, decodeLines_encode] at h
        cases h
        rw [encode_flatten, ← hl, (byteLines_spec b).1]
      · rw [hl, decodeLines_invalid _ _ _ _ hx] at h; cases h
  · rintro rfl; exact File.lines_encode t

/-- Reading fails in both ways or in none. -/
theorem File.failure_iff (f : File) : f.lines.failure = none ↔ f.whole.failure = none := by
  constructor
  · intro h
    have : f.lines = ⟨f.lines.text, none⟩ := by rw [← h]
    rw [(File.whole_ok f _).2 ((File.lines_ok f _).1 this)]
  · intro h
    have : f.whole = ⟨f.whole.text, none⟩ := by rw [← h]
    rw [(File.lines_ok f _).2 ((File.whole_ok f _).1 this)]

/-- Lines that end with a line feed, followed by a line that is not text: the lines are delivered. -/
theorem byteLines_append (p q : Bytes) (h : p = [] ∨ p.getLast? = some 10) :
    byteLines (p ++ q) = byteLines p ++ byteLines q := by
  induction p with
  | nil => rfl
  | cons b p ih =>
    by_cases hp : p = []
    · subst hp
      have hb : b = 10 := by simpa using h
      subst hb
      simp [byteLines]
    · have hl : p.getLast? = some 10 := by
        rcases h with h | h
        · cases h
        · rw [List.getLast?_cons_of_ne_nil hp] at h; exact h
      have := ih (.inr hl)
      rw [List.cons_append, byteLines, byteLines, this]
      split
      · rfl
      · cases hq : byteLines p with
        | nil =>
          have := (byteLines_spec p).1
          rw [hq] at this
          exact absurd this.symm hp
        | cons l ls => rfl

theorem encode_whole {t : Str} (ht : t = [] ∨ t.getLast? = some '\n') :
    encode t = [] ∨ (encode t).getLast? = some 10 := by
  rcases ht with rfl | ht
  · exact .inl rfl
  · right
    obtain ⟨s, rfl⟩ : ∃ s, t = s ++ ['\n'] := by
      obtain ⟨s, hs⟩ := List.getLast?_eq_some_iff.1 ht
      exact ⟨s, hs⟩
    rw [encode_append, show encode ['\n'] = [10] from by decide]
    simp

/-- Whole lines all end with a line feed. -/
theorem filter_whole {t : Str} (ht : t = [] ∨ t.getLast? = some '\n') :
    ((splitLines t).map encode).filter (fun l => l.getLast? == some 10) = (splitLines t).map encode := by
  have henc := encode_whole ht
  rw [List.filter_eq_self]
  intro l hl
  rw [← byteLines_encode] at hl
  have hs := byteLines_spec (encode t)
  by_cases hd : l ∈ (byteLines (encode t)).dropLast
  · rw [hs.2.2.1 l hd]; rfl
  · have hne : byteLines (encode t) ≠ [] := List.ne_nil_of_mem hl
    have hlast : l = (byteLines (encode t)).getLast hne := by
      rw [← List.dropLast_concat_getLast hne] at hl
      rcases List.mem_append.1 hl with h | h
      · exact absurd h hd
      · simpa using h
    rcases henc with h0 | h0
    · rw [h0] at hne; exact absurd rfl hne
    · have hfl : (byteLines (encode t)).flatten.getLast? = l.getLast? := by
        rw [← List.dropLast_concat_getLast hne, ← hlast, List.flatten_append, List.getLast?_append]
        have : l ≠ [] := hs.2.1 l hl
        cases hx : l.getLast? with
        | none => rw [List.getLast?_eq_none_iff] at hx; exact absurd hx this
        | some v => simp [hx]
      rw [hs.1, h0] at hfl
      rw [← hfl]; rfl

/-- The lines of whole lines of text, a line that is not text, and more. -/
theorem byteLines_invalid (t : Str) (b rest : Bytes) (ht : t = [] ∨ t.getLast? = some '\n')
    (hb : (10 : UInt8) ∉ b.dropLast) (hbl : rest ≠ [] → b.getLast? = some 10) (hinv : decode b = none) :
    byteLines (encode t ++ b ++ rest) = (splitLines t).map encode ++ b :: byteLines rest := by
  have henc := encode_whole ht
  have hbne : b ≠ [] := by rintro rfl; cases hinv
  have hone : byteLines b = [b] := by
    have hbd : b.dropLast ++ [b.getLast hbne] = b := List.dropLast_concat_getLast hbne
    by_cases hd : b.dropLast = []
    · rw [← hbd, hd]
      simp only [List.nil_append, byteLines]
      split <;> rfl
    · have := byteLines_prefix b.dropLast [b.getLast hbne] hb hd
      rw [hbd] at this
      rw [this]
      have : byteLines [b.getLast hbne] = [[b.getLast hbne]] := by
        simp only [byteLines]; split <;> rfl
      rw [this]
      simp only [hbd]
  rw [List.append_assoc, byteLines_append _ _ henc, byteLines_encode]
  congr 1
  by_cases hr : rest = []
  · subst hr; simp [hone, byteLines]
  · rw [byteLines_append _ _ (.inr (hbl hr)), hone]; rfl

/-- **A failure in the middle of a file.**  The lines before it are delivered; the incomplete line is not. -/
theorem File.lines_failure (t : Str) (b : Bytes) (e : Str) (ht : t = [] ∨ t.getLast? = some '\n')
    (hb : (10 : UInt8) ∉ b) : File.lines ⟨encode t ++ b, some e⟩ = ⟨t, some e⟩ := by
  simp only [File.lines]
  rw [byteLines_append _ _ (encode_whole ht), byteLines_encode, List.filter_append]
  have h2 : (byteLines b).filter (fun l => l.getLast? == some 10) = [] := by
    rw [List.filter_eq_nil_iff]
    intro l hl hc
    have : (10 : UInt8) ∈ l := List.mem_of_getLast? (by simpa using hc)
    apply hb
    rw [← (byteLines_spec b).1]
    exact List.mem_flatten.2 ⟨l, hl, this⟩
  rw [filter_whole ht, h2, List.append_nil, decodeLines_encode, (splitLines_spec t).1]

/-- **A line that is not text.**  The lines before it are delivered. -/
theorem File.lines_invalid (t : Str) (b rest : Bytes) (ht : t = [] ∨ t.getLast? = some '\n')
    (hb : (10 : UInt8) ∉ b.dropLast) (hbl : rest ≠ [] → b.getLast? = some 10) (hinv : decode b = none) :
    File.lines ⟨encode t ++ b ++ rest, none⟩ = ⟨t, some invalidUtf8⟩ := by
  simp only [File.lines]
  rw [byteLines_invalid t b rest ht hb hbl hinv, decodeLines_invalid _ _ _ _ hinv, (splitLines_spec t).1]

/-- **A line that is not text, in a file that fails later.**  The lines before it are delivered. -/
theorem File.lines_invalid_failure (t : Str) (b rest : Bytes) (e : Str) (ht : t = [] ∨ t.getLast? = some '\n')
    (hb : (10 : UInt8) ∉ b.dropLast) (hbl : b.getLast? = some 10) (hinv : decode b = none) :
    File.lines ⟨encode t ++ b ++ rest, some e⟩ = ⟨t, some invalidUtf8⟩ := by
  simp only [File.lines]
  rw [byteLines_invalid t b rest ht hb (fun _ => hbl) hinv, List.filter_append, filter_whole ht,
    List.filter_cons_of_pos (by rw [hbl]; rfl), decodeLines_invalid _ _ _ _ hinv, (splitLines_spec t).1]

end Reqtrace
