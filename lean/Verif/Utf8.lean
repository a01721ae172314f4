import Verif.Basic

/-!
# Bytes and UTF-8

Files and the standard output hold bytes.  Rust's strings are UTF-8; `str::from_utf8` accepts exactly the byte sequences
of Table 3-7 of the Unicode standard.
-/

namespace Reqtrace

/-- What a file holds -/
abbrev Bytes := List UInt8

namespace Utf8

/-- The byte with the given number -/
def byte (n : Nat) : UInt8 := UInt8.ofNat n

/-- `char::encode_utf8` -/
def encodeChar (c : Char) : Bytes :=
  let n := c.toNat
  if n < 0x80 then [byte n]
  else if n < 0x800 then [byte (0xC0 + n / 0x40), byte (0x80 + n % 0x40)]
  else if n < 0x10000 then [byte (0xE0 + n / 0x1000), byte (0x80 + n / 0x40 % 0x40), byte (0x80 + n % 0x40)]
  else [byte (0xF0 + n / 0x40000), byte (0x80 + n / 0x1000 % 0x40), byte (0x80 + n / 0x40 % 0x40), byte (0x80 + n % 0x40)]

/-- `str::as_bytes` -/
def encode (s : Str) : Bytes := s.flatMap encodeChar

/-- A continuation byte -/
def isCont (b : UInt8) : Bool := 0x80 ≤ b.toNat && b.toNat ≤ 0xBF

/-- The first character of well-formed bytes, and what follows it -/
def decodeChar : Bytes → Option (Char × Bytes)
  | [] => none
  | a :: r =>
    let x := a.toNat
    if x < 0x80 then some (Char.ofNat x, r)
    else if 0xC2 ≤ x ∧ x ≤ 0xDF then
      match r with
      | b :: r => if isCont b then some (Char.ofNat ((x - 0xC0) * 0x40 + (b.toNat - 0x80)), r) else none
      | _ => none
    else if 0xE0 ≤ x ∧ x ≤ 0xEF then
      match r with
      | b :: c :: r =>
        if isCont b && isCont c && (x != 0xE0 || 0xA0 ≤ b.toNat) && (x != 0xED || b.toNat ≤ 0x9F) then
          some (Char.ofNat ((x - 0xE0) * 0x1000 + (b.toNat - 0x80) * 0x40 + (c.toNat - 0x80)), r)
        else none
      | _ => none
    else if 0xF0 ≤ x ∧ x ≤ 0xF4 then
      match r with
      | b :: c :: d :: r =>
        if isCont b && isCont c && isCont d && (x != 0xF0 || 0x90 ≤ b.toNat) && (x != 0xF4 || b.toNat ≤ 0x8F) then
          some (Char.ofNat ((x - 0xF0) * 0x40000 + (b.toNat - 0x80) * 0x1000 + (c.toNat - 0x80) * 0x40 + (d.toNat - 0x80)), r)
        else none
      | _ => none
    else none

/-- `fuel` is a bound for the number of bytes -/
def decodeFrom : Nat → Bytes → Option Str
  | _, [] => some []
  | 0, _ :: _ => none
  | fuel + 1, b :: bs =>
    match decodeChar (b :: bs) with
    | none => none
    | some (c, r) => (decodeFrom fuel r).map (c :: ·)

/-- `str::from_utf8` -/
def decode (bs : Bytes) : Option Str := decodeFrom bs.length bs

theorem byte_toNat {n : Nat} (h : n < 256) : (byte n).toNat = n := by
  simp [byte, UInt8.toNat_ofNat', Nat.mod_eq_of_lt h]

theorem char_range (c : Char) : c.toNat < 0xD800 ∨ 0xDFFF < c.toNat ∧ c.toNat < 0x110000 := c.valid

theorem decodeChar_encodeChar (c : Char) (r : Bytes) : decodeChar (encodeChar c ++ r) = some (c, r) := by
  have hc := char_range c
  have hof : Char.ofNat c.toNat = c := Char.ofNat_toNat c
  unfold encodeChar
  generalize hn : c.toNat = n at *
  dsimp only
  split
  · rename_i h
    simp only [List.cons_append, List.nil_append, decodeChar, byte_toNat (show n < 256 by omega), if_pos h, hof]
  split
  · rename_i h1 h2
    have e1 : (byte (0xC0 + n / 0x40)).toNat = 0xC0 + n / 0x40 := byte_toNat (by omega)
    have e2 : (byte (0x80 + n % 0x40)).toNat = 0x80 + n % 0x40 := byte_toNat (by omega)
    simp only [List.cons_append, List.nil_append, decodeChar, e1, e2, isCont]
    rw [if_neg (by omega), if_pos (by omega), if_pos (by simp; omega)]
    rw [show (192 + n / 64 - 192) * 64 + (128 + n % 64 - 128) = n by omega, hof]
  split
  · rename_i h1 h2 h3
    have e1 : (byte (0xE0 + n / 0x1000)).toNat = 0xE0 + n / 0x1000 := byte_toNat (by omega)
    have e2 : (byte (0x80 + n / 0x40 % 0x40)).toNat = 0x80 + n / 0x40 % 0x40 := byte_toNat (by omega)
    have e3 : (byte (0x80 + n % 0x40)).toNat = 0x80 + n % 0x40 := byte_toNat (by omega)
    simp only [List.cons_append, List.nil_append, decodeChar, e1, e2, e3, isCont]
    rw [if_neg (by omega), if_neg (by omega), if_pos (by omega), if_pos (by
      simp only [Bool.and_eq_true, Bool.or_eq_true, decide_eq_true_eq, bne_iff_ne]; omega)]
    rw [show (224 + n / 4096 - 224) * 4096 + (128 + n / 64 % 64 - 128) * 64 + (128 + n % 64 - 128) = n by omega, hof]
  · rename_i h1 h2 h3
    have e1 : (byte (0xF0 + n / 0x40000)).toNat = 0xF0 + n / 0x40000 := byte_toNat (by omega)
    have e2 : (byte (0x80 + n / 0x1000 % 0x40)).toNat = 0x80 + n / 0x1000 % 0x40 := byte_toNat (by omega)
    have e3 : (byte (0x80 + n / 0x40 % 0x40)).toNat = 0x80 + n / 0x40 % 0x40 := byte_toNat (by omega)
    have e4 : (byte (0x80 + n % 0x40)).toNat = 0x80 + n % 0x40 := byte_toNat (by omega)
    simp only [List.cons_append, List.nil_append, decodeChar, e1, e2, e3, e4, isCont]
    rw [if_neg (by omega), if_neg (by omega), if_neg (by omega), if_pos (by omega), if_pos (by
      simp only [Bool.and_eq_true, Bool.or_eq_true, decide_eq_true_eq, bne_iff_ne]; omega)]
    rw [show (240 + n / 262144 - 240) * 262144 + (128 + n / 4096 % 64 - 128) * 4096 + (128 + n / 64 % 64 - 128) * 64 +
      (128 + n % 64 - 128) = n by omega, hof]

theorem encodeChar_ne_nil (c : Char) : encodeChar c ≠ [] := by
  unfold encodeChar
  dsimp only
  split
  · exact List.cons_ne_nil _ _
  split
  · exact List.cons_ne_nil _ _
  split <;> exact List.cons_ne_nil _ _

theorem length_encode_cons (c : Char) (s : Str) : (encode s).length < (encode (c :: s)).length := by
  have := List.length_pos_iff.2 (encodeChar_ne_nil c)
  simp [encode]; exact this

theorem decodeFrom_encode (s : Str) : ∀ fuel, (encode s).length ≤ fuel → decodeFrom fuel (encode s) = some s := by
  induction s with
  | nil => intro fuel _; cases fuel <;> rfl
  | cons c s ih =>
    intro fuel hf
    have hlt := length_encode_cons c s
    have hd : decodeChar (encode (c :: s)) = some (c, encode s) := decodeChar_encodeChar c (encode s)
    cases he : encode (c :: s) with
    | nil => rw [he] at hlt; simp at hlt
    | cons b bs =>
      cases fuel with
      | zero => rw [he] at hf; simp at hf
      | succ fuel =>
        rw [he] at hd
        simp only [decodeFrom, hd]
        rw [ih fuel (by omega)]
        rfl

/-- Text that was encoded is decoded to itself. -/
theorem decode_encode (s : Str) : decode (encode s) = some s := decodeFrom_encode s _ (Nat.le_refl _)

theorem encode_injective {s t : Str} (h : encode s = encode t) : s = t := by
  have := decode_encode s
  rw [h, decode_encode] at this
  exact (Option.some.inj this).symm

theorem encode_append (s t : Str) : encode (s ++ t) = encode s ++ encode t := by simp [encode]

theorem byte_of_toNat {b : UInt8} {n : Nat} (h : b.toNat = n) : byte n = b := by
  subst h; simp [byte]

theorem ofNat_toNat {n : Nat} (h : n < 0xD800 ∨ 0xDFFF < n ∧ n < 0x110000) : (Char.ofNat n).toNat = n := by
  have hv : n.isValidChar := h
  simp only [Char.ofNat, dif_pos hv]
  show (Char.ofNatAux n hv).toNat = n
  simp only [Char.ofNatAux, Char.toNat]
  rfl

/-- Only the encoding of a character is decoded to it. -/
theorem decodeChar_some {bs r : Bytes} {c : Char} (h : decodeChar bs = some (c, r)) : bs = encodeChar c ++ r := by
  cases bs with
  | nil => simp [decodeChar] at h
  | cons a t =>
    have ha := a.toNat_lt
    simp only [decodeChar] at h
    split at h
    · rename_i h1
      simp only [Option.some.injEq, Prod.mk.injEq] at h
      obtain ⟨rfl, rfl⟩ := h
      unfold encodeChar
      rw [ofNat_toNat (by omega)]
      simp only [if_pos h1, byte_of_toNat rfl, List.cons_append, List.nil_append]
    split at h
    · rename_i h1 h2
      split at h
      · rename_i b t'
        split at h
        · rename_i hb
          have hb' := hb
          simp only [isCont, Bool.and_eq_true, decide_eq_true_eq] at hb'
          simp only [Option.some.injEq, Prod.mk.injEq] at h
          obtain ⟨rfl, rfl⟩ := h
          unfold encodeChar
          rw [ofNat_toNat (by omega)]
          dsimp only
          rw [if_neg (by omega), if_pos (by omega),
            show (byte (0xC0 + ((a.toNat - 0xC0) * 0x40 + (b.toNat - 0x80)) / 0x40)) = a from byte_of_toNat (by omega),
            show (byte (0x80 + ((a.toNat - 0xC0) * 0x40 + (b.toNat - 0x80)) % 0x40)) = b from byte_of_toNat (by omega)]
          rfl
        · cases h
      · cases h
    split at h
    · rename_i h1 h2 h3
      split at h
      · rename_i b d t'
        split at h
        · rename_i hb
          have hb' := hb
          simp only [isCont, Bool.and_eq_true, decide_eq_true_eq, Bool.or_eq_true, bne_iff_ne] at hb'
          simp only [Option.some.injEq, Prod.mk.injEq] at h
          obtain ⟨rfl, rfl⟩ := h
          unfold encodeChar
          rw [ofNat_toNat (by omega)]
          dsimp only
          generalize hm : (a.toNat - 0xE0) * 0x1000 + (b.toNat - 0x80) * 0x40 + (d.toNat - 0x80) = m
          rw [if_neg (by omega), if_neg (by omega), if_pos (by omega),
            show (byte (0xE0 + m / 0x1000)) = a from byte_of_toNat (by omega),
            show (byte (0x80 + m / 0x40 % 0x40)) = b from byte_of_toNat (by omega),
            show (byte (0x80 + m % 0x40)) = d from byte_of_toNat (by omega)]
          rfl
        · cases h
      · cases h
    split at h
    · rename_i h1 h2 h3 h4
      split at h
      · rename_i b d e t'
        split at h
        · rename_i hb
          have hb' := hb
          simp only [isCont, Bool.and_eq_true, decide_eq_true_eq, Bool.or_eq_true, bne_iff_ne] at hb'
          simp only [Option.some.injEq, Prod.mk.injEq] at h
          obtain ⟨rfl, rfl⟩ := h
          unfold encodeChar
          rw [ofNat_toNat (by omega)]
          dsimp only
          generalize hm : (a.toNat - 0xF0) * 0x40000 + (b.toNat - 0x80) * 0x1000 + (d.toNat - 0x80) * 0x40 +
            (e.toNat - 0x80) = m
          rw [if_neg (by omega), if_neg (by omega), if_neg (by omega),
            show (byte (0xF0 + m / 0x40000)) = a from byte_of_toNat (by omega),
            show (byte (0x80 + m / 0x1000 % 0x40)) = b from byte_of_toNat (by omega),
            show (byte (0x80 + m / 0x40 % 0x40)) = d from byte_of_toNat (by omega),
            show (byte (0x80 + m % 0x40)) = e from byte_of_toNat (by omega)]
          rfl
        · cases h
      · cases h
    · cases h

theorem decodeFrom_some {fuel : Nat} {bs : Bytes} {s : Str} (h : decodeFrom fuel bs = some s) : bs = encode s := by
  induction fuel generalizing bs s with
  | zero =>
    cases bs with
    | nil => simp only [decodeFrom, Option.some.injEq] at h; subst h; rfl
    | cons b bs => simp [decodeFrom] at h
  | succ fuel ih =>
    cases bs with
    | nil => simp only [decodeFrom, Option.some.injEq] at h; subst h; rfl
    | cons b bs =>
      simp only [decodeFrom] at h
      split at h
      · cases h
      · rename_i c r hd
        cases hr : decodeFrom fuel r with
        | none => simp [hr] at h
        | some t =>
          simp only [hr, Option.map_some, Option.some.injEq] at h
          subst h
          rw [decodeChar_some hd, ih hr]
          rfl

/-- Only the encoding of a text is decoded to it. -/
theorem decode_some {bs : Bytes} {s : Str} (h : decode bs = some s) : bs = encode s := decodeFrom_some h

theorem decode_eq_some_iff {bs : Bytes} {s : Str} : decode bs = some s ↔ bs = encode s :=
  ⟨decode_some, fun h => h ▸ decode_encode s⟩

end Utf8

end Reqtrace
