import Verif.Utf8

/-!
# C86: files are UTF-8, as the library of Lean defines it
-/

namespace Reqtrace

namespace Utf8

theorem encodeChar_eq (c : Char) : encodeChar c = String.utf8EncodeChar c := by
  have hc := char_range c
  unfold encodeChar String.utf8EncodeChar
  have hv : c.val.toNat = c.toNat := rfl
  simp only [hv, byte]
  generalize c.toNat = n at *
  by_cases h1 : n ≤ 0x7f
  · rw [if_pos (show n < 0x80 by omega), if_pos h1]
  rw [if_neg (show ¬ n < 0x80 by omega), if_neg h1]
  by_cases h2 : n ≤ 0x7ff
  · rw [if_pos (show n < 0x800 by omega), if_pos h2, Nat.mod_eq_of_lt (show n / 64 < 32 by omega), Nat.add_comm 192,
      Nat.add_comm 128]
  rw [if_neg (show ¬ n < 0x800 by omega), if_neg h2]
  by_cases h3 : n ≤ 0xffff
  · rw [if_pos (show n < 0x10000 by omega), if_pos h3, Nat.mod_eq_of_lt (show n / 4096 < 16 by omega), Nat.add_comm 224,
      Nat.add_comm 128, Nat.add_comm 128]
  rw [if_neg (show ¬ n < 0x10000 by omega), if_neg h3, Nat.mod_eq_of_lt (show n / 262144 < 8 by omega), Nat.add_comm 240,
    Nat.add_comm 128, Nat.add_comm 128, Nat.add_comm 128]

end Utf8

/-- **C86** A text is written as the bytes of its UTF-8 encoding. -/
theorem C86_encode (s : Str) : Utf8.encode s = s.flatMap String.utf8EncodeChar := by
  unfold Utf8.encode
  rw [show Utf8.encodeChar = String.utf8EncodeChar from funext Utf8.encodeChar_eq]

/-- **C86** These are the bytes of a Lean string. -/
theorem C86_string (s : String) : (Utf8.encode s.toList).toByteArray = s.toUTF8 := by
  rw [C86_encode]
  exact String.utf8Encode_toList

/-- **C86** Bytes are read as the text whose encoding they are. -/
theorem C86_decode (bs : Bytes) (s : Str) : Utf8.decode bs = some s ↔ bs = s.flatMap String.utf8EncodeChar := by
  rw [← C86_encode]
  exact Utf8.decode_eq_some_iff

/-- **C86** Bytes are refused exactly if they are not valid UTF-8. -/
theorem C86_invalid (bs : Bytes) : Utf8.decode bs = none ↔ ¬ bs.toByteArray.IsValidUTF8 := by
  constructor
  · rintro h ⟨m, hm⟩
    rw [(C86_decode bs m).2 (List.toByteArray_inj.1 hm)] at h
    cases h
  · intro h
    cases hd : Utf8.decode bs with
    | none => rfl
    | some s =>
      refine absurd ⟨s, ?_⟩ h
      rw [(C86_decode bs s).1 hd]
      rfl

example : Utf8.encode c!"aé€😀" = [0x61, 0xC3, 0xA9, 0xE2, 0x82, 0xAC, 0xF0, 0x9F, 0x98, 0x80] ∧
    Utf8.decode [0xE2, 0x82, 0xAC] = some c!"€" ∧
    ¬ ([0xC0, 0x80] : Bytes).toByteArray.IsValidUTF8 ∧ ¬ ([0xED, 0xA0, 0x80] : Bytes).toByteArray.IsValidUTF8 ∧
    ¬ ([0xF4, 0x90, 0x80, 0x80] : Bytes).toByteArray.IsValidUTF8 := by
  simp only [← C86_invalid]
  decide +kernel

end Reqtrace
