import Verif.Proofs.Str
/-
Decoding inverts encoding.
-/
namespace Thermal

theorem u8_toNat {n : Nat} (h : n < 256) : (UInt8.ofNat n).toNat = n := by
  simp [UInt8.toNat_ofNat']; omega

theorem isCont_ofNat {n : Nat} (h1 : 0x80 ≤ n) (h2 : n ≤ 0xBF) : isCont (UInt8.ofNat n) = true := by
  unfold isCont
  simp only [Bool.and_eq_true, decide_eq_true_eq, UInt8.le_iff_toNat_le]
  rw [u8_toNat (by omega)]
  exact ⟨h1, h2⟩

theorem ofNat_val (c : Char) : Char.ofNat c.val.toNat = c := Char.ofNat_toNat c

theorem char_range (c : Char) : c.val.toNat < 0xD800 ∨ (0xDFFF < c.val.toNat ∧ c.val.toNat < 0x110000) := c.valid

theorem decode_encode (c : Char) (rest : List Byte) :
    utf8DecodeFirst (String.utf8EncodeChar c ++ rest) = some (c, rest) := by
  have hv := char_range c
  have hc := ofNat_val c
  unfold String.utf8EncodeChar
  generalize c.val.toNat = v at *
  simp only []
  by_cases h1 : v ≤ 0x7f
  · rw [if_pos h1]
    simp only [List.cons_append, List.nil_append, utf8DecodeFirst]
    rw [u8_toNat (by omega), if_pos (by omega), hc]
  · rw [if_neg h1]
    by_cases h2 : v ≤ 0x7ff
    · rw [if_pos h2]
      simp only [List.cons_append, List.nil_append, utf8DecodeFirst]
      rw [u8_toNat (by omega), if_neg (by omega), if_pos (by omega), isCont_ofNat (by omega) (by omega), u8_toNat (by omega)]
      simp only [if_true]
      rw [show (v / 64 % 32 + 192 - 192) * 64 + (v % 64 + 128 - 128) = v from by omega, hc]
    · rw [if_neg h2]
      by_cases h3 : v ≤ 0xffff
      · rw [if_pos h3]
        simp only [List.cons_append, List.nil_append, utf8DecodeFirst]
        rw [u8_toNat (n := v / 4096 % 16 + 224) (by omega), if_neg (by omega), if_neg (by omega), if_pos (by omega),
          isCont_ofNat (n := v / 64 % 64 + 128) (by omega) (by omega), isCont_ofNat (n := v % 64 + 128) (by omega) (by omega),
          u8_toNat (n := v / 64 % 64 + 128) (by omega), u8_toNat (n := v % 64 + 128) (by omega)]
        have : ((v / 4096 % 16 + 224 - 0xE0) * 64 + (v / 64 % 64 + 128 - 0x80)) * 64 + (v % 64 + 128 - 0x80) = v := by omega
        rw [this, hc]
        have e1 : 0x800 ≤ v := by omega
        have e2 : ¬ (0xD800 ≤ v ∧ v ≤ 0xDFFF) := by omega
        have e3 : (decide (0xD800 ≤ v) && decide (v ≤ 0xDFFF)) = false := by
          rw [Bool.eq_false_iff]; simpa using e2
        simp only [e1, e3, decide_true, Bool.and_self, Bool.not_false, if_true]
      · rw [if_neg h3]
        simp only [List.cons_append, List.nil_append, utf8DecodeFirst]
        rw [u8_toNat (n := v / 262144 % 8 + 240) (by omega), if_neg (by omega), if_neg (by omega), if_neg (by omega), if_pos (by omega),
          isCont_ofNat (n := v / 4096 % 64 + 128) (by omega) (by omega),
          isCont_ofNat (n := v / 64 % 64 + 128) (by omega) (by omega), isCont_ofNat (n := v % 64 + 128) (by omega) (by omega),
          u8_toNat (n := v / 4096 % 64 + 128) (by omega),
          u8_toNat (n := v / 64 % 64 + 128) (by omega), u8_toNat (n := v % 64 + 128) (by omega)]
        have : (((v / 262144 % 8 + 240 - 0xF0) * 64 + (v / 4096 % 64 + 128 - 0x80)) * 64 + (v / 64 % 64 + 128 - 0x80)) * 64 +
          (v % 64 + 128 - 0x80) = v := by omega
        rw [this, hc]
        have e1 : 0x10000 ≤ v := by omega
        have e2 : v ≤ 0x10FFFF := by omega
        simp only [e1, e2, decide_true, Bool.and_self, if_true]

theorem encode_ne_nil (c : Char) : String.utf8EncodeChar c ≠ [] := by
  intro h
  have := String.length_utf8EncodeChar c
  rw [h] at this
  have := Char.utf8Size_pos c
  simp at *

theorem lossyAux_bytes (t : Str) : ∀ n, t.length ≤ n → fromUtf8LossyAux n t.bytes = t := by
  induction t with
  | nil => intro n _; cases n <;> rfl
  | cons c t ih =>
    intro n hn
    rcases n with _ | n
    · simp at hn
    · have e : Str.bytes (c :: t) = String.utf8EncodeChar c ++ Str.bytes t := rfl
      rw [e]
      obtain ⟨b, bs, hb⟩ : ∃ b bs, String.utf8EncodeChar c ++ Str.bytes t = b :: bs := by
        rcases h : String.utf8EncodeChar c with _ | ⟨b, bs⟩
        · exact absurd h (encode_ne_nil c)
        · exact ⟨b, bs ++ Str.bytes t, rfl⟩
      rw [hb, fromUtf8LossyAux, ← hb, decode_encode]
      · simp only []; rw [ih n (by simp at hn; omega)]
      · simp

theorem lossy_bytes (t : Str) : fromUtf8Lossy t.bytes = t := by
  apply lossyAux_bytes
  rw [bytes_length]
  induction t with
  | nil => simp
  | cons c t ih =>
    have := Char.utf8Size_pos c
    simp [Str.byteLen] at *; omega

end Thermal
