import Verif.Proofs.ParserItems2
/-
C14, C15: integers and bit flags.
-/
namespace Thermal
open Spec

/-- the byte at position i, missing bytes read as zero -/
def byteAt (bytes : List Byte) (i : Nat) : Nat := ((bytes[i]?).getD 0).toNat

/-- **C14**.  parse_u16/parse_u32 return the little-endian value of the bytes at the index. -/
theorem C14_little_endian (bytes : List Byte) (i : Nat) :
    parseU16 bytes i = byteAt bytes i + 256 * byteAt bytes (i + 1) ∧
    parseU32 bytes i = byteAt bytes i + 256 * byteAt bytes (i + 1) + 65536 * byteAt bytes (i + 2) +
      16777216 * byteAt bytes (i + 3) := by
  constructor
  · rw [parseU16_eq]; simp only [List.getD_eq_getElem?_getD, byteAt]; omega
  · rw [parseU32_eq]; simp only [List.getD_eq_getElem?_getD, byteAt]; omega

/-- C14: the results fit their Rust types. -/
theorem C14_in_range (bytes : List Byte) (i : Nat) : parseU16 bytes i < 65536 ∧ parseU32 bytes i < 4294967296 := by
  obtain ⟨h1, h2⟩ := C14_little_endian bytes i
  have := fun (i : Nat) => (UInt8.toNat_lt ((bytes[i]?).getD 0))
  have h0 := this i; have h1' := this (i + 1); have h2' := this (i + 2); have h3' := this (i + 3)
  rw [h1, h2]; simp only [byteAt]; omega

/-- C14: encode then decode is the identity, anywhere in a buffer. -/
theorem C14_round_trip16 (n : Nat) (h : n < 65536) (pre post : List Byte) :
    parseU16 (pre ++ [lo n, hi n] ++ post) pre.length = n := by
  rw [(C14_little_endian _ _).1]
  simp [byteAt]
  have := lo_hi h
  omega

theorem C14_round_trip32 (n : Nat) (h : n < 4294967296) (pre post : List Byte) :
    parseU32 (pre ++ [lo n, hi n, hi2 n, hi3 n] ++ post) pre.length = n := by
  rw [(C14_little_endian _ _).2]
  simp [byteAt]
  have := lo_hi4 h
  omega

example : parseU16 [7, 0x34, 0x12] 1 = 0x1234 ∧ parseU16 [0xFF] 0 = 255 ∧
    parseU32 [0x78, 0x56, 0x34, 0x12] 0 = 0x12345678 := by decide

/-- **C15**.  bitflags_lsb lists bit i in position i, bitflags_msb is its mirror image. -/
theorem C15_bitflags (b : Byte) (i : Nat) (h : i < 8) :
    (bitflagsLsb b)[i]? = some (b.toNat.testBit i) ∧ (bitflagsMsb b)[7 - i]? = some (b.toNat.testBit i) ∧
    (bitflagsLsb b).length = 8 ∧ (bitflagsMsb b).length = 8 ∧ bitflagsMsb b = (bitflagsLsb b).reverse := by
  have key : ∀ n < 256, ∀ i < 8, (bitflagsLsb (UInt8.ofNat n))[i]? = some ((UInt8.ofNat n).toNat.testBit i) ∧
      (bitflagsMsb (UInt8.ofNat n))[7 - i]? = some ((UInt8.ofNat n).toNat.testBit i) := by decide +kernel
  have := byte_all (P := fun b => ∀ i < 8, (bitflagsLsb b)[i]? = some (b.toNat.testBit i) ∧
      (bitflagsMsb b)[7 - i]? = some (b.toNat.testBit i)) key b i h
  exact ⟨this.1, this.2, rfl, rfl, rfl⟩

example : bitflagsMsb 0x81 = [true, false, false, false, false, false, false, true] ∧
    bitflagsLsb 0x02 = [false, true, false, false, false, false, false, false] := by decide

end Thermal
