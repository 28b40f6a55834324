import Verif.Model.Util
/-
Arithmetic of parse_u16 / parse_u32.
-/
namespace Thermal

theorem parseU16_eq (d : List Byte) (i : Nat) :
    parseU16 d i = (d.getD i 0).toNat + (d.getD (i + 1) 0).toNat * 256 := by
  unfold parseU16 getOr
  have h1 : (d[i]?.getD 0).toNat < 2 ^ 8 := UInt8.toNat_lt _
  simp only []
  rw [← Nat.shiftLeft_add_eq_or_of_lt h1, Nat.shiftLeft_eq]
  simp only [List.getD_eq_getElem?_getD]; omega

theorem parseU32_eq (d : List Byte) (i : Nat) :
    parseU32 d i = (d.getD i 0).toNat + (d.getD (i + 1) 0).toNat * 256 + (d.getD (i + 2) 0).toNat * 65536 +
      (d.getD (i + 3) 0).toNat * 16777216 := by
  unfold parseU32 getOr
  have h0 : (d[i]?.getD 0).toNat < 2 ^ 8 := UInt8.toNat_lt _
  have h1 : (d[i + 1]?.getD 0).toNat < 2 ^ 8 := UInt8.toNat_lt _
  have h2 : (d[i + 2]?.getD 0).toNat < 2 ^ 8 := UInt8.toNat_lt _
  simp only [List.getD_eq_getElem?_getD]
  generalize (d[i]?.getD 0).toNat = a0 at *
  generalize (d[i + 1]?.getD 0).toNat = a1 at *
  generalize (d[i + 2]?.getD 0).toNat = a2 at *
  generalize (d[i + 3]?.getD 0).toNat = a3 at *
  -- regroup from the low end
  have e1 : a3 <<< 24 ||| a2 <<< 16 = (a3 * 256 + a2) <<< 16 := by
    have : a3 <<< 24 ||| a2 <<< 16 = (a3 <<< 8 ||| a2) <<< 16 := by
      rw [Nat.shiftLeft_or_distrib, ← Nat.shiftLeft_add]
    rw [this, ← Nat.shiftLeft_add_eq_or_of_lt h2, Nat.shiftLeft_eq a3 8]
  have e2 : (a3 * 256 + a2) <<< 16 ||| a1 <<< 8 = ((a3 * 256 + a2) * 256 + a1) <<< 8 := by
    have : (a3 * 256 + a2) <<< 16 ||| a1 <<< 8 = ((a3 * 256 + a2) <<< 8 ||| a1) <<< 8 := by
      rw [Nat.shiftLeft_or_distrib, ← Nat.shiftLeft_add]
    rw [this, ← Nat.shiftLeft_add_eq_or_of_lt h1, Nat.shiftLeft_eq _ 8]; simp [Nat.shiftLeft_eq]
  rw [e1, e2, ← Nat.shiftLeft_add_eq_or_of_lt h0, Nat.shiftLeft_eq]
  omega

end Thermal
