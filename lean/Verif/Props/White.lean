import Verif.Model.Str
/-
C27, C78: what white space is.
-/
namespace Thermal

/-- The characters with the Unicode property White_Space. -/
def Spec.whiteSpace : List Nat :=
  [0x09, 0x0A, 0x0B, 0x0C, 0x0D, 0x20, 0x85, 0xA0, 0x1680, 0x2000, 0x2001, 0x2002, 0x2003, 0x2004, 0x2005, 0x2006, 0x2007, 0x2008, 0x2009,
    0x200A, 0x2028, 0x2029, 0x202F, 0x205F, 0x3000]

/-- C27, C78 (part). The white space that ends words is that of Unicode: these 25 characters and no others. -/
theorem C27_white (c : Char) : isWhitespace c = true ↔ c.toNat ∈ Spec.whiteSpace := by
  simp only [isWhitespace, Spec.whiteSpace, Bool.or_eq_true, Bool.and_eq_true, decide_eq_true_eq, List.mem_cons, List.not_mem_nil, or_false]
  omega

example : isWhitespace '\u3000' = true ∧ isWhitespace '\u200B' = false := by simp only [C27_white]; decide

end Thermal
