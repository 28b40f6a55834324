import Verif.Spec.Image
/-
Colour numbers.
-/
namespace Thermal
open Spec

/-- The colour numbers select the inks. -/
theorem colorFor_ink (colors : RenderColors) (n : Byte) : colors.colorFor n = ink colors n := by
  have : ∀ n : Byte, ∀ p a b c : RGBA, (RenderColors.colorFor ⟨p, a, b, c⟩ n) = ink ⟨p, a, b, c⟩ n := by
    intro n p a b c
    unfold RenderColors.colorFor ink
    have h : ∀ m : Byte, (n = m) = (n.toNat = m.toNat) := fun m => propext UInt8.toNat_inj.symm
    simp only [h]
    have : n.toNat < 256 := n.toNat_lt
    show (if n.toNat = 0 then p else if n.toNat = 1 ∨ n.toNat = 49 then a else if n.toNat = 2 ∨ n.toNat = 50 then b
      else if n.toNat = 3 ∨ n.toNat = 51 then c else a) = _
    split
    · next h => rw [h]; rfl
    split
    · next h => rcases h with h | h <;> (rw [h]; rfl)
    split
    · next h => rcases h with h | h <;> (rw [h]; rfl)
    split
    · next h => rcases h with h | h <;> (rw [h]; rfl)
    · split <;> first | rfl | (exfalso; omega)
  exact this n _ _ _ _

end Thermal
