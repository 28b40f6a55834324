import Verif.Model.F32
/-
What IEEE 754 asks of a rounding to nearest, ties to even.
-/
namespace Thermal.Spec

/-- A multiple of 2^-149 that is a `f32`: at most 24 binary digits. -/
def IsF32 (k : Nat) : Prop := ∃ m j, m < 2 ^ 24 ∧ k = m * 2 ^ j

/-- How far `k` is from `n / d`, times `d`. -/
def gap (n d k : Nat) : Nat := (k * d - n) + (n - k * d)

/-- `k` is `n / d` rounded: a `f32` that is as near as any other; where there are two, the last binary digit is 0. -/
structure Rounded (n d k : Nat) : Prop where
  isF32 : IsF32 k
  nearest : ∀ k', IsF32 k' → gap n d k ≤ gap n d k'
  even : ∀ k', IsF32 k' → k' ≠ k → gap n d k' = gap n d k → ∃ m j, m < 2 ^ 24 ∧ k = m * 2 ^ j ∧ m % 2 = 0 ∧ (m < 2 ^ 23 → j = 0)

end Thermal.Spec
