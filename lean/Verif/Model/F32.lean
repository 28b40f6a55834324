import Verif.Model.Str
/-
Rust's `f32` (IEEE 754 binary32), as far as the code uses it: finite numbers that are not negative.
-/
namespace Thermal

/-- A finite `f32` that is not negative, as a multiple of 2^-149, the smallest one above 0.  The code has no negative numbers, infinities and
NaNs in the places modelled: all numbers are below 2^40, the subtractions are of a smaller number, and no divisor is 0. -/
structure F32 where
  units : Nat
  deriving DecidableEq, Repr

namespace F32

/-- How many units make 1. -/
def one : Nat := 2 ^ 149

/-- Rounding `n / d` units to 24 binary digits: to the nearest, in the middle to the even one. -/
def round (n d : Nat) : F32 :=
  let g := 2 ^ ((n / d).log2 - 23)
  let m := n / (d * g)
  let r := n % (d * g)
  ⟨(if 2 * r < d * g ∨ (2 * r = d * g ∧ m % 2 = 0) then m else m + 1) * g⟩

/-- `n as f32` -/
def ofNat (n : Nat) : F32 := round (one * n) 1

/-- The literal `p / q` (a decimal fraction). -/
def lit (p q : Nat) : F32 := round (one * p) q

/-- `a + b` -/
def add (a b : F32) : F32 := round (a.units + b.units) 1

/-- `a - b`, for `b ≤ a` -/
def sub (a b : F32) : F32 := round (a.units - b.units) 1

/-- `a * b` -/
def mul (a b : F32) : F32 := round (b.units * a.units) one

/-- `a / b`, for `b ≠ 0` -/
def div (a b : F32) : F32 := round (one * a.units) b.units

/-- `a as u32`: towards 0, at most the largest `u32`. -/
def toU32 (a : F32) : Nat := min (a.units / one) 4294967295

/-- `a.round() as u8`: to the nearest, in the middle away from 0; at most 255. -/
def roundU8 (a : F32) : Byte := UInt8.ofNat (min ((one + 2 * a.units) / (2 * one)) 255)

/-- `a < b` -/
def lt (a b : F32) : Bool := a.units < b.units

end F32
end Thermal
