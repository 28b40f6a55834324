import Verif.Spec.Grid
import Verif.Model.Color
/-
Vocabulary for drawing on a canvas: pictures are functions of column and row.
-/
namespace Thermal.Spec

/-- A picture of height `h`, continued below by paper. -/
def onPaper (f : Nat → Nat → RGBA) (h : Nat) (paper : RGBA) (x y : Nat) : RGBA := if y < h then f x y else paper

/-- The column `x` and row `y` lie in the rectangle with the corner `(x0, y0)`, width `w` and height `h`. -/
def inRect (x0 y0 w h x y : Nat) : Prop := x0 ≤ x ∧ x < x0 + w ∧ y0 ≤ y ∧ y < y0 + h

instance (x0 y0 w h x y : Nat) : Decidable (inRect x0 y0 w h x y) := by unfold inRect; infer_instance

/-- The picture `f` with the `w` x `h` picture `g` combined into it (by `op below above`) at `(x0, y0)`. -/
def drawn (op : RGBA → RGBA → RGBA) (f g : Nat → Nat → RGBA) (x0 y0 w h x y : Nat) : RGBA :=
  if inRect x0 y0 w h x y then op (f x y) (g (x - x0) (y - y0)) else f x y

/-- The picture after the rows of the rectangle have been reversed. -/
def flipped (f : Nat → Nat → RGBA) (x0 y0 w h x y : Nat) : RGBA :=
  if inRect x0 y0 w h x y then f x (y0 + (h - 1 - (y - y0))) else f x y

end Thermal.Spec
