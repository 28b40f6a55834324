import Verif.Rust
/-
Specification vocabulary for pictures: a row-major vector shows the picture `f` of size w × h.
-/
namespace Thermal.Spec

/-- `px` holds exactly the w × h picture whose dot in column x, row y is `f x y`. -/
def Shows {α : Type} (px : List α) (w h : Nat) (f : Nat → Nat → α) : Prop :=
  px.length = w * h ∧ ∀ x y, x < w → y < h → px[y * w + x]? = some (f x y)

/-- Number of bytes that hold a row of w dots, eight dots per byte. -/
def rowBytes (w : Nat) : Nat := (w + 7) / 8

/-- ESC/POS raster bits: rows of `rowBytes w` bytes, the most significant bit is the leftmost dot. -/
def rasterBit (data : List Byte) (w x y : Nat) : Bool :=
  (data.getD (y * rowBytes w + x / 8) 0).toNat.testBit (7 - x % 8)

/-- ESC/POS column bits: columns of `rowBytes h` bytes, the most significant bit is the topmost dot. -/
def columnBit (data : List Byte) (h x y : Nat) : Bool :=
  (data.getD (x * rowBytes h + y / 8) 0).toNat.testBit (7 - y % 8)

/-- The value a dot is unpacked to. -/
def dot (b : Bool) : Byte := if b then 255 else 0

end Thermal.Spec
