import Verif.Model.Graphics
/-
Where the modules of barcodes and of 2D codes are drawn.
-/
namespace Thermal.Spec

/-- The bars of a barcode whose first module is at `left + start`: module `i` (counted from `k`) is drawn at
`left + start + i * w` if it is set and ends within the `printable` width. -/
def bars (left start y w h printable : Nat) (modules : List Byte) (k : Nat := 0) : List Rectangle :=
  ((modules.zipIdx k).filter (fun m => m.1 > 0 ∧ start + (m.2 + 1) * w ≤ printable)).map
    (fun m => ⟨left + start + m.2 * w, y, w, h⟩)

/-- The squares of a 2D code of `columns` columns whose top left corner is at `(x, y)`: module `i` (counted from `k`) is in
column `i mod columns` and row `i / columns`. -/
def grid (x y w h columns : Nat) (modules : List Byte) (k : Nat := 0) : List Rectangle :=
  ((modules.zipIdx k).filter (fun m => m.1 > 0)).map
    (fun m => ⟨x + (m.2 % columns) * w, y + (m.2 / columns) * h, w, h⟩)

end Thermal.Spec
