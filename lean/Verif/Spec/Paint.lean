import Verif.Spec.Printer
import Verif.Spec.Medium
/-
What things (Spec/Printer) look like, dot by dot, on paper and on pages.  Only the shapes of the glyphs, which come from the crate
`fontdue`, are parameters (`Canvas.Glyphs`).
-/
namespace Thermal.Spec

/-! ### Text -/

namespace CharLook

/-- By how much the glyphs are enlarged before they are fitted into the cell: as the larger of both directions asks. -/
def times (l : CharLook) : Nat := max (l.cell.2 / l.base.2) (l.cell.1 / l.base.1)

/-- The glyph of a character. -/
def glyph (gs : Canvas.Glyphs) (l : CharLook) (ch : Char) : Canvas.Glyph := gs.glyph l.bold l.italic l.font l.times ch

/-- A dot of the enlarged cell of a character: the background, and on it the ink of the glyph, whose coverage is given row by row from its
offset on. -/
def large (gs : Canvas.Glyphs) (l : CharLook) (ch : Char) (x y : Nat) : RGBA :=
  let g := l.glyph gs ch
  if g.xOffset ≤ x ∧ g.yOffset ≤ y ∧ x - g.xOffset < g.width then
    (g.coverage[(y - g.yOffset) * g.width + (x - g.xOffset)]?).elim l.background (shade l.background l.color)
  else l.background

/-- A dot of the cell of a character. -/
def dot (gs : Canvas.Glyphs) (l : CharLook) (ch : Char) (x y : Nat) : RGBA :=
  if l.times ≤ 1 then l.large gs ch x y
  else l.large gs ch (fitted x (l.base.1 * l.times) l.cell.1) (fitted y (l.base.2 * l.times) l.cell.2)

/-- Characters from `(x, y)` on, one cell after the other; control characters leave their cell as it is. -/
def chars {S : Type} (M : Medium S) (gs : Canvas.Glyphs) (l : CharLook) (y : Nat) : Str → Nat → S → S
  | [], _, P => P
  | ch :: rest, x, P =>
    chars M gs l y rest (x + l.cell.1) (if (l.glyph gs ch).control then P else M.put P (l.dot gs ch) ⟨x, y, l.cell.1, l.cell.2⟩)

end CharLook

variable {S : Type} (M : Medium S)

/-- A filled rectangle. -/
def fill (color : RGBA) (P : S) (r : Rectangle) : S := M.put P (fun _ _ => color) r

/-- A piece of text on a line: the pieces of a line stand on a common baseline; underline, strike-through line; upside down if so
wished. -/
def Piece.paint (gs : Canvas.Glyphs) (height : Nat) (P : S) (p : Piece) : S :=
  let x := p.area.x
  let y := p.area.y + baselineOf p.look.font (height - p.look.cell.2)
  let P := p.look.chars M gs y p.text x P
  let P := if p.look.underlined then fill M p.look.color P ⟨x, y + 3 + baselineOf p.look.font p.look.cell.2, p.area.w, 1⟩ else P
  let P := if p.look.strike > 0 then fill M p.look.color P ⟨x, y + p.look.cell.2 * 2 / 5, p.area.w, p.look.strike⟩ else P
  if p.look.upsideDown then M.turn P ⟨x, y, p.area.w, p.area.h⟩ else P

/-- A thing is printed.  (A picture with more dots than its size says is not printed; there are none.) -/
def Thing.paint (gs : Canvas.Glyphs) (P : S) : Thing → S
  | .line l => l.pieces.foldl (Piece.paint M gs l.height) P
  | .box color r => fill M color P r
  | .picture x y upright p =>
    let Q := if p.dots.length ≤ p.width * p.height then M.put P (fun i j => (p.dot i j).getD RGBA.blank) ⟨x, y, p.width, p.height⟩ else P
    if upright then Q else M.turn Q ⟨x, y, p.width, p.height⟩

end Thermal.Spec
