import Verif.Spec.Canvas
import Verif.Model.Canvas
import Verif.Spec.Trace
/-
What the calls of a print job put on the paper, dot by dot, on a sheet without a lower edge.  Only the shapes of the glyphs, which come
from the crate `fontdue`, and the rounding of `scale_bitmap` are parameters (`Canvas.Glyphs`).
-/
namespace Thermal.Spec

/-- An unbounded sheet: the colour of the dot in column x and row y. -/
abbrev Plane := Nat → Nat → RGBA

/-- White paper. -/
def white : Plane := fun _ _ => ⟨255, 255, 255, 255⟩

/-- A filled rectangle, printed over what is there. -/
def rectOn (color : RGBA) (P : Plane) (r : Rectangle) : Plane := drawn RGBA.multiply P (fun _ _ => color) r.x r.y r.w r.h

/-- An image, its dots given row by row, printed over what is there; dots that are not given are transparent.  An image with too many
dots is not printed. -/
def imageOn (width : Nat) (P : Plane) (i : Image) : Plane :=
  let Q := if i.pixels.length ≤ i.w * i.h then drawn RGBA.multiply P (fun x y => i.pixels.getD (y * i.w + x) RGBA.blank) i.x i.y i.w i.h else P
  if i.upsideDown ∧ i.x + i.w ≤ width then flipped Q i.x i.y i.w i.h else Q

/-- The dot of a character cell: the background, and on it the ink of the glyph, whose coverage is given row by row from its offset on. -/
def glyphDot (g : Canvas.Glyph) (background ink : RGBA) (x y : Nat) : RGBA :=
  if g.xOffset ≤ x ∧ g.yOffset ≤ y ∧ x - g.xOffset < g.width then
    (g.coverage[(y - g.yOffset) * g.width + (x - g.xOffset)]?).elim background (background.blendWithAlpha ink)
  else background

/-- By how much the glyph of a character is enlarged. -/
def enlargement (s : TextSpan) : Nat := max (s.characterHeight / s.baseCharacterHeight) (s.characterWidth / s.baseCharacterWidth)

/-- The glyph of a character of a piece of text. -/
def glyphOf (gs : Canvas.Glyphs) (s : TextSpan) (ch : Char) : Canvas.Glyph := gs.glyph s.bold s.italic s.font (enlargement s) ch

/-- The dot of `n` dots that dot `s` of `m` dots shows when the `n` are squeezed into the `m`: `s * n / m` in `f32`, which may be one less than
the exact quotient where that is a whole number (`C87_fitted`). -/
def fitted (s n m : Nat) : Nat := (F32.mul (F32.ofNat s) (F32.div (F32.ofNat n) (F32.ofNat m))).toU32

/-- The dots of the cell of a character: a glyph of the base size as it is, an enlarged one squeezed from the enlarged cell into the cell. -/
def cellDot (gs : Canvas.Glyphs) (s : TextSpan) (ch : Char) (x y : Nat) : RGBA :=
  if enlargement s ≤ 1 then glyphDot (glyphOf gs s ch) s.backgroundColor s.textColor x y
  else glyphDot (glyphOf gs s ch) s.backgroundColor s.textColor
    (fitted x (s.baseCharacterWidth * enlargement s) s.characterWidth) (fitted y (s.baseCharacterHeight * enlargement s) s.characterHeight)

/-- Characters from `(x, y)` on, one cell after the other; control characters leave their cell as it is. -/
def charsOn (gs : Canvas.Glyphs) (s : TextSpan) (y : Nat) : Str → Nat → Plane → Plane
  | [], _, P => P
  | ch :: rest, x, P =>
    charsOn gs s y rest (x + s.characterWidth)
      (if (glyphOf gs s ch).control then P else drawn RGBA.multiply P (cellDot gs s ch) x y s.characterWidth s.characterHeight)

/-- How far below the top of a character of height `h` its baseline is: 0.63504 h, for fonts B and C 0.8 and 0.5 of that. -/
def baselineOf (font : Font) (h : Nat) : Nat :=
  match font with
  | .B => h * 508032 / 1000000
  | .C => h * 31752 / 100000
  | _ => h * 63504 / 100000

/-- A piece of text, printed at its place on a line that is `maxHeight` high: the characters, the underline, the strike-through line; all of
it upside down if so wished and if it fits on the paper. -/
def spanOn (gs : Canvas.Glyphs) (width xOffset maxHeight : Nat) (P : Plane) (s : TextSpan) : Plane :=
  match s.dimensions with
  | none => P
  | some d =>
    let x := d.x + xOffset
    let y := d.y + baselineOf s.font (maxHeight - s.characterHeight)
    let P := charsOn gs s y s.text x P
    let P := if s.underline > 0 then rectOn s.textColor P ⟨x, y + 3 + baselineOf s.font s.characterHeight, d.w, 1⟩ else P
    let P := if s.strikethrough > 0 then rectOn s.textColor P ⟨x, y + s.characterHeight * 2 / 5, d.w, s.strikethrough⟩ else P
    if s.upsideDown ∧ x + d.w ≤ width then flipped P x y d.w d.h else P

/-- What a call prints on paper of the given width. -/
def callOn (gs : Canvas.Glyphs) (width : Nat) (P : Plane) (x : Context × Call) : Plane :=
  match x.2 with
  | .graphics rs => rs.foldl (rectOn x.1.text.color) P
  | .image i => imageOn width P i
  | .text l xOffset maxHeight _ => l.foldl (spanOn gs width xOffset maxHeight) P
  | _ => P

end Thermal.Spec
