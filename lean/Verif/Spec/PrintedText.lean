import Verif.Spec.Style
import Verif.Spec.Decoder
import Verif.Spec.Trace
/-
The text a stream of commands prints, and how it looks, according to the command reference.
-/
namespace Thermal.Spec

/-- How a character looks: `strike` is the thickness of the line through it, `cell` the size of its cell, `base` that size before it is
enlarged. -/
structure CharLook where
  font : Font
  bold : Bool
  italic : Bool
  underlined : Bool
  strike : Nat
  reversed : Bool
  upsideDown : Bool
  justify : TextJustify
  color : RGBA
  background : RGBA
  cell : Nat × Nat
  base : Nat × Nat
  deriving DecidableEq, Repr

/-- The size of a character cell of a font, in dots: 12 by 24 for font A, 9 by 17 for the others. -/
def fontCell (f : Font) : Nat × Nat :=
  match f with
  | .A => (12, 24)
  | _ => (9, 17)

/-- The thickness of a strike-through line: 2/96 inch. -/
def strikeDots (dotsPerInch : Nat) : Nat := 2 * dotsPerInch / 96

/-- The look of characters printed in a style. -/
def Style.look (s : Style) : CharLook where
  font := s.font
  bold := s.bold
  italic := s.italic
  underlined := s.underline != .off
  strike := if s.doubleStrike then strikeDots s.dotsPerInch else 0
  reversed := s.reversed
  upsideDown := s.upsideDown
  justify := s.justify
  color := s.color
  background := s.background
  cell := ((fontCell s.font).1 * s.widthTimes, (fontCell s.font).2 * s.heightTimes)
  base := fontCell s.font

/-- The look of the characters of a span that an output renderer gets. -/
def lookOf (t : TextSpan) : CharLook where
  font := t.font
  bold := t.bold
  italic := t.italic
  underlined := t.underline != 0
  strike := t.strikethrough
  reversed := t.inverted
  upsideDown := t.upsideDown
  justify := t.justify
  color := t.textColor
  background := t.backgroundColor
  cell := (t.characterWidth, t.characterHeight)
  base := (t.baseCharacterWidth, t.baseCharacterHeight)

/-- The characters of a span with their look. -/
def looks (t : TextSpan) : List (Char × CharLook) := t.text.map fun c => (c, lookOf t)

/-- The text of a command: LF, HT, CR, or bytes to be read in the code table and character set of the style (code table
255 is UTF-8). -/
def Style.textOf (s : Style) (c : Command) : Str :=
  if c.kind ≠ .text then []
  else match c.commands with
    | [10] => ['\n']
    | [9] => ['\t']
    | [13] => ['\r']
    | _ =>
      if s.codeTable = 255 then fromUtf8Lossy c.data
      else c.data.flatMap (byteText (.ofNat s.codeTable) (.ofNat s.characterSet))

/-- What a list of commands prints, starting with a style: each character with the look of the style in force when its
command comes. -/
def printed (s : Style) : List Command → List (Char × CharLook)
  | [] => []
  | c :: cs => (s.textOf c).map (fun ch => (ch, s.look)) ++ printed (s.step c.commands c.data) cs

end Thermal.Spec
