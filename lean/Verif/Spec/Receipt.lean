import Verif.Model.Canvas
/-
A plain receipt: lines of ASCII characters, and the picture of them.
-/
namespace Thermal.Spec

/-- A line of a plain receipt: at most 50 printable ASCII characters. -/
def plainLine (l : List Byte) : Prop := l.length ≤ 50 ∧ ∀ b ∈ l, 32 ≤ b ∧ b ≤ 126

instance (l : List Byte) : Decidable (plainLine l) := by unfold plainLine; infer_instance

/-- What is sent: every line, and a line feed after it. -/
def receiptBytes (lines : List (List Byte)) : List Byte := lines.flatMap fun l => l ++ [10]

/-- A dot of a black glyph on white: its brightness is 255 less the coverage; beside the glyph it is white. -/
def glyphGrey (g : Canvas.Glyph) (x y : Nat) : Byte :=
  if g.control = false ∧ g.xOffset ≤ x ∧ g.yOffset ≤ y ∧ x - g.xOffset < g.width then
    255 - (g.coverage.getD ((y - g.yOffset) * g.width + (x - g.xOffset)) 0)
  else 255

/-- The dots of the picture of a receipt, 649 dots wide: the first line begins 108 dots below the top and 20 dots right of the left
edge, lines are 24 dots high, characters 12 dots wide; all else is white. -/
def receiptGrey (gs : Canvas.Glyphs) (lines : List (List Byte)) (x y : Nat) : Byte :=
  if x < 20 ∨ y < 108 then 255
  else
    match (lines.getD ((y - 108) / 24) [])[(x - 20) / 12]? with
    | none => 255
    | some b => glyphGrey (gs.glyph false false .A 1 (Char.ofNat b.toNat)) ((x - 20) % 12) ((y - 108) % 24)

end Thermal.Spec
