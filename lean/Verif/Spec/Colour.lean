import Verif.Model.Canvas
/-
The mixing of colours.
-/
namespace Thermal.Spec

/-- `n / d`, rounded to the nearest number (upwards in the middle). -/
def nearest (n d : Nat) : Byte := UInt8.ofNat ((2 * n + d) / (2 * d))

/-- Ink printed over what is there: each part of the light that is left is the product of both.  Transparent ink changes nothing. -/
def overprint (below ink : RGBA) : RGBA :=
  if ink.a = 0 then below
  else
    let part (p q : Byte) : Byte := nearest (p.toNat * q.toNat * ink.a.toNat) (255 * 255)
    ⟨part below.r ink.r, part below.g ink.g, part below.b ink.b, below.a⟩

/-- A dot of a glyph that is covered with ink in part (255 is all). -/
def shade (background ink : RGBA) (coverage : Byte) : RGBA :=
  let part (p q : Byte) : Byte := nearest (q.toNat * coverage.toNat + p.toNat * (255 - coverage.toNat)) 255
  ⟨part background.r ink.r, part background.g ink.g, part background.b ink.b, if coverage = 255 then 255 else background.a⟩

end Thermal.Spec
