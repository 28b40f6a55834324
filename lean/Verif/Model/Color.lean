import Verif.Model.F32
/-
Model of `RGBA` (thermal_parser/src/graphics.rs:4-81).
-/
namespace Thermal

/-- graphics.rs:4-10 -/
structure RGBA where
  r : Byte
  g : Byte
  b : Byte
  a : Byte
  deriving DecidableEq, Repr

/-- graphics.rs:19-26 -/
def RGBA.blank : RGBA := ⟨0, 0, 0, 0⟩

/-- graphics.rs:28-30 -/
def RGBA.asHex (c : RGBA) : Str := ['#'] ++ hex02 c.r ++ hex02 c.g ++ hex02 c.b ++ hex02 c.a

/-- graphics.rs:33-40.  The blue channel is taken from green, as in the code. -/
def RGBA.withAlpha (c : RGBA) (a : Byte) : RGBA := ⟨c.r, c.g, c.g, a⟩

/-- graphics.rs:76-79: `color * alpha + self * (1.0 - alpha)` with `alpha = a / 255.0`, in f32 -/
def F32.blendF (fg bg a : Nat) : F32 :=
  let alpha := div (ofNat a) (ofNat 255)
  add (mul (ofNat fg) alpha) (mul (ofNat bg) (sub (ofNat 1) alpha))

/-- graphics.rs:76-79: the `.round() as u8` of it -/
@[irreducible] def blendChan (fg bg a : Byte) : Byte := (F32.blendF fg.toNat bg.toNat a.toNat).roundU8

/-- graphics.rs:62-80 `blend_foreground_with_alpha`.  The alpha channel only changes for an opaque foreground. -/
def RGBA.blendWithAlpha (c fg : RGBA) (alpha : Byte) : RGBA :=
  let c := if alpha = 255 then ⟨fg.r, fg.g, fg.b, 255⟩ else c
  if alpha = 0 then c
  else ⟨blendChan fg.r c.r alpha, blendChan fg.g c.g alpha, blendChan fg.b c.b alpha, c.a⟩

/-- graphics.rs:43-45 `blend_foreground` -/
def RGBA.blend (c fg : RGBA) : RGBA := c.blendWithAlpha fg fg.a

/-- graphics.rs:53-56: `(self / 255.0 * color / 255.0 * alpha) * 255.0` with `alpha = a / 255.0`, in f32 -/
def F32.mulF (bg fg a : Nat) : F32 :=
  mul (mul (div (mul (div (ofNat bg) (ofNat 255)) (ofNat fg)) (ofNat 255)) (div (ofNat a) (ofNat 255))) (ofNat 255)

/-- graphics.rs:53-56: the `.round() as u8` of it -/
@[irreducible] def mulChan (bg fg a : Byte) : Byte := (F32.mulF bg.toNat fg.toNat a.toNat).roundU8

/-- graphics.rs:47-57 `multiply_foreground` -/
def RGBA.multiply (c fg : RGBA) : RGBA :=
  if fg.a = 0 then c
  else ⟨mulChan c.r fg.r fg.a, mulChan c.g fg.g fg.a, mulChan c.b fg.b fg.a, c.a⟩

end Thermal
