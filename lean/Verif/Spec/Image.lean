import Verif.Model.Graphics
import Verif.Spec.Grid
/-
Specification of multi-colour images.
-/
namespace Thermal.Spec

/-- The ink of a colour number `0`-`3`, given as a number or as the digit; any other number is colour 1. -/
def ink (colors : RenderColors) (n : Byte) : RGBA :=
  match n.toNat with
  | 0 => colors.paperColor
  | 2 | 50 => colors.color2
  | 3 | 51 => colors.color3
  | _ => colors.color1

/-- The colour the layers leave on a dot: that of the last layer with the bit set; if none is set the dot is
transparent (carrying the first layer's colour). -/
def topLayer (colors : RenderColors) (layers : List (Byte × List Byte)) (w x y : Nat) : RGBA :=
  match (layers.filter (fun l => rasterBit l.2 w x y)).getLast? with
  | some l => (ink colors l.1).withAlpha 255
  | none => (ink colors ((layers.head?.map (·.1)).getD 0)).withAlpha 0

/-- The dot of the topmost of several stacked pictures of on/off dots: the last one that is on; if none is on, the
first picture's (off) dot. -/
def topDot (first : RGBA) (later : List RGBA) : RGBA := ((later.filter (fun f => f.a = 255)).getLast?).getD first

end Thermal.Spec
