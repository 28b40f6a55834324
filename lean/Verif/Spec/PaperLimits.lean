import Verif.Spec.Trace
/-
How much the image renderer can hold: positions and numbers of dots are `u32`s.
-/
namespace Thermal.Spec

/-- The longest strip of paper, in dots: 649 times that many dots are still below 2^32. -/
def longest : Nat := 6600000

/-- The largest side of a page, in dots: the square of it is still below 2^32. -/
def widest : Nat := 65535

/-- How far down one can print: on the page in page mode, else on the paper. -/
def depth (c : Context) : Nat := if c.pageMode.enabled then widest else longest

/-- A piece of text that is printed within the limits: not more than `limit` down, the characters at most 255 dots high. -/
structure SpanWithin (limit xOffset maxHeight : Nat) (s : TextSpan) : Prop where
  height : s.characterHeight ≤ maxHeight
  strike : s.strikethrough ≤ 255
  across : ∀ d, s.dimensions = some d → d.x + xOffset + d.w < 16777216
  width : ∀ d, s.dimensions = some d → s.text.length * s.characterWidth ≤ d.w
  down : ∀ d, s.dimensions = some d → d.y + 1024 ≤ limit
  cell : ∀ d, s.dimensions = some d → d.h ≤ 255

/-- A call to the image renderer within its limits. -/
def Within (x : Context × Call) : Prop :=
  match x.2 with
  | .text l xOffset maxHeight _ => maxHeight ≤ 255 ∧ ∀ s ∈ l, SpanWithin (depth x.1) xOffset maxHeight s
  | .graphics gs => ∀ g ∈ gs, g.x + g.w < U32 ∧ g.w ≤ 255 ∧ g.h ≤ 255 ∧ g.y + 255 ≤ depth x.1
  | .image i => i.pixels.length = i.w * i.h ∧ i.w * i.h < U32 ∧ i.w ≤ 2097152 ∧ i.x + i.w < U32 ∧ i.y + i.h ≤ depth x.1
  | .pageAreaChanged _ w h => w ≤ widest ∧ h ≤ widest
  | .renderPage => x.1.graphics.renderArea.x < 16777216 ∧ x.1.graphics.renderArea.y + widest ≤ longest
  | .endRender => x.1.graphics.renderArea.y ≤ longest
  | _ => True

/-- A call that is made where there is room on the paper, or on the page: text and bars with the pen at least 1024 dots above the end, images
below 2^32 dots that end above it. -/
def Roomy (x : Context × Call) : Prop :=
  match x.2 with
  | .text _ _ _ _ | .graphics _ => x.1.getY + 1024 ≤ depth x.1
  | .image i => i.w * i.h < U32 ∧ i.y + i.h ≤ depth x.1
  | .pageAreaChanged _ w h => w ≤ widest ∧ h ≤ widest
  | .renderPage => x.1.graphics.renderArea.y + widest ≤ longest
  | .endRender => x.1.graphics.renderArea.y ≤ longest
  | _ => True

/-- A call to the HTML renderer within its limits: on the page as for the image renderer; else all positions are `u32`s and images have dots. -/
def WebWithin (x : Context × Call) : Prop :=
  match x.2 with
  | .beginRender => x.1.getY < U32
  | .text l xOffset _ _ => if x.1.pageMode.enabled then Within x
    else xOffset < U32 ∧ ∀ s ∈ l, s.characterHeight ≤ 255 ∧ ∀ d, s.dimensions = some d → xOffset + d.x < U32 ∧ d.y + 255 < U32
  | .graphics gs => if x.1.pageMode.enabled then Within x else ∀ g ∈ gs, g.x + g.w < U32 ∧ g.y + g.h < U32
  | .image i => if x.1.pageMode.enabled then Within x else i.pixels.length = i.w * i.h ∧ 0 < i.w ∧ 0 < i.h ∧ i.y + i.h < U32
  | .pageAreaChanged _ w h => w ≤ widest ∧ h ≤ widest
  | .renderPage => x.1.graphics.renderArea.y + widest < U32
  | _ => True

/-- A call that is made where there is room on the page, or with an image that is not empty. -/
def WebRoomy (x : Context × Call) : Prop :=
  match x.2 with
  | .text _ _ _ _ | .graphics _ => x.1.pageMode.enabled = true → x.1.getY + 1024 ≤ widest
  | .image i => if x.1.pageMode.enabled then i.w * i.h < U32 ∧ i.y + i.h ≤ widest else 0 < i.w ∧ 0 < i.h
  | .pageAreaChanged _ w h => w ≤ widest ∧ h ≤ widest
  | _ => True

/-- Whether there is a page with dots after a call: a page begins without a size; it gets one with an area that is not empty. -/
def pageSized (sized : Bool) : Call → Bool
  | .beginRender | .pageBegin => false
  | .pageAreaChanged _ w h => sized || (decide (0 < w) && decide (0 < h))
  | _ => sized

/-- Pages are printed only when they have got a size. -/
def PagesSized : Bool → List Call → Prop
  | _, [] => True
  | sized, k :: ks => (k = .renderPage → sized = true) ∧ PagesSized (pageSized sized k) ks

end Thermal.Spec
