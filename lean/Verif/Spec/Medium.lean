import Verif.Spec.Picture
import Verif.Spec.Colour
import Verif.Model.ImageRenderer
/-
What is printed on: paper and pages.
-/
namespace Thermal.Spec

/-- Something to print on: dots can be put over a rectangle of it, and a rectangle of it can be turned over (its rows reversed). -/
structure Medium (S : Type) where
  put : S → (Nat → Nat → RGBA) → Rectangle → S
  turn : S → Rectangle → S

/-- Paper from a roll: its dots, and how far down it is in use. -/
structure Roll where
  dots : Plane
  reach : Nat

/-- White paper. -/
def Roll.blank : Roll := ⟨white, 0⟩

/-- In use down to `y` at least. -/
def Roll.fedTo (R : Roll) (y : Nat) : Roll := ⟨R.dots, max R.reach y⟩

/-- Paper of the given width, without a lower edge.  Only what lies on the paper can be turned over. -/
def paperRoll (width : Nat) : Medium Roll where
  put R g r := ⟨drawn overprint R.dots g r.x r.y r.w r.h, if r.x < width then max R.reach (r.y + r.h) else R.reach⟩
  turn R r := if r.x + r.w ≤ width then ⟨flipped R.dots r.x r.y r.w r.h, max R.reach (r.y + r.h)⟩ else R

/-- A picture is put on paper of the given width instead of what is there. -/
def Roll.paste (width : Nat) (R : Roll) (g : Plane) (x y w h : Nat) : Roll :=
  ⟨drawn (fun _ new => new) R.dots g x y w h, if x < width then max R.reach (y + h) else R.reach⟩

/-! ### Pages -/

/-- A page: its dots in columns 0 … w - 1 and rows 0 … h - 1. -/
structure Page where
  w : Nat
  h : Nat
  dots : Plane

namespace Page

/-- No page yet. -/
def empty : Page := ⟨0, 0, white⟩

/-- The page with white paper below it. -/
def sheet (p : Page) : Plane := fun x y => if y < p.h then p.dots x y else white x y

/-- Turned clockwise.  (A page without rows loses its width when it is turned by 90 degrees.) -/
def turned (p : Page) : Rotation → Page
  | .R0 => p
  | .R90 => ⟨p.h, if p.h = 0 then 0 else p.w, fun x y => p.dots y (p.h - 1 - x)⟩
  | .R180 => ⟨p.w, p.h, fun x y => p.dots (p.w - 1 - x) (p.h - 1 - y)⟩
  | .R270 => ⟨p.h, if p.h = 0 then 0 else p.w, fun x y => p.dots (p.w - 1 - y) x⟩

/-- Made at least `w` wide, what is there in the middle. -/
def widened (w : Nat) (p : Page) : Page :=
  if p.w < w then
    ⟨w, p.h, fun x y => if (w - p.w) / 2 ≤ x ∧ x < (w - p.w) / 2 + p.w then p.dots (x - (w - p.w) / 2) y else white x y⟩
  else p

/-- Made at least `h` high. -/
def lengthened (h : Nat) (p : Page) : Page := if p.h < h ∧ 0 < p.w then ⟨p.w, h, p.sheet⟩ else p

/-- Dots are printed if their upper left corner is on the page.  What is right of the page is cut off, and so is what is below it.  (But
what is on the page in its width, and would be in its height if it were as high as it is wide, makes the page longer.) -/
def put (p : Page) (g : Nat → Nat → RGBA) (r : Rectangle) : Page :=
  if r.x < p.w ∧ r.y < p.h then
    ⟨p.w, if r.x + r.w ≤ p.w ∧ r.y + r.w ≤ p.h then max p.h (r.y + r.h) else p.h, drawn overprint p.sheet g r.x r.y r.w r.h⟩
  else p

/-- A rectangle turned over; the page is made longer if need be. -/
def turnOver (p : Page) (r : Rectangle) : Page :=
  if r.x + r.w ≤ p.w ∧ 0 < p.w then ⟨p.w, max p.h (r.y + r.h), flipped p.sheet r.x r.y r.w r.h⟩ else p

end Page

/-- Printing on a page. -/
def pageMedium : Medium Page := ⟨Page.put, Page.turnOver⟩

/-- By how much a page, printed on from left to right, is turned clockwise so that the lines run in the print direction. -/
def toDirection : PrintDirection → Rotation
  | .topLeft2Right => .R0
  | .bottomLeft2Top => .R270
  | .bottomRight2Left => .R180
  | .topRight2Bottom => .R90

/-- And back. -/
def Rotation.back : Rotation → Rotation
  | .R90 => .R270
  | .R270 => .R90
  | r => r

end Thermal.Spec
