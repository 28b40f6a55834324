import Verif.Spec.Trace
import Mathlib.Data.List.Forall2
/-
What a browser shows of the HTML documents.
-/
namespace Thermal.Spec

/-- Decimal notation. -/
def inDecimal (n : Nat) : Str := (toString n).toList

/-- A block element with a height and a top margin, as it stands in the document. -/
structure Block where
  margin : Nat
  height : Nat
  inner : Str
  deriving DecidableEq, Repr

/-- The text of a block element. -/
def Block.html (b : Block) : Str :=
  "<p style='height: ".toList ++ inDecimal b.height ++ "px; margin-top: ".toList ++ inDecimal b.margin ++ "px'>".toList ++ b.inner ++
    "</p>".toList

/-- Block flow: each block starts its margin below the end of the block before it. -/
def tops (at_ : Nat) : List Block → List Nat
  | [] => []
  | b :: bs => (at_ + b.margin) :: tops (at_ + b.margin + b.height) bs

/-- Where the flow ends. -/
def bottom (at_ : Nat) : List Block → Nat
  | [] => at_
  | b :: bs => bottom (at_ + b.margin + b.height) bs

/-- The rows (top, height) lie below one another, from `y` on. -/
def InOrder (y : Nat) : List (Nat × Nat) → Prop
  | [] => True
  | r :: rs => y ≤ r.1 ∧ InOrder (r.1 + r.2) rs

instance : (y : Nat) → (rs : List (Nat × Nat)) → Decidable (InOrder y rs)
  | _, [] => .isTrue trivial
  | y, r :: rs => @instDecidableAnd _ _ inferInstance (instDecidableInOrder (r.1 + r.2) rs)

/-- How far rows reach into the rows before them, all in all, row by row. -/
def overlaps (y sum : Nat) : List (Nat × Nat) → List Nat
  | [] => []
  | r :: rs => (sum + (y - r.1)) :: overlaps (r.1 + r.2) (sum + (y - r.1)) rs

/-- A rectangle of an SVG picture. -/
def svgRect (r : Rectangle) : Str :=
  "<rect width='".toList ++ inDecimal r.w ++ "' height='".toList ++ inDecimal r.h ++ "' x='".toList ++ inDecimal r.x ++ "' y='".toList ++
    inDecimal r.y ++ "' fill='black' />".toList

/-- An SVG picture `left` dots from the left edge, `w` wide and `h` high. -/
def svg (left w h : Nat) (rects : List Rectangle) : Str :=
  "<svg style='left: ".toList ++ inDecimal left ++ "px;' class='gfx' width='".toList ++ inDecimal w ++ "' height='".toList ++ inDecimal h ++
    "'>".toList ++ ['\n'].intercalate (rects.map svgRect) ++ "</svg>".toList

/-- The smallest of some numbers. -/
def smallest : List Nat → Nat
  | [] => 0
  | [n] => n
  | n :: ns => min n (smallest ns)

/-- The largest of some numbers. -/
def largest : List Nat → Nat
  | [] => 0
  | n :: ns => max n (largest ns)

/-- The class of a colour: 1 is the usual colour of text and needs none, 0 (paper) is the usual background. -/
def colourClass (color : RGBA) (cs : RenderColors) (ofText : Bool) : List Str :=
  if color = cs.color1 then (if ofText then [] else ["bg_1".toList])
  else if color = cs.color2 then (if ofText then ["fg_2".toList] else ["bg_2".toList])
  else if color = cs.color3 then (if ofText then ["fg_3".toList] else ["bg_3".toList])
  else if ofText then ["fg_0".toList] else []

/-- The classes of a piece of text, which say how it looks. -/
def classes (t : TextSpan) (cs : RenderColors) : List Str :=
  let w := 2 ≤ t.stretchWidth ∧ t.stretchWidth ≤ 8
  let h := 2 ≤ t.stretchHeight ∧ t.stretchHeight ≤ 8
  (if t.bold then ["b".toList] else []) ++
  (if t.italic then ["i".toList] else []) ++
  (if t.strikethrough = 0 then [] else if t.strikethrough = 1 then ["s".toList] else ["s".toList, "sd".toList]) ++
  (if w then ['w' :: inDecimal t.stretchWidth] else []) ++
  (if h then ['h' :: inDecimal t.stretchHeight] else []) ++
  (if w ∨ h then ["str".toList] else []) ++
  (if t.underline = 0 then [] else if t.underline = 1 then ["u".toList] else ["u".toList, "ud".toList]) ++
  (if t.upsideDown then ["upd".toList] else []) ++
  (if t.font = .B then ["fb".toList] else if t.font = .C then ["fc".toList] else []) ++
  colourClass t.textColor cs true ++ colourClass t.backgroundColor cs false

/-- A piece of text at its place in a line that starts at `left` and is `high` dots high: text stands on a common baseline,
22 % of the height above the lower edge. -/
def spanTag (left high : Nat) (cs : RenderColors) (t : TextSpan) : Str :=
  "<span style='left: ".toList ++ inDecimal (left + (t.dimensions.map (·.x)).getD 0) ++ "px; top: ".toList ++
    inDecimal ((high - t.characterHeight) * 78 / 100) ++ "px' class='".toList ++ [' '].intercalate (classes t cs) ++ "'>".toList ++
    t.text ++ "</span>".toList

/-- A picture `left` dots from the left edge and `w` wide. -/
def imgTag (left w : Nat) (data : Str) : Str :=
  "<img style='left: ".toList ++ inDecimal left ++ "px;' class='img' width='".toList ++ inDecimal w ++
    "' src='data:image/png;base64, ".toList ++ data ++ "' />".toList

/-- Red, green, blue and alpha of each dot. -/
def rgba (px : List RGBA) : List Byte := px.flatMap fun p => [p.r, p.g, p.b, p.a]

/-- The row that shows what a call prints: its top, its height and its html.  `png` writes a picture of a width, a height and
four bytes for each dot as text. -/
def presents (png : Nat → Nat → List Byte → Str) (x : Context × Call) (y h : Nat) (html : Str) : Prop :=
  match x.2 with
  | .beginRender => y = 0 ∧ h = x.1.getY ∧ html = []
  | .text spans left high _ =>
    y = smallest (spans.map fun s => (s.dimensions.map (·.y)).getD 0) ∧ h = largest (spans.map (·.characterHeight)) ∧
      html = ['\n'].intercalate (spans.map (spanTag left high x.1.graphics.renderColors))
  | .graphics gs =>
    (gs = [] → y = 0 ∧ h = 0 ∧ html = []) ∧
    (gs ≠ [] → ∃ left w rects, html = svg left w h rects ∧
      List.Forall₂ (fun (g r : Rectangle) => left + r.x = g.x ∧ y + r.y = g.y ∧ r.w = g.w ∧ r.h = g.h) gs rects ∧
      (∀ r ∈ rects, r.x + r.w ≤ w ∧ r.y + r.h ≤ h) ∧ (∃ r ∈ rects, r.x = 0) ∧ (∃ r ∈ rects, r.y = 0))
  | .image i => y = i.y ∧ h = i.h ∧ html = imgTag i.x i.w (png i.w i.h (rgba i.pixels))
  | .renderPage => y = x.1.graphics.renderArea.y ∧ ∃ w pixels, pixels.length = w * h ∧
      html = imgTag x.1.graphics.renderArea.x w (png w h (rgba pixels))
  | _ => False

/-- The calls that print something on each document, in order.  In page mode calls paint the page, which is printed as one
picture when it is asked for.  A document ends at each `end_render` and starts anew at each `begin_render` only. -/
def sheets (sheet : List (Context × Call)) : List (Context × Call) → List (List (Context × Call))
  | [] => []
  | x :: xs =>
    match x.2 with
    | .beginRender => sheets [x] xs
    | .endRender => sheet :: sheets sheet xs
    | .renderPage => sheets (sheet ++ [x]) xs
    | .text .. | .graphics _ | .image _ => sheets (if x.1.pageMode.enabled then sheet else sheet ++ [x]) xs
    | _ => sheets sheet xs

/-- A document that shows the calls of `sheet` row by row, in order, each row `presents`ing its call, and each at its `y`, shifted down by as
much as the rows so far reach into the rows before them (not at all when they come from top to bottom). -/
def IsDocument (png : Nat → Nat → List Byte → Str) (head : Str) (out : Str) (sheet : List (Context × Call)) : Prop :=
  ∃ (style : Str) (rows : List (Nat × Nat × Str)) (blocks : List Block),
    out = head ++ "\"".toList ++ style ++ "\"><article>".toList ++ blocks.flatMap Block.html ++
      "</article></section></main>\n</body>\n</html>".toList ∧
    List.Forall₂ (fun x r => presents png x r.1 r.2.1 r.2.2) sheet rows ∧
    blocks.map (fun b => (b.height, b.inner)) = rows.map (·.2) ∧
    tops 0 blocks = (rows.zip (overlaps 0 0 (rows.map fun r => (r.1, r.2.1)))).map (fun p => p.1.1 + p.2)

/-- The text a reader sees: the tags taken away.  The first argument tells whether a tag is open. -/
def visible : Bool → Str → Str
  | _, [] => []
  | true, c :: s => visible (c != '>') s
  | false, c :: s => if c = '<' then visible true s else c :: visible false s

/-- The text of the calls of a document. -/
def sheetText (sheet : List (Context × Call)) : Str := sheet.flatMap fun x => x.2.spans.flatMap (·.text)

end Thermal.Spec
