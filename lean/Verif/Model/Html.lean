import Verif.Model.ImageRenderer
import Verif.Model.HtmlTemplate
/-
Model of thermal_renderer/src/html_renderer/mod.rs and thermal_html.rs.
-/
namespace Thermal.Html

/-- `{}` of a u32 -/
def num (n : Nat) : Str := Nat.toDigits 10 n

/-- A string constant of a format string. -/
def lit (s : String) : Str := s.toList

/-- `Vec<String>::join` -/
def join (sep : Str) : List Str → Str
  | [] => []
  | [s] => s
  | s :: ss => s ++ sep ++ join sep ss

/-- `str::replace` for a non-empty pattern: the loop; the number of characters still to be skipped comes first. -/
def replaceLoop (p r : Str) : Nat → Str → Str
  | _, [] => []
  | k + 1, _ :: s => replaceLoop p r k s
  | 0, c :: s => if p.isPrefixOf (c :: s) then r ++ replaceLoop p r (p.length - 1) s else c :: replaceLoop p r 0 s

/-- `str::replace` for a non-empty pattern: all occurrences from left to right that do not overlap. -/
def replace (p r s : Str) : Str := replaceLoop p r 0 s

/-- html_renderer/mod.rs:42-46 -/
structure Row where
  y : Nat
  height : Nat
  content : Str
  deriving DecidableEq, Repr

/-- html_renderer/mod.rs:48-56 -/
def Row.empty : Row := ⟨0, 0, []⟩

/-- graphics.rs:142-153 `as_rgba_u8` -/
def rgbaBytes (px : List RGBA) : List Byte := px.flatMap fun p => [p.r, p.g, p.b, p.a]

/-- The crates png and base64: the text of an encoded image of the given width, height and bytes. -/
abbrev Png := Nat → Nat → List Byte → Str

/-- thermal_html.rs:9-34 `encode_html_image`.  The png crate rejects an image without pixels and data of the wrong length; the
code unwraps both. -/
def encodeImage (png : Png) (i : Image) : Rs Row :=
  if i.w = 0 ∨ i.h = 0 then .error .explicit
  else if (rgbaBytes i.pixels).length ≠ i.w * i.h * 4 then .error .explicit
  else .ok ⟨i.y, i.h, lit "<img style='left: " ++ num i.x ++ lit "px;' class='img' width='" ++ num i.w ++
    lit "' src='data:image/png;base64, " ++ png i.w i.h (rgbaBytes i.pixels) ++ lit "' />"⟩

/-- thermal_html.rs:47-54: the smallest coordinates. -/
def minCorner : List Rectangle → Nat × Nat → Nat × Nat
  | [], m => m
  | g :: gs, m => minCorner gs (min m.1 g.x, min m.2 g.y)

/-- thermal_html.rs:63-66 -/
def rectHtml (w h x y : Nat) : Str :=
  lit "<rect width='" ++ num w ++ lit "' height='" ++ num h ++ lit "' x='" ++ num x ++ lit "' y='" ++ num y ++
    lit "' fill='black' />"

/-- thermal_html.rs:56-68: the rectangles relative to the corner; also the width and the height so far. -/
def svgRects (m : Nat × Nat) : List Rectangle → Nat × Nat → List Str → Rs (Nat × Nat × List Str)
  | [], s, svg => .ok (s.1, s.2, svg)
  | g :: gs, s, svg => do
    let x := g.x - m.1
    let y := g.y - m.2
    let w := max s.1 (← addU32 x g.w)
    let h := max s.2 (← addU32 y g.h)
    svgRects m gs (w, h) (svg ++ [rectHtml g.w g.h x y])

/-- thermal_html.rs:74-80 -/
def svgHtml (x w h : Nat) (svg : List Str) : Str :=
  lit "<svg style='left: " ++ num x ++ lit "px;' class='gfx' width='" ++ num w ++ lit "' height='" ++ num h ++ lit "'>" ++
    join ['\n'] svg ++ lit "</svg>"

/-- thermal_html.rs:36-82 `graphics_to_svg` -/
def graphicsToSvg (gs : List Rectangle) : Rs Row :=
  if gs = [] then .ok Row.empty
  else do
    let m := minCorner gs (U32 - 1, U32 - 1)
    let (w, h, svg) ← svgRects m gs (0, 0) []
    pure ⟨m.2, h, svgHtml m.1 w h svg⟩

/-- thermal_html.rs:229-246 `color_to_class` -/
def colorToClass (color : RGBA) (cs : RenderColors) (fg : Bool) : Str :=
  if color = cs.color1 then (if fg then [] else lit "bg_1")
  else if color = cs.color2 then (if fg then lit "fg_2" else lit "bg_2")
  else if color = cs.color3 then (if fg then lit "fg_3" else lit "bg_3")
  else if fg then lit "fg_0" else []

/-- thermal_html.rs:112-113, 155-164, 170-179: the class of a stretch factor. -/
def stretchClass (axis : Char) (n : Nat) : Str := if 2 ≤ n ∧ n ≤ 8 then axis :: num n else []

/-- thermal_html.rs:134-218: the classes of a span. -/
def classList (t : TextSpan) (cs : RenderColors) : List Str :=
  let w := stretchClass 'w' t.stretchWidth
  let h := stretchClass 'h' t.stretchHeight
  let fg := colorToClass t.textColor cs true
  let bg := colorToClass t.backgroundColor cs false
  (if t.bold then [lit "b"] else []) ++
  (if t.italic then [lit "i"] else []) ++
  (if t.strikethrough > 0 then [lit "s"] else []) ++
  (if t.strikethrough > 1 then [lit "sd"] else []) ++
  (if w ≠ [] then [w] else []) ++
  (if h ≠ [] then [h] else []) ++
  (if w ≠ [] ∨ h ≠ [] then [lit "str"] else []) ++
  (if t.underline > 0 then [lit "u"] else []) ++
  (if t.underline > 1 then [lit "ud"] else []) ++
  (if t.upsideDown then [lit "upd"] else []) ++
  (match t.font with | .B => [lit "fb"] | .C => [lit "fc"] | _ => []) ++
  (if fg ≠ [] then [fg] else []) ++
  (if bg ≠ [] then [bg] else [])

/-- thermal_html.rs:128-131: `(max_height as f32 * ratio - character_height as f32 * ratio) as u32`; the ratio is 0.78
(html_renderer/mod.rs:235).  A negative difference becomes 0, here as there. -/
def baselineOffset (maxHeight h : Nat) : Nat :=
  (F32.sub (F32.mul (F32.ofNat maxHeight) (F32.lit 78 100)) (F32.mul (F32.ofNat h) (F32.lit 78 100))).toU32

/-- thermal_html.rs:219-226 -/
def spanHtml (x top : Nat) (classes : List Str) (text : Str) : Str :=
  lit "<span style='left: " ++ num x ++ lit "px; top: " ++ num top ++ lit "px' class='" ++ join [' '] classes ++ lit "'>" ++ text ++
    lit "</span>"

/-- thermal_html.rs:136-139 -/
def spanCorner (t : TextSpan) : Nat × Nat := match t.dimensions with | none => (0, 0) | some d => (d.x, d.y)

/-- thermal_html.rs:115-227 `span_to_html` -/
def spanToHtml (t : TextSpan) (xOffset maxHeight : Nat) (cs : RenderColors) : Rs (Nat × Str) := do
  let x ← addU32 xOffset (spanCorner t).1
  pure ((spanCorner t).2, spanHtml x (baselineOffset maxHeight t.characterHeight) (classList t cs) t.text)

/-- thermal_html.rs:98-103: the loop over the spans, with the height, the smallest y and the html so far. -/
def spansLoop (xOffset maxHeight : Nat) (cs : RenderColors) : List TextSpan → Nat → Nat → List Str → Rs Row
  | [], height, y, html => .ok ⟨y, height, join ['\n'] html⟩
  | t :: ts, height, y, html => do
    let (ty, s) ← spanToHtml t xOffset maxHeight cs
    spansLoop xOffset maxHeight cs ts (max height t.characterHeight) (min y ty) (html ++ [s])

/-- thermal_html.rs:85-110 `spans_to_html` -/
def spansToHtml (ts : List TextSpan) (xOffset maxHeight : Nat) (cs : RenderColors) : Rs Row :=
  if ts = [] then .ok Row.empty else spansLoop xOffset maxHeight cs ts 0 (U32 - 1) []

end Html

/-- html_renderer/mod.rs:34-40; the template never changes. -/
structure HtmlRenderer where
  lastY : Nat
  content : List Str
  page : Canvas
  debug : Debug
  deriving DecidableEq, Repr

namespace HtmlRenderer
open Html

/-- html_renderer/mod.rs:59-67 `new`, with the debug profile that `Renderer::render` sets first (95-97). -/
def new (d : Debug := {}) : HtmlRenderer := ⟨0, [], Canvas.new 0, d⟩

/-- html_renderer/mod.rs:84-87 -/
def rowHtml (height margin : Nat) (content : Str) : Str :=
  lit "<p style='height: " ++ num height ++ lit "px; margin-top: " ++ num margin ++ lit "px'>" ++ content ++ lit "</p>"

/-- html_renderer/mod.rs:82-91 `push_row` -/
def pushRow (r : HtmlRenderer) (row : Row) : Rs HtmlRenderer := do
  let content := r.content ++ [rowHtml row.height (row.y - r.lastY) row.content]
  let lastY ← addU32 row.y row.height
  pure { r with
    content := content
    lastY := lastY }

/-- html_renderer/mod.rs:99-124 `begin_render` -/
def beginRender (c : Context) (r : HtmlRenderer) : Rs HtmlRenderer :=
  pushRow
    { r with
      page := { ({ r.page with
        debug := r.debug
        paperColor := c.graphics.renderColors.paperColor } : Canvas).setWidth 0 with autoGrow := false }
      lastY := c.getY
      content := [] }
    ⟨0, c.getY, []⟩

/-- html_renderer/mod.rs:126-128 `page_begin` -/
def pageBegin (r : HtmlRenderer) : HtmlRenderer := { r with page := r.page.setWidth 0 }

/-- html_renderer/mod.rs:130-153 `page_area_changed` -/
def pageAreaChanged (rotation : Rotation) (width height : Nat) (r : HtmlRenderer) : Rs HtmlRenderer := do
  let p ← ImageRenderer.rotate rotation r.page
  let p ← ImageRenderer.growWidth p width
  let p ← ImageRenderer.growHeight p height
  pure { r with page := p }

/-- html_renderer/mod.rs:155-197 `render_page` -/
def renderPage (png : Png) (c : Context) (r : HtmlRenderer) : Rs HtmlRenderer := do
  let p ← ImageRenderer.rotate (directionalRotation c.pageMode.direction .topLeft2Right) r.page
  let (w, h, pixels) := p.copy
  let p ← ImageRenderer.rotate (directionalRotation .topLeft2Right c.pageMode.direction) p
  let row ← encodeImage png ⟨pixels, c.graphics.renderArea.x, c.graphics.renderArea.y, w, h, .block, false⟩
  pushRow { r with page := p } row

/-- html_renderer/mod.rs:199-211 `render_graphics` -/
def renderGraphics (c : Context) (gs : List Rectangle) (r : HtmlRenderer) : Rs HtmlRenderer :=
  if c.pageMode.enabled then do pure { r with page := (← ImageRenderer.putRects c.text.color gs r.page) }
  else do pushRow r (← graphicsToSvg gs)

/-- html_renderer/mod.rs:213-219 `render_image` -/
def renderImage (png : Png) (c : Context) (i : Image) (r : HtmlRenderer) : Rs HtmlRenderer :=
  if c.pageMode.enabled then do pure { r with page := (← r.page.putRenderImg i) }
  else do pushRow r (← encodeImage png i)

/-- html_renderer/mod.rs:221-244 `render_text` -/
def renderText (gs : Canvas.Glyphs) (c : Context) (ts : List TextSpan) (xOffset maxHeight : Nat) (r : HtmlRenderer) : Rs HtmlRenderer :=
  if c.pageMode.enabled then do pure { r with page := (← ImageRenderer.renderSpans gs xOffset maxHeight ts r.page) }
  else do pushRow r (← spansToHtml ts xOffset maxHeight c.graphics.renderColors)

/-- html_renderer/mod.rs:271-278: the style of the receipt. -/
def receiptStyle (c : Context) (padding : Nat) : Str :=
  lit "width: " ++ num c.graphics.paperArea.w ++ lit "px; padding-left: " ++ num c.graphics.paperArea.x ++
    lit "px; padding-right: " ++ num c.graphics.paperArea.y ++ lit "px; padding-bottom: " ++ num padding ++ lit "px;"

/-- html_renderer/mod.rs:246-283 `end_render` -/
def endRender (c : Context) (r : HtmlRenderer) : Str :=
  let padding := c.getY - r.lastY
  let cs := c.graphics.renderColors
  let t := replace (lit "{{color-0}}") cs.paperColor.asHex template
  let t := replace (lit "{{color-1}}") cs.color1.asHex t
  let t := replace (lit "{{color-2}}") cs.color2.asHex t
  let t := replace (lit "{{color-3}}") cs.color3.asHex t
  let t := replace (lit "{{content}}") r.content.flatten t
  replace (lit "{{receipt-style}}") (receiptStyle c padding) t

end HtmlRenderer

/-- html_renderer/mod.rs:94-284: the HTML renderer as an output renderer.  `page_end`, `device_command` and `get_render_errors`
are the defaults of the trait (renderer.rs:611, 633, 638-640), which do nothing. -/
def htmlRenderer (gs : Canvas.Glyphs) (png : Html.Png) : OutputRenderer HtmlRenderer Str where
  beginRender c r := r.beginRender c
  pageBegin _ r := .ok r.pageBegin
  pageAreaChanged _ rotation w h r := r.pageAreaChanged rotation w h
  pageEnd _ r := .ok r
  renderPage c r := r.renderPage png c
  renderGraphics c graphics r := r.renderGraphics c graphics
  renderImage c image r := r.renderImage png c image
  renderText c spans xOffset maxHeight _ r := r.renderText gs c spans xOffset maxHeight
  deviceCommand _ _ r := .ok r
  getRenderErrors r := (r, [])
  endRender c r := .ok (r, r.endRender c)

end Thermal
