import Verif.Model.Canvas
import Verif.Model.Renderer
/-
Model of thermal_renderer/src/image_renderer/mod.rs.
-/
namespace Thermal

/-- image_renderer/mod.rs:27-31 -/
structure ImageRenderer where
  paper : Canvas
  page : Canvas
  debug : Debug
  deriving DecidableEq, Repr

/-- image_renderer/mod.rs:57-61 -/
structure ReceiptImage where
  bytes : List Byte
  width : Nat
  height : Nat
  deriving DecidableEq, Repr

namespace ImageRenderer

/-- image_renderer/mod.rs:34-40 `new`, with the debug profile that `Renderer::render` sets first (64-66). -/
def new (d : Debug := {}) : ImageRenderer := ⟨Canvas.new 0, Canvas.new 0, d⟩

/-- image_renderer/mod.rs:68-86 `begin_render` -/
def beginRender (c : Context) (r : ImageRenderer) : ImageRenderer :=
  { r with
    paper := ({ r.paper with
      debug := r.debug
      paperColor := c.graphics.renderColors.paperColor } : Canvas).empty.setWidth c.graphics.renderArea.w
    page := { ({ r.page with
      debug := r.debug
      paperColor := c.graphics.renderColors.paperColor } : Canvas).setWidth 0 with autoGrow := false } }

/-- image_renderer/mod.rs:88-90 `page_begin` -/
def pageBegin (r : ImageRenderer) : ImageRenderer := { r with page := r.page.setWidth 0 }

/-- image_renderer/mod.rs:100-105, 122-127, 151-156: rotate the page. -/
def rotate (rotation : Rotation) (c : Canvas) : Rs Canvas :=
  match rotation with
  | .R90 => c.rotate90
  | .R180 => c.rotate180
  | .R270 => c.rotate270
  | .R0 => .ok c

/-- image_renderer/mod.rs:107-109 -/
def growWidth (c : Canvas) (width : Nat) : Rs Canvas := if width > c.width then c.expandToWidth width else .ok c

/-- image_renderer/mod.rs:110-112 -/
def growHeight (c : Canvas) (height : Nat) : Rs Canvas := if height > c.getHeight then c.expandToHeight height else .ok c

/-- image_renderer/mod.rs:92-113 `page_area_changed` -/
def pageAreaChanged (rotation : Rotation) (width height : Nat) (r : ImageRenderer) : Rs ImageRenderer := do
  let p ← rotate rotation r.page
  let p ← growWidth p width
  let p ← growHeight p height
  pure { r with page := p }

/-- image_renderer/mod.rs:132-144: the border of the debug profile. -/
def debugPage (r : ImageRenderer) (pixels : List RGBA) (w h : Nat) : Rs (List RGBA) :=
  if r.debug.page then Canvas.drawBorder pixels w h ⟨247, 180, 75, 255⟩ else .ok pixels

/-- image_renderer/mod.rs:115-167 `render_page` -/
def renderPage (c : Context) (r : ImageRenderer) : Rs ImageRenderer := do
  let p ← rotate (directionalRotation c.pageMode.direction .topLeft2Right) r.page
  let (w, h, pixels) := p.copy
  let pixels ← r.debugPage pixels w h
  let p ← rotate (directionalRotation .topLeft2Right c.pageMode.direction) p
  let (paper, _) ← r.paper.putPixels c.graphics.renderArea.x c.graphics.renderArea.y w h pixels false
  pure { r with
    paper := paper
    page := p }

/-- Draw on the page in page mode, else on the paper (image_renderer/mod.rs:170-180, 186-190, 201-205). -/
def onCanvas (c : Context) (r : ImageRenderer) (f : Canvas → Rs Canvas) : Rs ImageRenderer :=
  if c.pageMode.enabled then do pure { r with page := (← f r.page) } else do pure { r with paper := (← f r.paper) }

/-- image_renderer/mod.rs:172-182: the loop over the rectangles. -/
def putRects (color : RGBA) : List Rectangle → Canvas → Rs Canvas
  | [], c => .ok c
  | g :: gs, c => do putRects color gs (← c.putRect g color)

/-- image_renderer/mod.rs:207-211: the loop over the spans. -/
def renderSpans (gs : Canvas.Glyphs) (xOffset maxHeight : Nat) : List TextSpan → Canvas → Rs Canvas
  | [], c => .ok c
  | s :: ss, c => do renderSpans gs xOffset maxHeight ss (← Canvas.renderSpan gs c xOffset maxHeight s)

/-- image_renderer/mod.rs:230-248 `end_render` -/
def endRender (c : Context) (r : ImageRenderer) : Rs (ImageRenderer × ReceiptImage) := do
  let p ← r.paper.expandToWidth c.graphics.paperArea.w
  let p ← p.expandToHeight c.graphics.renderArea.y
  let (p, w, h, bytes) ← p.consumeRgb
  pure ({ r with paper := p }, ⟨bytes, w, h⟩)

end ImageRenderer

/-- image_renderer/mod.rs:63-249: the image renderer as an output renderer.  It has no `page_end` and no `device_command`
(renderer.rs:605, 631: both do nothing). -/
def imageRenderer (gs : Canvas.Glyphs) : OutputRenderer ImageRenderer ReceiptImage where
  beginRender c r := .ok (r.beginRender c)
  pageBegin _ r := .ok r.pageBegin
  pageAreaChanged _ rotation w h r := r.pageAreaChanged rotation w h
  pageEnd _ r := .ok r
  renderPage c r := r.renderPage c
  renderGraphics c graphics r := r.onCanvas c (ImageRenderer.putRects c.text.color graphics)
  renderImage c image r := r.onCanvas c (Canvas.putRenderImg · image)
  renderText c spans xOffset maxHeight _ r := r.onCanvas c (ImageRenderer.renderSpans gs xOffset maxHeight spans)
  deviceCommand _ _ r := .ok r
  getRenderErrors r := (r, r.paper.errors ++ r.page.errors)
  endRender c r := r.endRender c

end Thermal
