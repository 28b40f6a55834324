import Verif.Model.Graphics
import Verif.Model.Loop
/-
Model of thermal_renderer/src/image_renderer/thermal_image.rs: a canvas of fixed width that grows downwards.

Glyphs come from the crate `fontdue`: they are a parameter (`Glyphs`).  Products and sums of `u32` values are checked as in
the debug profile.  The f32 expressions of `get_font_size`, `render_span` and `scale_bitmap` are f32 expressions here (Model/F32).
-/
namespace Thermal

/-- renderer.rs:26-32 `DebugProfile`; `info` only prints. -/
structure Debug where
  text : Bool := false
  image : Bool := false
  page : Bool := false
  deriving DecidableEq, Repr

/-- thermal_image.rs:23-36 `ThermalImage`, without the fonts, the font size and the constant debug colours. -/
structure Canvas where
  bytes : List RGBA
  width : Nat
  autoGrow : Bool
  debug : Debug
  paperColor : RGBA
  errors : List Str
  deriving DecidableEq, Repr

namespace Canvas

/-- thermal_image.rs:69-74 -/
def textDebugColor : RGBA := ⟨98, 224, 89, 255⟩
/-- thermal_image.rs:75-80 -/
def baselineDebugColor : RGBA := ⟨110, 255, 185, 255⟩
/-- thermal_image.rs:81-86 -/
def imageDebugColor : RGBA := ⟨216, 74, 252, 255⟩

/-- thermal_image.rs:39-101 `new` -/
def new (width : Nat) : Canvas := ⟨[], width, true, {}, ⟨255, 255, 255, 255⟩, []⟩

/-- thermal_image.rs:613-619 `get_height` (`as u32` is exact below 2^32 rows) -/
def getHeight (c : Canvas) : Nat := if c.width = 0 then 0 else c.bytes.length / c.width

/-- thermal_image.rs:130-143 `rotate_90` (usize arithmetic) -/
def rotate90 (c : Canvas) : Rs Canvas := do
  let w := c.width
  let h := c.getHeight
  let px ← forRange h (List.replicate (w * h) RGBA.blank) fun r y =>
    forRange w r fun r x => do
      let v ← idx c.bytes (y * w + x)
      setIdx r (x * h + (h - 1 - y)) v
  pure { c with
    bytes := px
    width := h }

/-- thermal_image.rs:145-157 `rotate_180` -/
def rotate180 (c : Canvas) : Rs Canvas := do
  let w := c.width
  let h := c.getHeight
  let px ← forRange h (List.replicate (w * h) RGBA.blank) fun r y =>
    forRange w r fun r x => do
      let v ← idx c.bytes (y * w + x)
      setIdx r ((h - 1 - y) * w + (w - 1 - x)) v
  pure { c with bytes := px }

/-- thermal_image.rs:159-172 `rotate_270` -/
def rotate270 (c : Canvas) : Rs Canvas := do
  let w := c.width
  let h := c.getHeight
  let px ← forRange h (List.replicate (w * h) RGBA.blank) fun r y =>
    forRange w r fun r x => do
      let v ← idx c.bytes (y * w + x)
      setIdx r ((w - 1 - x) * h + y) v
  pure { c with
    bytes := px
    width := h }

/-- thermal_image.rs:175-178 `set_width` -/
def setWidth (c : Canvas) (width : Nat) : Canvas :=
  { c with
    width := width
    bytes := [] }

/-- thermal_image.rs:180-183 `reset` -/
def reset (c : Canvas) : Canvas := { c with bytes := [] }

/-- thermal_image.rs:696-698 `empty` -/
def empty (c : Canvas) : Canvas := { c with bytes := [] }

/-- thermal_image.rs:621-632 `expand_to_height` -/
def expandToHeight (c : Canvas) (height : Nat) : Rs Canvas := do
  let len ← mulU32 c.width height
  pure (if c.bytes.length ≥ len then c
    else { c with bytes := c.bytes ++ List.replicate (len - c.bytes.length) c.paperColor })

/-- thermal_image.rs:603-607: one row of the cropped picture. -/
def cropRow (pixels : List RGBA) (width newWidth : Nat) (acc : List RGBA) (y : Nat) : Rs (List RGBA) := do
  let start ← mulU32 y width
  let row ← slice pixels start (start + newWidth)
  pure (acc ++ row)

/-- thermal_image.rs:582-611 `crop_pixels` -/
def cropPixels (pixels : List RGBA) (width height maxWidth maxHeight : Nat) (cropHeight : Bool) : Rs (Nat × Nat × List RGBA) := do
  let newWidth := if width > maxWidth then maxWidth else width
  let newHeight := if cropHeight then (if height > maxHeight then maxHeight else height) else height
  let _ ← mulU32 newWidth newHeight
  let px ← forRange newHeight [] (cropRow pixels width newWidth)
  pure (newWidth, newHeight, px)

/-- thermal_image.rs:529: `!self.auto_grow && (y + width > self.get_height())`; the code adds the width, not the height. -/
def needsCropH (c : Canvas) (y width : Nat) : Rs Bool :=
  if c.autoGrow then .ok false else do
    let s ← addU32 y width
    pure (decide (s > c.getHeight))

/-- thermal_image.rs:528-549: the pixels that are drawn, with their width and height. -/
def fitPixels (c : Canvas) (x y width height : Nat) (pixels : List RGBA) : Rs (Nat × Nat × List RGBA) := do
  let s ← addU32 x width
  let cropH ← c.needsCropH y width
  if decide (s > c.width) || cropH then
    cropPixels pixels width height (c.width - x) (if c.getHeight ≤ y then 0 else c.getHeight - y) (!c.autoGrow)
  else pure (width, height, pixels)

/-- thermal_image.rs:553-577: the loops over the pixels; `op` is `multiply_foreground` or `blend_foreground`. -/
def putLoop (op : RGBA → RGBA → RGBA) (width x fw : Nat) : List RGBA → Nat → Nat → List RGBA → Rs (List RGBA)
  | [], _, _, bytes => .ok bytes
  | p :: rest, curX, curY, bytes => do
    let r ← mulU32 curY width
    let i ← addU32 r curX
    let old ← idx bytes i
    let bytes ← setIdx bytes i (op old p)
    let e ← addU32 x fw
    let last ← subU e 1
    if curX = last then do putLoop op width x fw rest x (← addU32 curY 1) bytes
    else do putLoop op width x fw rest (← addU32 curX 1) curY bytes

/-- thermal_image.rs:515-523: the message. -/
def exceeded (x y w h : Nat) (a b : Bool) : Str :=
  s!"Image exceeded paper x{x} y{y} w{w} h{h} : exceeded: width? {a} height? {b}".toList

/-- thermal_image.rs:489-580 `put_pixels`: the canvas and whether the pixels were drawn.  The number of pixels is compared
as a `u32` there; more than 2^32 pixels do not occur. -/
def putPixels (c : Canvas) (x y width height : Nat) (pixels : List RGBA) (multiply : Bool) : Rs (Canvas × Bool) := do
  let size ← mulU32 width height
  if size < pixels.length then
    pure ({ c with errors := c.errors ++ ["Bad pixel data, not enough bytes".toList] }, false)
  else if decide (x ≥ c.width) || (decide (y ≥ c.getHeight) && !c.autoGrow) then
    pure ({ c with errors := c.errors ++ [exceeded x y c.width c.getHeight (decide (x ≥ c.width)) (decide (y ≥ c.getHeight))] }, false)
  else do
    let (fw, fh, px) ← c.fitPixels x y width height pixels
    let bottom ← addU32 y fh
    let c ← c.expandToHeight bottom
    let bytes ← putLoop (if multiply then RGBA.multiply else RGBA.blend) c.width x fw px x y c.bytes
    pure ({ c with bytes := bytes }, true)

/-- thermal_image.rs:185-187 `draw_rect` -/
def drawRect (c : Canvas) (x y w h : Nat) (color : RGBA) (multiply : Bool) : Rs Canvas := do
  let n ← mulU32 w h
  let (c, _) ← c.putPixels x y w h (List.replicate n color) multiply
  pure c

/-- thermal_image.rs:457-466 `put_rect` -/
def putRect (c : Canvas) (r : Rectangle) (color : RGBA) : Rs Canvas := c.drawRect r.x r.y r.w r.h color true

/-- `sub_image.swap(i, j)` -/
def swapIdx (l : List RGBA) (i j : Nat) : Rs (List RGBA) := do
  let a ← idx l i
  let b ← idx l j
  let l ← setIdx l i b
  setIdx l j a

/-- thermal_image.rs:433-439: collect the rows of a rectangle. -/
def collectRow (c : Canvas) (x y width : Nat) (acc : List RGBA) (k : Nat) : Rs (List RGBA) := do
  let r ← mulU32 (y + k) c.width
  let start ← addU32 r x
  let row ← slice c.bytes start (start + width)
  pure (acc ++ row)

/-- thermal_image.rs:441-451: swap the rows. -/
def swapRows (px : List RGBA) (width height : Nat) : Rs (List RGBA) :=
  forRange (height / 2) px fun px i =>
    forRange width px fun px j => swapIdx px (i * width + j) ((height - i - 1) * width + j)

/-- thermal_image.rs:422-455 `flip_pixels` -/
def flipPixels (c : Canvas) (x y width height : Nat) : Rs Canvas := do
  let right ← addU32 x width
  if right > c.width then pure c
  else do
    let bottom ← addU32 y height
    let c ← c.expandToHeight bottom
    let _ ← mulU32 width height
    let sub ← forRange height [] (c.collectRow x y width)
    let sub ← swapRows sub width height
    let (c, _) ← c.putPixels x y width height sub false
    pure c

/-- `bytes[i].blend_foreground(color)` -/
def blendAt (bytes : List RGBA) (i : Nat) (color : RGBA) : Rs (List RGBA) := do
  let old ← idx bytes i
  setIdx bytes i (old.blend color)

/-- thermal_image.rs:189-209 `draw_border`; the `u32` products are below `height * width`. -/
def drawBorder (bytes : List RGBA) (width height : Nat) (color : RGBA) : Rs (List RGBA) := do
  let rows ← subU height 1
  let bottom ← mulU32 rows width
  let bytes ← forRange width bytes fun bytes x => do
    let bytes ← blendAt bytes x color
    blendAt bytes (bottom + x) color
  forRange height bytes fun bytes y => do
    let last ← subU width 1
    let bytes ← blendAt bytes (y * width) color
    blendAt bytes (y * width + last) color

/-- thermal_image.rs:471-473: the border of the debug profile. -/
def debugImage (c : Canvas) (image : Image) : Rs (List RGBA) :=
  if c.debug.image then drawBorder image.pixels image.w image.h imageDebugColor else .ok image.pixels

/-- thermal_image.rs:468-480 `put_render_img` -/
def putRenderImg (c : Canvas) (image : Image) : Rs Canvas := do
  let pixels ← c.debugImage image
  let (c, _) ← c.putPixels image.x image.y image.w image.h pixels true
  if image.upsideDown then c.flipPixels image.x image.y image.w image.h else pure c

/-- `bytes.splice(i..i, xs)` -/
def insertAt (l : List RGBA) (i : Nat) (xs : List RGBA) : Rs (List RGBA) :=
  if i ≤ l.length then .ok (l.take i ++ xs ++ l.drop i) else .error .slice

/-- thermal_image.rs:634-638 `add_top_margin` (not used) -/
def addTopMargin (c : Canvas) (height : Nat) : Rs Canvas := do
  let n ← mulU32 c.width height
  let bytes ← insertAt c.bytes 0 (List.replicate n c.paperColor)
  pure { c with bytes := bytes }

/-- thermal_image.rs:658-666: the margins of one row; the state is the vector and `insert_idx`. -/
def marginRow (left right : List RGBA) (oldWidth : Nat) (s : List RGBA × Nat) (_ : Nat) : Rs (List RGBA × Nat) := do
  let b ← insertAt s.1 s.2 left
  let i := s.2 + left.length + oldWidth
  let b ← insertAt b i right
  pure (b, i + right.length)

/-- thermal_image.rs:640-669 `expand_to_width`.  The half of line 646 is an f32 quotient; it is exact below 2^24 (`C87_half`), and a canvas of that
width never occurs. -/
def expandToWidth (c : Canvas) (newWidth : Nat) : Rs Canvas :=
  if newWidth < c.width then pure c
  else do
    let left := (newWidth - c.width) / 2
    let right := newWidth - (left + c.width)
    let _ ← subU (c.getHeight * newWidth) c.bytes.length
    let (bytes, _) ← forRange c.getHeight (c.bytes, 0)
      (marginRow (List.replicate left c.paperColor) (List.replicate right c.paperColor) c.width)
    pure { c with
      bytes := bytes
      width := newWidth }

/-- thermal_image.rs:671-686 `consume_rgb_u8` -/
def consumeRgb (c : Canvas) : Rs (Canvas × Nat × Nat × List Byte) := do
  let h := c.getHeight
  let _ ← mulU32 c.width h
  pure (c.setWidth 0, c.width, h, c.bytes.flatMap fun p => [p.r, p.g, p.b])

/-- thermal_image.rs:688-693 `copy` -/
def copy (c : Canvas) : Nat × Nat × List RGBA := (c.width, c.getHeight, c.bytes)

/-! ### Text -/

/-- What `fontdue` and the metrics arithmetic of `render_char` (lines 233-246) give for a character: whether it is a control
character, the coverage of its dots in rows of `width`, and the offsets. -/
structure Glyph where
  control : Bool
  width : Nat
  coverage : List Byte
  xOffset : Nat
  yOffset : Nat

/-- The glyph of a character for a font family member (bold, italic), a font and a scale. -/
structure Glyphs where
  glyph : Bool → Bool → Font → Nat → Char → Glyph

/-- thermal_image.rs:395-404: the source coordinate of `scale_bitmap` for coordinate `s` when `n` dots become `m`:
`(s as f32 * (n as f32 / m as f32)) as u32`. -/
def source (s n m : Nat) : Nat := (F32.mul (F32.ofNat s) (F32.div (F32.ofNat n) (F32.ofNat m))).toU32

/-- `saturating_add` on u32 -/
def satAdd (a b : Nat) : Nat := min (a + b) (U32 - 1)

/-- thermal_image.rs:248-260: blend the coverage of a glyph into its cell.  `chunks(width)` and `enumerate` give dot `i` the
row `i / width` and the column `i % width`. -/
def glyphLoop (g : Glyph) (rw rh : Nat) (color : RGBA) : List Byte → Nat → List RGBA → List RGBA
  | [], _, bytes => bytes
  | a :: rest, i, bytes =>
    let tx := satAdd (i % g.width) g.xOffset
    let ty := satAdd (i / g.width) g.yOffset
    glyphLoop g rw rh color rest (i + 1)
      (if tx < rw ∧ ty < rh then bytes.modify (ty * rw + tx) (fun p => p.blendWithAlpha color a) else bytes)

/-- thermal_image.rs:385-420 `scale_bitmap`: every dot of the result is written at most once, in order. -/
def scaleBitmap (bitmap : List RGBA) (width height sw sh : Nat) : Rs (List RGBA) := do
  let _ ← mulU32 sw sh
  pure ((List.range sh).flatMap fun sy => (List.range sw).map fun sx =>
    bitmap.getD (source sy height sh * width + source sx width sw) RGBA.blank)

/-- thermal_image.rs:211-278 `render_char` -/
def renderChar (gs : Glyphs) (bold italic : Bool) (font : Font) (char : Char) (width height fw fh : Nat) (bg color : RGBA) :
    Rs (Option (List RGBA × Nat × Nat)) := do
  let ws ← divU fw width
  let hs ← divU fh height
  let scale := max hs ws
  let rw_ ← mulU32 width scale
  let rh ← mulU32 height scale
  let g := gs.glyph bold italic font scale char
  if g.control then pure none
  else do
    let cell := List.replicate (rw_ * rh) bg
    let cell := if g.width > 0 then glyphLoop g rw_ rh color g.coverage 0 cell else cell
    if scale > 1 then do pure (some (← scaleBitmap cell rw_ rh fw fh, fw, fh)) else pure (some (cell, fw, fh))

/-- thermal_image.rs:11, 99: `font_size` -/
def fontSize : F32 := F32.mul (F32.ofNat 12) (F32.lit 168 100)

/-- thermal_image.rs:12, 116-128: the second component of `get_font_size`, the baseline ratio.  (The first one goes to `fontdue`.) -/
def baselineRatio (font : Font) : F32 :=
  match font with
  | .B => F32.mul (F32.mul fontSize (F32.lit 8 10)) (F32.lit 315 10000)
  | .C => F32.mul (F32.mul fontSize (F32.lit 5 10)) (F32.lit 315 10000)
  | _ => F32.mul fontSize (F32.lit 315 10000)

/-- thermal_image.rs:344, 356: `(character_height as f32 * baseline_ratio) as u32` -/
def baseline (font : Font) (h : Nat) : Nat := (F32.mul (F32.ofNat h) (baselineRatio font)).toU32

/-- thermal_image.rs:315-323: the border of the debug profile. -/
def debugText (c : Canvas) (px : List RGBA) (w h : Nat) : Rs (List RGBA) :=
  if c.debug.text then drawBorder px w h (textDebugColor.withAlpha 60) else .ok px

/-- thermal_image.rs:311-334: draw the cell of a character. -/
def putChar (c : Canvas) (b : Option (List RGBA × Nat × Nat)) (x y : Nat) : Rs Canvas :=
  match b with
  | none => .ok c
  | some (px, w, h) => do
    let px ← c.debugText px w h
    let (c, _) ← c.putPixels x y w h px true
    pure c

/-- thermal_image.rs:297-337: the loop over the characters.  An empty bitmap (lines 311-313) skips the advance. -/
def renderChars (gs : Glyphs) (span : TextSpan) (y : Nat) : Str → Nat → Canvas → Rs Canvas
  | [], _, c => .ok c
  | ch :: rest, x, c => do
    let b ← renderChar gs span.bold span.italic span.font ch span.baseCharacterWidth span.baseCharacterHeight
      span.characterWidth span.characterHeight span.backgroundColor span.textColor
    if b.isSome && (span.characterWidth == 0 || span.characterHeight == 0) then renderChars gs span y rest x c
    else do
      let c ← c.putChar b x y
      renderChars gs span y rest (← addU32 x span.characterWidth) c

/-- thermal_image.rs:290-295: how far the baselines of characters of different heights are apart -/
def baselineShift (font : Font) (maxHeight height : Nat) : Nat :=
  (F32.sub (F32.mul (F32.ofNat maxHeight) (baselineRatio font)) (F32.mul (F32.ofNat height) (baselineRatio font))).toU32

/-- thermal_image.rs:288-295: the vertical offset of a span in its line: its baseline is put on the baseline of the line. -/
def spanOffset (font : Font) (maxHeight height : Nat) : Rs Nat := do
  let d ← subU maxHeight height
  pure (if d > 0 then baselineShift font maxHeight height else d)

/-- thermal_image.rs:340-350: the baseline of the debug profile. -/
def debugBaseline (c : Canvas) (span : TextSpan) (x y w : Nat) : Rs Canvas :=
  if c.debug.text then do
    c.drawRect x (← addU32 (← addU32 y 1) (baseline span.font span.characterHeight)) w 1 baselineDebugColor false
  else .ok c

/-- thermal_image.rs:352-362: the underline. -/
def drawUnderline (c : Canvas) (span : TextSpan) (x y w : Nat) : Rs Canvas :=
  if span.underline > 0 then do
    c.drawRect x (← addU32 (← addU32 y 3) (baseline span.font span.characterHeight)) w 1 span.textColor true
  else .ok c

/-- thermal_image.rs:367: `(character_height as f32 / 2.5) as u32` -/
def strikeTop (h : Nat) : Nat := (F32.div (F32.ofNat h) (F32.lit 25 10)).toU32

/-- thermal_image.rs:364-373: the strike-through line -/
def drawStrike (c : Canvas) (span : TextSpan) (x y w : Nat) : Rs Canvas :=
  if span.strikethrough > 0 then do
    c.drawRect x (← addU32 y (strikeTop span.characterHeight)) w span.strikethrough span.textColor true
  else .ok c

/-- thermal_image.rs:280-383 `render_span` -/
def renderSpan (gs : Glyphs) (c : Canvas) (xOffset maxHeight : Nat) (span : TextSpan) : Rs Canvas :=
  match span.dimensions with
  | none => .ok c
  | some d => do
    let x ← addU32 d.x xOffset
    let off ← spanOffset span.font maxHeight span.characterHeight
    let y ← addU32 d.y off
    let c ← renderChars gs span y span.text x c
    let c ← c.debugBaseline span x y d.w
    let c ← c.drawUnderline span x y d.w
    let c ← c.drawStrike span x y d.w
    if span.upsideDown then c.flipPixels x y d.w d.h else pure c

end Canvas
end Thermal
