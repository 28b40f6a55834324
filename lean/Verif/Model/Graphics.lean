import Verif.Model.Color
import Verif.Model.Loop
import Verif.Model.Util
/-
Model of thermal_parser/src/graphics.rs (images) with `TextSpan` (text.rs) and `RenderColors` (context.rs).
-/
namespace Thermal

/-! ### Types shared with context.rs and text.rs -/

/-- context.rs:8-13 -/
inductive TextJustify where
  | left | center | right
  deriving DecidableEq, Repr

/-- context.rs:29-38 -/
inductive Font where
  | A | B | C | D | E | specialA | specialB
  deriving DecidableEq, Repr

/-- context.rs:64-70 -/
inductive Hri where
  | none | above | below | both
  deriving DecidableEq, Repr

/-- text.rs:27-33 -/
structure Dimensions where
  x : Nat
  y : Nat
  w : Nat
  h : Nat
  deriving DecidableEq, Repr

/-- text.rs:5-25.  `stretch_width`/`stretch_height` are u8 values converted to f32; they are kept as `Nat`. -/
structure TextSpan where
  font : Font
  characterWidth : Nat
  characterHeight : Nat
  baseCharacterWidth : Nat
  baseCharacterHeight : Nat
  text : Str
  bold : Bool
  italic : Bool
  underline : Nat
  strikethrough : Nat
  stretchWidth : Nat
  stretchHeight : Nat
  inverted : Bool
  upsideDown : Bool
  justify : TextJustify
  dimensions : Option Dimensions
  backgroundColor : RGBA
  textColor : RGBA
  deriving DecidableEq, Repr

/-- context.rs:109-115 -/
structure RenderColors where
  paperColor : RGBA
  color1 : RGBA
  color2 : RGBA
  color3 : RGBA
  deriving DecidableEq, Repr

/-- context.rs:118-126 `color_for_number` -/
def RenderColors.colorFor (c : RenderColors) (n : Byte) : RGBA :=
  if n = 0 then c.paperColor
  else if n = 1 ∨ n = 49 then c.color1
  else if n = 2 ∨ n = 50 then c.color2
  else if n = 3 ∨ n = 51 then c.color3
  else c.color1

/-! ### Graphics values -/

/-- graphics.rs:83-90 -/
structure Barcode where
  points : List Byte
  pointWidth : Byte
  pointHeight : Byte
  hri : Hri
  text : TextSpan
  deriving DecidableEq, Repr

/-- graphics.rs:97-103 -/
structure Rectangle where
  x : Nat
  y : Nat
  w : Nat
  h : Nat
  deriving DecidableEq, Repr

/-- graphics.rs:113-119 -/
structure Code2D where
  points : List Byte
  width : Nat
  pointWidth : Nat
  pointHeight : Nat
  deriving DecidableEq, Repr

/-- graphics.rs:121-126 -/
inductive ImageFlow where
  | inline | block | none
  deriving DecidableEq, Repr

/-- graphics.rs:128-137 -/
structure Image where
  pixels : List RGBA
  x : Nat
  y : Nat
  w : Nat
  h : Nat
  flow : ImageFlow
  upsideDown : Bool
  deriving DecidableEq, Repr

/-- graphics.rs:512-520.  `Line` is never constructed (its fields are private and unused) and left out. -/
inductive GraphicsCommand where
  | error (msg : String)
  | code2d (c : Code2D)
  | barcode (b : Barcode)
  | image (i : Image)
  | rectangle (r : Rectangle)
  deriving DecidableEq, Repr

/-- graphics.rs:142-153 `as_rgba_u8` -/
def Image.asRgba (i : Image) : List Byte := i.pixels.flatMap (fun p => [p.r, p.g, p.b, p.a])

/-! ### Decoding -/

/-- graphics.rs:392, 396-403: `if *byte & 1 << k != 0 { 255 } else { 0 }` -/
def bitVal (b : Byte) (k : Nat) : Byte := if b &&& UInt8.ofNat (2 ^ k) ≠ 0 then 255 else 0

/-- graphics.rs:388-405: the loop of `unpack_bytes`.  `col` is a u32 that stays below `width + 8`; widths are at most
8 · 65535 so the addition cannot overflow. -/
def unpackLoop (width padding : Nat) : List Byte → Nat → List Byte
  | [], _ => []
  | byte :: rest, col =>
    if col + 8 ≥ width then (List.range padding).map (fun n => bitVal byte (7 - n)) ++ unpackLoop width padding rest 0
    else (List.range 8).map (fun n => bitVal byte (7 - n)) ++ unpackLoop width padding rest (col + 8)

/-- graphics.rs:378-408 `unpack_bytes` -/
def unpackBytes (pixels : List Byte) (width _height : Nat) : List Byte :=
  let padding := if width % 8 = 0 then 8 else width % 8
  unpackLoop width padding pixels 0

/-- graphics.rs:418-432 `rotate_90_clockwise`.  `height - 1 - y` cannot underflow: `y < height`. -/
def rotate90 (data : List Byte) (width height : Nat) : Rs (List Byte) :=
  forRange height (List.replicate data.length 0) fun result y =>
    forRange width result fun result x => do
      let v ← idx data (y * width + x)
      setIdx result (x * height + (height - 1 - y)) v

/-- graphics.rs:434-447 `flip_right_to_left` -/
def flipRightToLeft (data : List Byte) (width height : Nat) : Rs (List Byte) :=
  forRange height (List.replicate data.length 0) fun result y =>
    forRange width result fun result x => do
      let v ← idx data (y * width + x)
      setIdx result (y * width + (width - 1 - x)) v

/-- graphics.rs:412-416 `column_to_bytes` -/
def columnToBytes (pixels : List Byte) (width height : Nat) : Rs (List Byte) := do
  let unpacked := unpackBytes pixels height width
  let rot ← rotate90 unpacked height width
  flipRightToLeft rot width height

/-- graphics.rs:452-482 `scale_pixels`.  The checked u32 products are those of lines 462, 463 and 465; with them in
range every other index computation is. -/
def scalePixels (bytes : List Byte) (w h : Nat) (sx sy : Byte) : Rs (Nat × Nat × List Byte) := do
  let sx := max sx.toNat 1
  let sy := max sy.toNat 1
  let nw ← mulU32 w sx
  let nh ← mulU32 h sy
  let size ← mulU32 nw nh
  let out ← forRange h (List.replicate size 0) fun out y =>
    forRange w out fun out x => do
      let pixel ← idx bytes (y * w + x)
      forRange sy out fun out dy =>
        forRange sx out fun out dx =>
          setIdx out ((y * sy + dy) * nw + (x * sx + dx)) pixel
  pure (nw, nh, out)

/-- graphics.rs:233-278 `image_from_raster_bytes_single_color`; the u32 product `width * height` is checked. -/
def imageFromRaster (width height : Nat) (stretch : Byte × Byte) (color : RGBA) (flow : ImageFlow) (data : List Byte)
    (asBits : Bool) : Rs GraphicsCommand := do
  let unpacked := if asBits then unpackBytes data width height else data
  let size ← mulU32 width height
  if unpacked.length ≠ size then
    pure (.error s!"Not enough data to parse single color raster image expected: {size} got: {unpacked.length}")
  else do
    let (w, h, raw) ← if stretch.1 > 1 ∨ stretch.2 > 1 then scalePixels unpacked width height stretch.1 stretch.2
      else pure (width, height, unpacked)
    pure (.image { pixels := raw.map color.withAlpha, x := 0, y := 0, w := w, h := h, flow := flow, upsideDown := false })

/-- graphics.rs:161-173 `image_from_column_bytes_single_color` -/
def imageFromColumn (width height : Nat) (stretch : Byte × Byte) (color : RGBA) (flow : ImageFlow) (data : List Byte) :
    Rs GraphicsCommand := do
  let raster ← columnToBytes data width height
  imageFromRaster width height stretch color flow raster false

/-- graphics.rs:368-370: paint one layer over the image; `image.pixels[i]` panics when the layer is longer. -/
def paintLayer (base layer : List RGBA) : Rs (List RGBA) :=
  forRange layer.length base fun px i => do
    let b ← idx px i
    let f ← idx layer i
    setIdx px i (b.blend f)

/-- graphics.rs:363-371: the loop over the remaining layers. -/
def mergeRest (image : Image) : List Image → Rs (Except String Image)
  | [] => pure (.ok image)
  | l :: ls =>
    if l.w > image.w ∨ l.h > image.h then pure (.error "Can't merge image layers with different w and h")
    else do
      let px ← paintLayer image.pixels l.pixels
      mergeRest { image with pixels := px } ls

/-- graphics.rs:352-374 `merge_image_layers` -/
def mergeLayers : List Image → Rs (Except String Image)
  | [] => pure (.error "No layers to merge")
  | [l] => pure (.ok l)
  | l :: ls => mergeRest l ls

/-- graphics.rs:313-335: decode the layers one by one; an error is returned at once. -/
def multiLayers (width height : Nat) (stretch : Byte × Byte) (colors : RenderColors) (flow : ImageFlow) (data : List Byte)
    (asBits : Bool) (perLayer : Nat) : List Nat → Rs (Except String (List Image))
  | [] => pure (.ok [])
  | n :: ns => do
    let start := n * perLayer
    let colorNumber ← idx data start
    let imageData ← slice data (start + 1) (start + perLayer)
    let layer ← imageFromRaster width height stretch (colors.colorFor colorNumber) flow imageData asBits
    match layer with
    | .error m => pure (.error m)
    | .image i => do
      match ← multiLayers width height stretch colors flow data asBits perLayer ns with
      | .error m => pure (.error m)
      | .ok rest => pure (.ok (i :: rest))
    | _ => multiLayers width height stretch colors flow data asBits perLayer ns

/-- graphics.rs:288-343 `image_from_raster_bytes_multi_color` (the usize products are exact) -/
def imageFromRasterMulti (width height : Nat) (stretch : Byte × Byte) (numColors : Byte) (colors : RenderColors)
    (flow : ImageFlow) (data : List Byte) (asBits : Bool) : Rs GraphicsCommand := do
  let perLayer := if asBits then width / 8 * height + 1 else width * height + 1
  if data.length ≠ perLayer * numColors.toNat then
    pure (.error "Not enough data to parse raster image multi color")
  else do
    match ← multiLayers width height stretch colors flow data asBits perLayer (List.range numColors.toNat) with
    | .error m => pure (.error m)
    | .ok layers =>
      match ← mergeLayers layers with
      | .ok i => pure (.image i)
      | .error m => pure (.error m)

end Thermal
