import Verif.Model.Graphics
import Verif.Model.Decoder
/-
Model of thermal_parser/src/context.rs.  `u8` fields are `Byte`, `u16`/`u32` fields are `Nat`; additions on `u32` are
checked (debug profile).
-/
namespace Thermal

/-- context.rs:15-20 -/
inductive TextStrikethrough where
  | off | on | double
  deriving DecidableEq, Repr

/-- context.rs:22-27 -/
inductive TextUnderline where
  | off | on | double
  deriving DecidableEq, Repr

/-- context.rs:41-52 `Font::from_raw` -/
def Font.fromRaw (b : Byte) : Font :=
  if b = 0 ∨ b = 48 then .A else if b = 1 ∨ b = 49 then .B else if b = 2 ∨ b = 50 then .C
  else if b = 3 ∨ b = 51 then .D else if b = 4 ∨ b = 52 then .E else if b = 97 then .specialA
  else if b = 98 then .specialB else .A

/-- context.rs:55-61 `Font::to_size` -/
def Font.toSize (f : Font) : Byte × Byte := if f = .A then (12, 24) else (9, 17)

/-- context.rs:82-107 -/
structure TextContext where
  characterWidth : Byte
  characterHeight : Byte
  characterSet : Byte
  codeTable : Byte
  decoder : Codepage
  fontSize : Byte
  justify : TextJustify
  font : Font
  bold : Bool
  italic : Bool
  underline : TextUnderline
  strikethrough : TextStrikethrough
  invert : Bool
  widthMult : Byte
  heightMult : Byte
  upsideDown : Bool
  lineSpacing : Byte
  color : RGBA
  backgroundColor : RGBA
  shadowColor : RGBA
  shadow : Bool
  smoothing : Bool
  tabs : List Byte
  deriving DecidableEq, Repr

/-- graphics.rs:506-510 -/
inductive ImageRefStorage where
  | disc | ram
  deriving DecidableEq, Repr

/-- graphics.rs:486-491 -/
structure ImageRef where
  kc1 : Byte
  kc2 : Byte
  storage : ImageRefStorage
  deriving DecidableEq, Repr

/-- graphics.rs:494-503 `ImageRef::from_data` -/
def ImageRef.fromData (data : List Byte) (storage : ImageRefStorage) : Option ImageRef :=
  match data with
  | a :: b :: _ => some ⟨a, b, storage⟩
  | _ => none

/-- `HashMap<ImageRef, GraphicsCommand>` as an association list with at most one entry per key.  The order of the
entries, which the program never observes, is the order of insertion. -/
abbrev GraphicsMap := List (ImageRef × GraphicsCommand)

/-- `HashMap::insert` -/
def GraphicsMap.insert (m : GraphicsMap) (k : ImageRef) (v : GraphicsCommand) : GraphicsMap :=
  (k, v) :: m.filter (fun e => e.1 ≠ k)

/-- `HashMap::remove` -/
def GraphicsMap.remove (m : GraphicsMap) (k : ImageRef) : GraphicsMap := m.filter (fun e => e.1 ≠ k)

/-- `HashMap::retain` with a predicate on the keys. -/
def GraphicsMap.retain (m : GraphicsMap) (p : ImageRef → Bool) : GraphicsMap := m.filter (fun e => p e.1)

/-- `HashMap::get` -/
def GraphicsMap.get (m : GraphicsMap) (k : ImageRef) : Option GraphicsCommand :=
  (m.find? (fun e => e.1 = k)).map (·.2)

/-- context.rs:214-220 -/
structure RenderArea where
  x : Nat
  y : Nat
  w : Nat
  h : Nat
  deriving DecidableEq, Repr

/-- context.rs:129-146 -/
structure GraphicsContext where
  renderArea : RenderArea
  renderColors : RenderColors
  paperArea : RenderArea
  dotsPerInch : Nat
  vMotionUnit : Byte
  hMotionUnit : Byte
  graphicsCount : Nat
  storedGraphics : GraphicsMap
  bufferGraphics : List GraphicsCommand
  deriving DecidableEq, Repr

/-- context.rs:148-154 -/
structure BarcodeContext where
  humanReadable : Hri
  width : Byte
  height : Byte
  font : Font
  deriving DecidableEq, Repr

/-- context.rs:156-161 -/
inductive QrModel where
  | model1 | model2 | micro
  deriving DecidableEq, Repr

/-- context.rs:163-169 -/
inductive QrErrorCorrection where
  | L | M | Q | H
  deriving DecidableEq, Repr

/-- context.rs:171-204 -/
structure Code2DContext where
  symbolStorage : Option Code2D
  qrModel : QrModel
  qrErrorCorrection : QrErrorCorrection
  qrSize : Byte
  pdf417Columns : Byte
  pdf417Rows : Byte
  pdf417Width : Byte
  pdf417RowHeight : Byte
  pdf417ErrCorrection : Byte
  pdf417IsTruncated : Bool
  maxicodeMode : Byte
  gs1DatabarWidth : Byte
  gs1DatabarMaxWidth : Nat
  compositeWidth : Byte
  compositeMaxWidth : Nat
  compositeFont : Font
  aztecMode : Byte
  aztecLayers : Byte
  aztecSize : Byte
  aztecErrorCorrection : Byte
  datamatrixType : Byte
  datamatrixColumns : Byte
  datamatrixRows : Byte
  datamatrixWidth : Byte
  deriving DecidableEq, Repr

/-- context.rs:206-212 -/
inductive PrintDirection where
  | topLeft2Right | bottomRight2Left | topRight2Bottom | bottomLeft2Top
  deriving DecidableEq, Repr

/-- context.rs:222-242 -/
structure PageModeContext where
  enabled : Bool
  logicalArea : RenderArea
  renderArea : RenderArea
  pageArea : RenderArea
  direction : PrintDirection
  previousDirection : PrintDirection
  deriving DecidableEq, Repr

/-- context.rs:244-250 -/
inductive Rotation where
  | R0 | R90 | R180 | R270
  deriving DecidableEq, Repr

/-- The fields of `Context` other than `default`. -/
structure Settings where
  text : TextContext
  barcode : BarcodeContext
  code2d : Code2DContext
  graphics : GraphicsContext
  pageMode : PageModeContext
  deriving DecidableEq, Repr

/-- context.rs:72-80 `Context`.  The boxed `default` context is created by `Context::default()`, whose own `default`
field is `None` (line 475), so it is modelled by its settings. -/
structure Context extends Settings where
  default : Option Settings
  deriving DecidableEq, Repr

/-! ### PageModeContext -/

/-- context.rs:347-352 `should_dimension_swap` -/
def shouldDimensionSwap : PrintDirection → Bool
  | .topLeft2Right | .bottomRight2Left => false
  | _ => true

/-- context.rs:402-414: the quarter turns of a direction. -/
def PrintDirection.turns : PrintDirection → Int
  | .topRight2Bottom => 3
  | .bottomRight2Left => 2
  | .bottomLeft2Top => 1
  | .topLeft2Right => 0

/-- context.rs:397-427 `calculate_directional_rotation`; `rem_euclid` is `Int.emod`. -/
def directionalRotation (from_ to : PrintDirection) : Rotation :=
  match (to.turns - from_.turns) % 4 with
  | 1 => .R90
  | 2 => .R180
  | 3 => .R270
  | _ => .R0

/-- context.rs:354-362 -/
def translateTopLeftToRight (p : PageModeContext) : PageModeContext :=
  { p with renderArea := p.logicalArea }

/-- context.rs:364-373; `saturating_sub` is truncated subtraction. -/
def translateBottomRightToLeft (p : PageModeContext) : Rs PageModeContext := do
  let l := p.logicalArea
  let s ← addU32 l.x l.w
  pure { p with renderArea := ⟨p.pageArea.w - s, l.y, l.w, l.h⟩ }

/-- context.rs:375-384 -/
def translateTopRightToBottom (p : PageModeContext) : Rs PageModeContext := do
  let l := p.logicalArea
  let s ← addU32 l.y l.h
  let t ← addU32 l.x l.w
  pure { p with renderArea := ⟨p.pageArea.w - s, p.pageArea.h - t, l.h, l.w⟩ }

/-- context.rs:386-395 -/
def translateBottomLeftToTop (p : PageModeContext) : Rs PageModeContext := do
  let l := p.logicalArea
  let s ← addU32 l.y l.h
  pure { p with renderArea := ⟨p.pageArea.w - s, l.x, l.h, l.w⟩ }

/-- context.rs:263-266: swap the page dimensions when the orientation changes. -/
def swapPage (p : PageModeContext) : PageModeContext :=
  let prev := shouldDimensionSwap p.previousDirection
  let now := shouldDimensionSwap p.direction
  if !prev && now || !now && prev then { p with pageArea := { p.pageArea with w := p.pageArea.h, h := p.pageArea.w } }
  else p

/-- context.rs:268-274: the match on the direction. -/
def translateArea (p : PageModeContext) : Rs PageModeContext :=
  match p.direction with
  | .topLeft2Right => pure (translateTopLeftToRight p)
  | .bottomRight2Left => translateBottomRightToLeft p
  | .topRight2Bottom => translateTopRightToBottom p
  | .bottomLeft2Top => translateBottomLeftToTop p

/-- context.rs:253-285 `apply_logical_area` -/
def PageModeContext.applyLogicalArea (p : PageModeContext) : Rs (PageModeContext × Rotation × Nat × Nat) := do
  let rotation := directionalRotation p.previousDirection p.direction
  let p := swapPage p
  let p ← translateArea p
  let maxW ← addU32 p.renderArea.x p.renderArea.w
  let maxH ← addU32 p.renderArea.y p.renderArea.h
  let page : RenderArea := ⟨p.renderArea.x, p.renderArea.y, max maxW p.pageArea.w, max maxH p.pageArea.h⟩
  pure ({ p with pageArea := page }, rotation, page.w, page.h)

/-- context.rs:287-291 -/
def PageModeContext.setX (p : PageModeContext) (x : Nat) : Rs PageModeContext := do
  let v ← addU32 p.pageArea.x x
  pure { p with renderArea := { p.renderArea with x := v } }

/-- context.rs:293-297 -/
def PageModeContext.setY (p : PageModeContext) (y : Nat) : Rs PageModeContext := do
  let v ← addU32 p.pageArea.y y
  pure { p with renderArea := { p.renderArea with y := v } }

/-- context.rs:300-309 -/
def PageModeContext.setXAbsolute (p : PageModeContext) (x : Nat) : Rs PageModeContext :=
  match p.direction with
  | .topLeft2Right => do
    let v ← addU32 p.pageArea.x x
    pure { p with renderArea := { p.renderArea with x := v } }
  | .bottomRight2Left => do
    let v ← addU32 p.pageArea.x p.renderArea.w
    pure { p with renderArea := { p.renderArea with x := v - x } }
  | .topRight2Bottom => pure { p with renderArea := { p.renderArea with y := p.renderArea.h - x } }
  | .bottomLeft2Top => do
    let v ← addU32 p.pageArea.y x
    pure { p with renderArea := { p.renderArea with y := v } }

/-- context.rs:312-321 -/
def PageModeContext.setYAbsolute (p : PageModeContext) (y : Nat) : Rs PageModeContext :=
  match p.direction with
  | .topLeft2Right => do
    let v ← addU32 p.pageArea.y y
    pure { p with renderArea := { p.renderArea with y := v } }
  | .bottomRight2Left => do
    let v ← addU32 p.pageArea.y (p.renderArea.h - y)
    pure { p with renderArea := { p.renderArea with y := v } }
  | .topRight2Bottom => do
    let v ← addU32 p.pageArea.x y
    pure { p with renderArea := { p.renderArea with x := v } }
  | .bottomLeft2Top => do
    let v ← addU32 p.pageArea.x (p.renderArea.w - y)
    pure { p with renderArea := { p.renderArea with x := v } }

/-- context.rs:332-335, 340-343, 682-685, 697-700: `let mut new = v as i32 + d as i32; if new < 0 { new = 0 }; new as
u32`.  The cast of a `u32` of at least 2^31 wraps to a negative number and the addition is a checked `i32` one. -/
def addClamp (v : Nat) (d : Int) : Rs Nat :=
  let a : Int := if v < 2147483648 then v else (v : Int) - 4294967296
  if -2147483648 ≤ a + d ∧ a + d < 2147483648 then .ok (a + d).toNat else .error .overflow

/-- `i16::saturating_div` by a motion unit (`u8 as i16`, never negative): truncating division, panics on zero. -/
def divI16 (v : Int) (unit : Byte) : Rs Int := if unit = 0 then .error .divZero else .ok (v.tdiv unit.toNat)

/-! ### Context -/

/-- context.rs:437-465: the colours. -/
def defaultColors : RenderColors :=
  { paperColor := ⟨255, 255, 255, 255⟩
    color1 := ⟨0, 0, 0, 255⟩
    color2 := ⟨158, 22, 22, 255⟩
    color3 := ⟨27, 57, 169, 255⟩ }

/-- context.rs:431-572 `Context::default`.  The f32 products of lines 433-435 are `20` (20.3), `20` and `649` (649.6),
truncated. -/
def defaultSettings : Settings :=
  { text :=
      { characterWidth := 12, characterHeight := 24, characterSet := 0, codeTable := 0, decoder := getCodepage 0 0,
        fontSize := 10, justify := .left, font := .A, bold := false, italic := false, underline := .off,
        strikethrough := .off, invert := false, widthMult := 1, heightMult := 1, upsideDown := false,
        lineSpacing := 24, color := defaultColors.color1, backgroundColor := defaultColors.paperColor,
        shadowColor := defaultColors.color1, shadow := false, smoothing := false, tabs := List.replicate 32 8 }
    barcode := { humanReadable := .none, width := 3, height := 40, font := .A }
    code2d :=
      { symbolStorage := none, qrModel := .model1, qrErrorCorrection := .L, qrSize := 3, pdf417Columns := 0,
        pdf417Rows := 0, pdf417Width := 0, pdf417RowHeight := 0, pdf417ErrCorrection := 0, pdf417IsTruncated := false,
        maxicodeMode := 0, gs1DatabarWidth := 0, gs1DatabarMaxWidth := 0, compositeWidth := 0, compositeMaxWidth := 0,
        compositeFont := .A, aztecMode := 0, aztecLayers := 0, aztecSize := 0, aztecErrorCorrection := 0,
        datamatrixType := 0, datamatrixColumns := 0, datamatrixRows := 0, datamatrixWidth := 0 }
    graphics :=
      { renderArea := ⟨0, 20 * 3, 649 - (20 + 20), 0⟩, renderColors := defaultColors, paperArea := ⟨20, 20, 649, 0⟩,
        dotsPerInch := 203, vMotionUnit := 1, hMotionUnit := 1, graphicsCount := 0, storedGraphics := [],
        bufferGraphics := [] }
    pageMode :=
      { enabled := false, logicalArea := ⟨0, 0, 0, 0⟩, renderArea := ⟨0, 0, 0, 0⟩, pageArea := ⟨0, 0, 0, 0⟩,
        direction := .topLeft2Right, previousDirection := .topLeft2Right } }

/-- context.rs:574-579 `Context::new` -/
def Context.new : Context := { defaultSettings with default := some defaultSettings }

/-- context.rs:581-588 `reset` -/
def Context.reset (c : Context) : Context :=
  match c.default with
  | some d => { c with text := d.text, barcode := d.barcode, code2d := d.code2d, graphics := d.graphics }
  | none => c

/-- context.rs:596-599 `points_to_pixels` for a whole number of points: `(points * (dots_per_inch as f32 / 96f32)) as u32` -/
def Context.pointsToPixels (c : Context) (points : Nat) : Nat :=
  (F32.mul (F32.ofNat points) (F32.div (F32.ofNat c.graphics.dotsPerInch) (F32.ofNat 96))).toU32

/-- context.rs:601-605 `set_tab_len` -/
def Context.setTabLen (c : Context) (count at_ : Byte) : Context :=
  if at_.toNat < c.text.tabs.length % 256 then { c with text := { c.text with tabs := c.text.tabs.set at_.toNat count } }
  else c

/-- Assign the x of the active render area. -/
def Context.putX (c : Context) (x : Nat) : Context :=
  if c.pageMode.enabled then { c with pageMode := { c.pageMode with renderArea := { c.pageMode.renderArea with x := x } } }
  else { c with graphics := { c.graphics with renderArea := { c.graphics.renderArea with x := x } } }

/-- Assign the y of the active render area. -/
def Context.putY (c : Context) (y : Nat) : Context :=
  if c.pageMode.enabled then { c with pageMode := { c.pageMode with renderArea := { c.pageMode.renderArea with y := y } } }
  else { c with graphics := { c.graphics with renderArea := { c.graphics.renderArea with y := y } } }

/-- context.rs:627-633 -/
def Context.baseX (c : Context) : Nat := if c.pageMode.enabled then c.pageMode.pageArea.x else 0

/-- context.rs:635-641 -/
def Context.baseY (c : Context) : Nat := if c.pageMode.enabled then c.pageMode.pageArea.y else 0

/-- context.rs:609-615 -/
def Context.resetX (c : Context) : Context := c.putX c.baseX

/-- context.rs:617-623 -/
def Context.resetY (c : Context) : Context := c.putY c.baseY

/-- context.rs:643-649 -/
def Context.getX (c : Context) : Nat := if c.pageMode.enabled then c.pageMode.renderArea.x else c.graphics.renderArea.x

/-- context.rs:651-657 -/
def Context.getY (c : Context) : Nat := if c.pageMode.enabled then c.pageMode.renderArea.y else c.graphics.renderArea.y

/-- context.rs:659-665, 323-325 -/
def Context.offsetX (c : Context) (x : Nat) : Rs Context := do pure (c.putX (← addU32 c.getX x))

/-- context.rs:667-673, 327-329 -/
def Context.offsetY (c : Context) (y : Nat) : Rs Context := do pure (c.putY (← addU32 c.getY y))

/-- context.rs:676-688, 331-337 -/
def Context.offsetXRelative (c : Context) (x : Int) : Rs Context := do
  let adj ← divI16 x c.graphics.hMotionUnit
  pure (c.putX (← addClamp c.getX adj))

/-- context.rs:691-703, 339-345 -/
def Context.offsetYRelative (c : Context) (y : Int) : Rs Context := do
  let adj ← divI16 y c.graphics.vMotionUnit
  pure (c.putY (← addClamp c.getY adj))

/-- context.rs:705-708 -/
def Context.feed (c : Context) (units : Nat) : Rs Context := do
  let c ← c.offsetY units
  pure c.resetX

/-- context.rs:710-714 -/
def Context.newline (c : Context) (count : Nat) : Rs Context := do
  let lh := c.text.lineSpacing.toNat
  let c := c.resetX
  c.offsetY (← mulU32 lh count)

/-- context.rs:716-725 -/
def Context.newlineForSpans (c : Context) (spans : List TextSpan) : Rs Context :=
  let lh := spans.foldl (fun h s => max h s.characterHeight) c.text.lineSpacing.toNat
  c.resetX.offsetY lh

/-- context.rs:727-732 -/
def Context.setFont (c : Context) (f : Font) : Context :=
  { c with text := { c.text with font := f, characterWidth := f.toSize.1, characterHeight := f.toSize.2 } }

/-- context.rs:734-740 -/
def Context.setX (c : Context) (x : Nat) : Rs Context :=
  if c.pageMode.enabled then do pure { c with pageMode := (← c.pageMode.setX x) } else pure (c.putX x)

/-- context.rs:742-748 -/
def Context.setY (c : Context) (y : Nat) : Rs Context :=
  if c.pageMode.enabled then do pure { c with pageMode := (← c.pageMode.setY y) } else pure (c.putY y)

/-- context.rs:751-758 -/
def Context.setXAbsolute (c : Context) (x : Nat) : Rs Context := do
  let adj ← divU x c.graphics.hMotionUnit.toNat
  if c.pageMode.enabled then pure { c with pageMode := (← c.pageMode.setXAbsolute adj) } else pure (c.putX adj)

/-- context.rs:761-768 -/
def Context.setYAbsolute (c : Context) (y : Nat) : Rs Context := do
  let adj ← divU y c.graphics.vMotionUnit.toNat
  if c.pageMode.enabled then pure { c with pageMode := (← c.pageMode.setYAbsolute adj) } else pure (c.putY adj)

/-- context.rs:770-788 -/
def Context.setPageArea (c : Context) (a : RenderArea) : Rs Context := do
  let x ← divU a.x c.graphics.hMotionUnit.toNat
  let y ← divU a.y c.graphics.vMotionUnit.toNat
  let w ← divU a.w c.graphics.hMotionUnit.toNat
  let h ← divU a.h c.graphics.vMotionUnit.toNat
  pure { c with pageMode := { c.pageMode with logicalArea := ⟨x, y, w, h⟩ } }

/-- context.rs:790-796 -/
def Context.getWidth (c : Context) : Nat := if c.pageMode.enabled then c.pageMode.renderArea.w else c.graphics.renderArea.w

/-- context.rs:798-816 -/
def Context.availableWidth (c : Context) : Nat :=
  if c.pageMode.enabled then c.pageMode.renderArea.w - (c.pageMode.renderArea.x - c.pageMode.pageArea.x)
  else if c.graphics.renderArea.x ≤ c.graphics.renderArea.w then c.graphics.renderArea.w - c.graphics.renderArea.x
  else 0

/-- context.rs:826-849 -/
def Context.justification (c : Context) (w : Nat) : Nat :=
  let rw_ := c.getWidth
  if w > rw_ then 0
  else match c.text.justify with
    | .center => if rw_ - w > 0 then (rw_ - w) / 2 else 0
    | .right => rw_ - w
    | .left => 0

/-- context.rs:855-864 `update_decoder` -/
def Context.updateDecoder (c : Context) : Context :=
  { c with text := { c.text with decoder := contextDecoder c.text.codeTable c.text.characterSet } }

end Thermal
