import Verif.Model.Command
import Verif.Model.Text
import Verif.Model.Upce
/-
What the command handlers do: `get_text`, `get_graphics`, `apply_context` and `get_device_command` of every file in
thermal_parser/src/commands and thermal_parser/src/subcommands.

The encoders of the crates `barcoders` and `qr_code` are not modelled; they are the fields of `Ext`.
-/
namespace Thermal

/-- command.rs:7-29 -/
inductive DeviceCommand where
  | beginPrint | initialize | partialCut | fullCut
  | feed (n : Int) | feedLine (n : Int)
  | cancel | pulse | endPrint | beginPageMode | endPageMode | printPageMode | changePageModeDirection | changePageArea
  | justify (j : TextJustify) | setTextWidth (w : Byte) | setTextHeight (h : Byte) | changeTabs (n k : Byte)
  | transmit (bytes : List Byte) | moveX (x : Nat) | clearBufferGraphics
  deriving DecidableEq, Repr

/-- `qr_code::Version` as used by qr_store.rs -/
inductive QrVersion where
  | normal (v : Int) | micro (v : Int)
  deriving DecidableEq, Repr

/-- The external encoders. -/
structure Ext where
  /-- barcoders: `T::new(data)` and then `encode()`, for the symbology `T` of a barcode kind; an error is its message. -/
  encode : BarcodeType → Str → Except Str (List Byte)
  /-- qr_code: `QrCode::with_version(data, version, level)`: the modules and the width. -/
  qr : List Byte → QrVersion → QrErrorCorrection → Option (List Bool × Nat)

/-- `str::from_utf8` (strict); the first argument bounds the number of characters. -/
def fromUtf8Aux : Nat → List Byte → Option Str
  | _, [] => some []
  | 0, _ => none
  | k + 1, bs =>
    match utf8DecodeFirst bs with
    | none => none
    | some (c, rest) => (fromUtf8Aux k rest).map (c :: ·)

/-- `str::from_utf8` -/
def fromUtf8 (bs : List Byte) : Option Str := fromUtf8Aux bs.length bs

/-! ### get_text -/

/-- text.rs:8-11, carriage_return.rs:8-10, horizontal_tab.rs:8-10, linefeed.rs:8-10; every other handler uses the
default (command.rs:181-183). -/
def getText (cmd : Command) (c : Context) : Rs (Option TextSpan) :=
  match cmd.handler with
  | .unit .text => do
    let s ← c.text.decoder.decode cmd.data
    pure (some (TextSpan.new s c))
  | .unit .carriageReturn => pure (some (TextSpan.new ['\r'] c))
  | .unit .horizontalTab => pure (some (TextSpan.new ['\t'] c))
  | .unit .linefeed => pure (some (TextSpan.new ['\n'] c))
  | _ => pure none

/-! ### get_device_command -/

/-- set_character_size.rs:27-37 -/
def parseStretch (n : Byte) : Byte × Byte := (((0b01110000 &&& n) >>> 4) + 1, (0b00000111 &&& n) + 1)

/-- set_justification.rs:12-17 -/
def parseJustify (n : Byte) : TextJustify :=
  if n = 0 ∨ n = 48 then .left else if n = 1 ∨ n = 49 then .center else if n = 2 ∨ n = 50 then .right else .left

/-- context.default.as_ref().unwrap() -/
def Context.defaultUnwrap (c : Context) : Rs Settings :=
  match c.default with
  | some d => .ok d
  | none => .error .unwrapNone

/-- The handlers of commands/*.rs that override `get_device_command`. -/
def getDeviceUnit (id : Hid) (data : List Byte) (c : Context) : Rs (Option (List DeviceCommand)) :=
  match id with
  -- begin_print.rs:8-14
  | .beginPrint => pure (some [.beginPrint])
  -- end_print.rs:8-14
  | .endPrint => pure (some [.endPrint])
  -- cancel.rs:7-13
  | .cancel => pure (some [.cancel])
  -- feed_and_cut.rs:7-25
  | .feedAndCut =>
    let m := getOr data 0 0
    let n := getOr data 1 0
    if m = 0 ∨ m = 48 then pure (some [.fullCut])
    else if m = 1 ∨ m = 49 then pure (some [.partialCut])
    else if m = 65 ∨ m = 97 ∨ m = 103 then pure (some [.fullCut, .feed n.toNat])
    else if m = 66 ∨ m = 98 ∨ m = 104 then pure (some [.partialCut, .feed n.toNat])
    else pure none
  -- formfeed.rs:9-18
  | .formfeed => if c.pageMode.enabled then pure (some [.endPageMode, .printPageMode]) else pure (some [.endPrint])
  -- initialize.rs:7-13
  | .initialize => pure (some [.initialize])
  -- page_mode_print_area.rs:65-71
  | .pageModePrintArea => pure (some [.changePageArea])
  -- page_mode_print_data.rs:12-22
  | .pageModePrintData => if c.pageMode.enabled then pure (some [.printPageMode]) else pure none
  -- page_mode_print_direction.rs:93-99
  | .pageModePrintDirection => pure (some [.changePageModeDirection])
  -- print_and_feed.rs:7-14
  | .printAndFeed => pure (some [.feed (getOr data 0 0).toNat])
  -- print_and_feed_lines.rs:7-14
  | .printAndFeedLines => pure (some [.feedLine (getOr data 0 0).toNat])
  -- print_and_reverse_feed_lines.rs:7-14
  | .printAndReverseFeedLines => pure (some [.feedLine (0 - ((getOr data 0 0).toNat : Int))])
  -- select_standard_mode.rs:18-27
  | .selectStandardMode => if c.pageMode.enabled then pure (some [.endPageMode]) else pure none
  -- set_character_size.rs:9-18
  | .setCharacterSize =>
    let s := parseStretch (getOr data 0 0)
    pure (some [.setTextWidth s.1, .setTextHeight s.2])
  -- set_justification.rs:8-19
  | .setJustification => pure (some [.justify (parseJustify (getOr data 0 0))])
  -- set_page_mode.rs:9-15
  | .setPageMode => pure (some [.beginPageMode])
  -- set_tab_len.rs:7-23; `unwrap_or(&context.default.as_ref().unwrap()...)` evaluates the default eagerly
  | .setTabLen => do
    let d ← c.defaultUnwrap
    pure (some [.changeTabs (getOr data 0 d.text.lineSpacing) (getOr data 1 d.text.lineSpacing)])
  | _ => pure none

/-- `get_device_command`.  `SubCommandHandler` (subcommands/mod.rs:84-160) does not override it; of the sub-command
handlers only print_buffer_graphics.rs:39-45 does. -/
def getDevice (cmd : Command) (c : Context) : Rs (Option (List DeviceCommand)) :=
  match cmd.handler with
  | .unit id => getDeviceUnit id cmd.data c
  | .subUnit .printBuffer => pure (some [.clearBufferGraphics])
  | _ => pure none

/-! ### apply_context of commands -/

/-- `(n & 0x00000001) == 1` -/
def lowBit (n : Byte) : Bool := n &&& 1 == 1

/-- set_barcode_hri.rs:9-14 -/
def parseHri (n : Byte) : Hri :=
  if n = 1 ∨ n = 49 then .above else if n = 2 ∨ n = 50 then .below else if n = 3 ∨ n = 51 then .both else .none

/-- set_underline.rs:9-14 -/
def parseUnderline (n : Byte) : TextUnderline :=
  if n = 0 ∨ n = 48 then .off else if n = 1 ∨ n = 49 then .on else if n = 2 ∨ n = 50 then .double else .off

/-- page_mode_print_direction.rs:69-83 -/
def parseDirection (n : Byte) : PrintDirection :=
  if n = 0 ∨ n = 48 then .topLeft2Right else if n = 1 ∨ n = 49 then .bottomLeft2Top
  else if n = 2 ∨ n = 50 then .bottomRight2Left else if n = 3 ∨ n = 51 then .topRight2Bottom else .topLeft2Right

/-- set_horizontal_pos.rs:13-18, set_vertical_pos.rs:19-24 -/
def getPos (data : List Byte) : Nat := (getOr data 0 0).toNat + (getOr data 1 0).toNat * 256

/-- offset_vertical_pos.rs:25-32: the `u16` reinterpreted as `i16`. -/
def getPosI16 (data : List Byte) : Int := if getPos data < 32768 then getPos data else (getPos data : Int) - 65536

/-- page_mode_print_area.rs:41-53 -/
def calculatePageArea (data : List Byte) : RenderArea := ⟨parseU16 data 0, parseU16 data 2, parseU16 data 4, parseU16 data 6⟩

/-- Change the text settings. -/
def Context.modText (c : Context) (f : TextContext → TextContext) : Context := { c with text := f c.text }
/-- Change the barcode settings. -/
def Context.modBarcode (c : Context) (f : BarcodeContext → BarcodeContext) : Context := { c with barcode := f c.barcode }
/-- Change the 2D code settings. -/
def Context.modCode2d (c : Context) (f : Code2DContext → Code2DContext) : Context := { c with code2d := f c.code2d }
/-- Change the graphics settings. -/
def Context.modGraphics (c : Context) (f : GraphicsContext → GraphicsContext) : Context := { c with graphics := f c.graphics }
/-- Change the page mode settings. -/
def Context.modPage (c : Context) (f : PageModeContext → PageModeContext) : Context := { c with pageMode := f c.pageMode }

/-- set_print_mode.rs:7-20 -/
def applyPrintMode (data : List Byte) (c : Context) : Context :=
  let f := bitflagsLsb (getOr data 0 0)
  let flag : Nat → Bool := fun k => (f[k]?).getD false
  (c.setFont (if flag 0 = true then Font.B else Font.A)).modText fun t =>
    { t with
      bold := flag 3
      heightMult := if flag 4 = true then 2 else 1
      widthMult := if flag 5 = true then 2 else 1
      underline := if flag 6 = true then .on else .off }

/-- set_double_strike.rs:8-22 -/
def applyDoubleStrike (data : List Byte) (c : Context) : Context :=
  c.modText fun t =>
    { t with
      strikethrough :=
        if lowBit (getOr data 0 0) then .double else if t.strikethrough = .double then .on else .off }

/-- set_black_white_invert.rs:7-19 -/
def applyInvert (data : List Byte) (c : Context) : Context :=
  let n := getOr data 0 0
  let rc := c.graphics.renderColors
  c.modText fun t =>
    { t with backgroundColor := if n = 1 then rc.color1 else rc.paperColor,
             color := if n = 1 then rc.paperColor else rc.color1,
             invert := n = 1 }

/-- set_character_effects.rs:32-64 -/
def applyCharEffects (data : List Byte) (c : Context) : Context :=
  if data.length < 3 then c
  else
    let fnc := getOr data 2 0
    let m := getOr data 3 48
    let col := c.graphics.renderColors.colorFor m
    if fnc = 48 then c.modText fun t => { t with color := col }
    else if fnc = 49 then c.modText fun t => { t with backgroundColor := col }
    else if fnc = 50 then
      let a := getOr data 4 0
      c.modText fun t => { t with shadowColor := col, shadow := !(a = 0 ∨ a = 48) }
    else c

/-- set_motion_units.rs:14-40 (`as u8` truncates) -/
def applyMotionUnits (data : List Byte) (c : Context) : Context :=
  let x := getOr data 0 0
  let y := getOr data 1 0
  if x = 0 ∨ y = 0 then c
  else c.modGraphics fun g => { g with hMotionUnit := UInt8.ofNat (g.dotsPerInch / x.toNat), vMotionUnit := UInt8.ofNat (g.dotsPerInch / y.toNat) }

/-- set_barcode_width.rs:13-29 -/
def applyBarcodeWidth (data : List Byte) (c : Context) : Context :=
  let n := getOr data 0 2
  let n := if n < 2 then 2 else n
  if n > 6 then c else c.modBarcode fun b => { b with width := n }

/-- The handlers of commands/*.rs that override `apply_context`. -/
def applyUnit (id : Hid) (data : List Byte) (c : Context) : Rs Context :=
  match id with
  -- default_line_spacing.rs:7-11
  | .defaultLineSpacing =>
    match c.default with
    | some d => pure (c.modText fun t => { t with lineSpacing := d.text.lineSpacing })
    | none => pure c
  -- initialize.rs:14-16
  | .initialize => pure c.reset
  -- offset_vertical_pos.rs:13-18
  | .offsetVerticalPos => if c.pageMode.enabled then c.offsetYRelative (getPosI16 data) else pure c
  -- page_mode_print_area.rs:56-63
  | .pageModePrintArea => if c.pageMode.enabled then c.setPageArea (calculatePageArea data) else pure c
  -- page_mode_print_direction.rs:65-91
  | .pageModePrintDirection =>
    if c.pageMode.enabled then
      pure (c.modPage fun p => { p with direction := parseDirection (getOr data 0 0), previousDirection := p.direction })
    else pure c
  -- select_standard_mode.rs:14-16
  | .selectStandardMode => pure (c.modPage fun p => { p with enabled := false })
  -- set_alt_color.rs:7-13
  | .setAltColor =>
    let n := getOr data 0 0
    pure (c.modText fun t => { t with color := if n = 1 ∨ n = 49 then c.graphics.renderColors.color2 else c.graphics.renderColors.color1 })
  -- set_barcode_font.rs:7-10
  | .setBarcodeFont => pure (c.modBarcode fun b => { b with font := Font.fromRaw (getOr data 0 0) })
  -- set_barcode_height.rs:7-10
  | .setBarcodeHeight => pure (c.modBarcode fun b => { b with height := getOr data 0 0 })
  -- set_barcode_hri.rs:7-15
  | .setBarcodeHri => pure (c.modBarcode fun b => { b with humanReadable := parseHri (getOr data 0 0) })
  | .setBarcodeWidth => pure (applyBarcodeWidth data c)
  | .setBlackWhiteInvert => pure (applyInvert data c)
  -- set_code_table.rs:78-82
  | .setCodeTable => pure (c.modText fun t => { t with codeTable := getOr data 0 0 }).updateDecoder
  | .setDoubleStrike => pure (applyDoubleStrike data c)
  -- set_emphasis.rs:7-10
  | .setEmphasis => pure (c.modText fun t => { t with bold := lowBit (getOr data 0 0) })
  -- set_font.rs:7-10
  | .setFont => pure (c.setFont (Font.fromRaw (getOr data 0 0)))
  -- set_horizontal_pos.rs:21-23
  | .setHorizontalPos => c.setXAbsolute (getPos data)
  -- set_international_charset.rs:45-49
  | .setInternationalCharset => pure (c.modText fun t => { t with characterSet := getOr data 0 0 }).updateDecoder
  -- set_italic.rs:7-10
  | .setItalic => pure (c.modText fun t => { t with italic := lowBit (getOr data 0 0) })
  -- set_line_spacing.rs:7-14
  | .setLineSpacing => do
    let d ← c.defaultUnwrap
    pure (c.modText fun t => { t with lineSpacing := getOr data 0 d.text.lineSpacing })
  | .setMotionUnits => pure (applyMotionUnits data c)
  | .setPrintMode => pure (applyPrintMode data c)
  -- set_smoothing.rs:7-10
  | .setSmoothing => pure (c.modText fun t => { t with smoothing := lowBit (getOr data 0 0) })
  -- set_underline.rs:7-15
  | .setUnderline => pure (c.modText fun t => { t with underline := parseUnderline (getOr data 0 0) })
  -- set_upside_down.rs:7-10
  | .setUpsideDown => pure (c.modText fun t => { t with upsideDown := lowBit (getOr data 0 0) })
  -- set_vertical_pos.rs:27-31
  | .setVerticalPos => if c.pageMode.enabled then c.setYAbsolute (getPos data) else pure c
  -- unknown_gs_g.rs:7-13 (empty bodies) and the handlers without `apply_context`
  | _ => pure c

/-! ### apply_context of sub-commands -/

/-- define_{nv,download}_graphics_raster.rs:8-36 -/
def applyDefineRaster (storage : ImageRefStorage) (data : List Byte) (c : Context) : Rs Context :=
  if data.length < 8 then pure c
  else do
    let g ← imageFromRasterMulti (parseU16 data 4) (parseU16 data 6) (1, 1) (getOr data 3 0) c.graphics.renderColors .block
      (data.drop 8) true
    pure (c.modGraphics fun x =>
      { x with storedGraphics := x.storedGraphics.insert ⟨getOr data 1 0, getOr data 2 0, storage⟩ g })

/-- define_{nv,download}_graphics_column.rs:8-36: like the raster one, but too short data is not returned on -/
def applyDefineColumn (storage : ImageRefStorage) (data : List Byte) (c : Context) : Rs Context := do
  let _ ← getUnwrap data 0
  let kc1 ← getUnwrap data 1
  let kc2 ← getUnwrap data 2
  let b ← getUnwrap data 3
  let body ← slice data 8 data.length
  let g ← imageFromRasterMulti (parseU16 data 4) (parseU16 data 6) (1, 1) b c.graphics.renderColors .block body true
  pure (c.modGraphics fun x => { x with storedGraphics := x.storedGraphics.insert ⟨kc1, kc2, storage⟩ g })

/-- store_buffer_graphics_{raster,column}.rs:8-33 -/
def applyStoreBuffer (column : Bool) (data : List Byte) (c : Context) : Rs Context :=
  if data.length < 4 then
    pure (c.modGraphics fun x => { x with bufferGraphics := x.bufferGraphics ++ [.error "Not enough parameters for buffer graphics"] })
  else do
    let body ← slice data 8 data.length
    let color := c.graphics.renderColors.colorFor (getOr data 3 0)
    let stretch := (getOr data 1 0, getOr data 2 0)
    let g ← if column then imageFromColumn (parseU16 data 4) (parseU16 data 6) stretch color .block body
      else imageFromRaster (parseU16 data 4) (parseU16 data 6) stretch color .block body true
    pure (c.modGraphics fun x => { x with bufferGraphics := x.bufferGraphics ++ [g] })

/-- set_dot_density.rs:7-18 -/
def applyDotDensity (data : List Byte) (c : Context) : Context :=
  let x := getOr data 0 50
  let y := getOr data 1 50
  if x = 50 ∧ y = 50 then c.modGraphics fun g => { g with dotsPerInch := 180 }
  else if x = 51 ∧ y = 51 then c.modGraphics fun g => { g with dotsPerInch := 360 }
  else c

/-- pdf417_set_correction_level.rs:16-40: the cascade of comparisons of `a = codeword_count as f32 * n as f32 * 0.01`; later ones overwrite
earlier ones. -/
def pdf417Level (count n level : Nat) : Nat :=
  let a := F32.mul (F32.mul (F32.ofNat count) (F32.ofNat n)) (F32.lit 1 100)
  let level := if F32.lt a (F32.ofNat 4) then 1 else level
  let level := if F32.lt a (F32.ofNat 11) then 2 else level
  let level := if F32.lt a (F32.ofNat 21) then 3 else level
  let level := if F32.lt a (F32.ofNat 46) then 4 else level
  let level := if F32.lt a (F32.ofNat 101) then 5 else level
  let level := if F32.lt a (F32.ofNat 201) then 6 else level
  let level := if F32.lt a (F32.ofNat 401) then 7 else level
  if F32.lt (F32.ofNat 400) a then 8 else level

/-- pdf417_set_correction_level.rs:7-44 -/
def applyPdf417Correction (data : List Byte) (c : Context) : Rs Context := do
  let m := getOr data 0 48
  let n := getOr data 1 48
  let count ← subU data.length 2
  let level ← subU m.toNat 48
  let level := if m = 49 then pdf417Level count n.toNat level else level
  pure (c.modCode2d fun x => { x with pdf417ErrCorrection := UInt8.ofNat level })

/-- aztec_set_function_and_layers.rs:7-24 -/
def applyAztecLayers (data : List Byte) (c : Context) : Context :=
  let n1 := getOr data 0 0
  let n2 := getOr data 1 0
  c.modCode2d fun x => { x with aztecMode := if n1 = 1 ∨ n1 = 49 then 1 else 0, aztecLayers := if n2 > 0 ∧ n2 < 33 then n2 else 0 }

/-- datamatrix_set_options.rs:7-43 (`d1 + d2` is a checked u8 addition) -/
def applyDatamatrixOptions (data : List Byte) (c : Context) : Rs Context :=
  let m := getOr data 0 0
  let d1 := getOr data 1 0
  let d2 := getOr data 2 0
  let set (columns rows ty : Byte) : Context :=
    c.modCode2d fun x => { x with datamatrixRows := rows, datamatrixColumns := columns, datamatrixType := ty }
  if m = 0 ∨ m = 48 then do
    let s ← addU8 d1.toNat d2.toNat
    pure (if s > 0 then set d1 d2 0 else set 0 0 0)
  else if m = 1 ∨ m = 49 then
    pure (if d2 = 0 ∧ (d1 = 8 ∨ d1 = 12 ∨ d1 = 16) then set d1 0 2 else set d1 d2 2)
  else pure c

/-- qr_store.rs:13-18 -/
def versionCapacities : List Int :=
  [ 17, 32, 53, 78, 106, 134, 154, 192, 230, 271, 321, 367, 425, 458, 520, 586, 644, 718, 792, 858, 929, 1003, 1091,
    1171, 1273, 1367, 1465, 1528, 1628, 1732, 1840, 1952, 2068, 2188, 2303, 2431, 2563, 2699, 2809, 2953 ]

/-- qr_store.rs:26-30: the search; `v` is the index of the head of the list. -/
def minVersionLoop (len : Int) : List Int → Nat → Option Nat
  | [], _ => none
  | cap :: rest, v => if cap ≥ len then some (v + 1) else minVersionLoop len rest (v + 1)

/-- qr_store.rs:23-33 `minimum_version_for_bytes`; `max_version` is 4, 14 or 40. -/
def minimumVersion (len : Int) (maxVersion : Nat) : Nat :=
  (minVersionLoop len (versionCapacities.take maxVersion) 0).getD maxVersion

/-- `n as i16` of a `usize` -/
def asI16 (n : Nat) : Int := if n % 65536 < 32768 then (n % 65536 : Nat) else ((n % 65536 : Nat) : Int) - 65536

/-- qr_store.rs:36-87 -/
def applyQrStore (ext : Ext) (data : List Byte) (c : Context) : Context :=
  let maxModules := match c.code2d.qrModel with
    | .model1 => 14
    | .model2 => 40
    | .micro => 4
  let v : Int := minimumVersion (asI16 data.length) maxModules
  let version := match c.code2d.qrModel with
    | .model1 => QrVersion.normal v
    | .model2 => .normal v
    | .micro => .micro v
  match ext.qr data version c.code2d.qrErrorCorrection with
  | some (points, width) =>
    c.modCode2d fun x => { x with symbolStorage := some ⟨points.map (fun b => if b then 1 else 0), width, x.qrSize.toNat, x.qrSize.toNat⟩ }
  | none => c

/-- The handlers of subcommands/*/*.rs that override `apply_context`. -/
def applySub (ext : Ext) (id : SubId) (data : List Byte) (c : Context) : Rs Context :=
  match id with
  -- clear_all_download_graphics.rs:7-12
  | .clearAllDownload => pure (c.modGraphics fun g => { g with storedGraphics := g.storedGraphics.retain (fun k => k.storage ≠ .ram) })
  -- clear_all_nv_graphics.rs:7-12
  | .clearAllNv => pure (c.modGraphics fun g => { g with storedGraphics := g.storedGraphics.retain (fun k => k.storage ≠ .disc) })
  -- clear_download_graphic.rs:7-11
  | .clearDownload =>
    match ImageRef.fromData data .ram with
    | some k => pure (c.modGraphics fun g => { g with storedGraphics := g.storedGraphics.remove k })
    | none => pure c
  -- clear_nv_graphic.rs:7-11
  | .clearNv =>
    match ImageRef.fromData data .disc with
    | some k => pure (c.modGraphics fun g => { g with storedGraphics := g.storedGraphics.remove k })
    | none => pure c
  | .defineDownloadColumn => applyDefineColumn .ram data c
  | .defineDownloadRaster => applyDefineRaster .ram data c
  | .defineNvColumn => applyDefineColumn .disc data c
  | .defineNvRaster => applyDefineRaster .disc data c
  | .setDotDensity => pure (applyDotDensity data c)
  | .storeBufferRaster => applyStoreBuffer false data c
  | .storeBufferColumn => applyStoreBuffer true data c
  -- pdf417_set_column_count.rs:7-9
  | .pdf417SetColumnCount => pure (c.modCode2d fun x => { x with pdf417Columns := getOr data 0 0 })
  -- pdf417_set_row_count.rs:7-9
  | .pdf417SetRowCount => pure (c.modCode2d fun x => { x with pdf417Rows := getOr data 0 0 })
  -- pdf417_set_width.rs:7-9
  | .pdf417SetWidth => pure (c.modCode2d fun x => { x with pdf417Width := getOr data 0 0 })
  | .pdf417SetCorrectionLevel => applyPdf417Correction data c
  -- pdf417_set_options.rs:7-11
  | .pdf417SetOptions => pure (c.modCode2d fun x => { x with pdf417IsTruncated := getOr data 0 0 ≠ 0 })
  | .qrStore => pure (applyQrStore ext data c)
  -- qr_set_model.rs:7-16
  | .qrSetModel =>
    let n := getOr data 0 49
    pure (c.modCode2d fun x => { x with qrModel := if n = 50 then .model2 else if n = 51 then .micro else .model1 })
  -- qr_set_size.rs:7-9
  | .qrSetSize => pure (c.modCode2d fun x => { x with qrSize := getOr data 0 1 })
  -- qr_set_correction_level.rs:7-16
  | .qrSetCorrectionLevel =>
    let n := getOr data 0 48
    pure (c.modCode2d fun x => { x with qrErrorCorrection := if n = 1 then .M else if n = 2 then .Q else if n = 3 then .H else .L })
  -- maxi_set_mode.rs:7-12 (checked u8 subtraction)
  | .maxiSetMode => do
    let m ← subU (getOr data 0 50).toNat 48
    pure (c.modCode2d fun x => { x with maxicodeMode := UInt8.ofNat m })
  -- gs1_set_width.rs:7-9
  | .gs1SetWidth => pure (c.modCode2d fun x => { x with gs1DatabarWidth := getOr data 0 1 })
  -- gs1_set_max_width.rs:7-11
  | .gs1SetMaxWidth => pure (c.modCode2d fun x => { x with gs1DatabarMaxWidth := getPos data })
  -- composite_set_width.rs:7-9
  | .compositeSetWidth => pure (c.modCode2d fun x => { x with compositeWidth := getOr data 0 1 })
  -- composite_set_max_width.rs:7-11 (writes the GS1 setting)
  | .compositeSetMaxWidth => pure (c.modCode2d fun x => { x with gs1DatabarMaxWidth := getPos data })
  -- composite_set_hri.rs:7-10
  | .compositeSetHri => pure (c.modCode2d fun x => { x with compositeFont := Font.fromRaw (getOr data 0 0) })
  | .aztecSetFunctionAndLayers => pure (applyAztecLayers data c)
  -- aztec_set_size.rs:7-13
  | .aztecSetSize =>
    let n := getOr data 0 1
    if n < 2 ∨ n > 16 then pure c else pure (c.modCode2d fun x => { x with aztecSize := n })
  -- aztec_set_correction_level.rs:7-10
  | .aztecSetCorrectionLevel => pure (c.modCode2d fun x => { x with aztecErrorCorrection := getOr data 0 5 })
  | .datamatrixSetOptions => applyDatamatrixOptions data c
  -- datamatrix_set_width.rs:7-9
  | .datamatrixSetWidth => pure (c.modCode2d fun x => { x with datamatrixWidth := getOr data 0 1 })
  -- {aztec,composite,datamatrix,gs1,maxi,pdf417}_store.rs:7-10 (empty bodies) and the handlers without `apply_context`
  | _ => pure c

/-- `apply_context`; `SubCommandHandler` forwards to its sub-command (subcommands/mod.rs:100-104). -/
def applyContext (ext : Ext) (cmd : Command) (c : Context) : Rs Context :=
  match cmd.handler with
  | .unit id => applyUnit id cmd.data c
  | .subUnit id => applySub ext id cmd.data c
  | .charEffects _ => pure (applyCharEffects cmd.data c)
  | .sub s =>
    match s.subcommand with
    | some sc => applySub ext sc.id cmd.data c
    | none => pure c
  | _ => pure c

/-! ### get_graphics -/

/-- barcode.rs:67-86 `kind_to_string` -/
def BarcodeType.name : BarcodeType → String
  | .upcA => "UPC A" | .upcE => "UPC E" | .ean13 => "EAN 13" | .ean8 => "EAN 8" | .code39 => "CODE 39" | .itf => "ITF"
  | .nw7Codabar => "Nw7Codabar" | .code93 => "Code93" | .code128 => "Code128" | .gs1128 => "GS1 128"
  | .gs1DatabarOmni => "GS1 Omni" | .gs1DatabarTruncated => "GS1 Truncated" | .gs1DatabarLimited => "GS1 Kimited"
  | .gs1DatabarExpanded => "GS1 Expanded" | .code128Auto => "Code 128 Auto" | .unknown => "Unknown"

/-- barcode.rs:58-65 `decorate_error` -/
def decorateError (kind : BarcodeType) (error : Str) (data : List Byte) : GraphicsCommand :=
  .error (String.ofList (kind.name.toList ++ [' '] ++ error ++ " --> ".toList ++
    ((fromUtf8 data).getD "[Error parsing data as utf8]".toList)))

/-- barcode.rs:88-111 `validate_data_length` -/
def validateDataLength (kind : BarcodeType) (n : Nat) : Bool :=
  if n > 255 then false
  else match kind with
    | .upcA => n = 11 ∨ n = 12
    | .upcE => n = 6 ∨ n = 7 ∨ n = 8 ∨ n = 11 ∨ n = 12
    | .ean13 => n = 12 ∨ n = 13
    | .ean8 => n = 7 ∨ n = 8
    | .code39 => n > 0
    | .nw7Codabar | .itf => n > 2
    | .gs1DatabarLimited | .gs1DatabarTruncated | .gs1DatabarOmni => n = 13
    | .code128 | .gs1128 | .gs1DatabarExpanded => n > 1
    | .code128Auto | .code93 => n > 0
    | .unknown => n > 0

/-- barcode.rs:133-136: the code set markers in the form expected by barcoders. -/
def code128Adjust (s : Str) : Str :=
  Str.replace2 '{' 'C' ['Ć'] (Str.replace2 '{' 'B' ['Ɓ'] (Str.replace2 '{' 'A' ['À'] s))

/-- barcode.rs:138 -/
def code128Text (s : Str) : Str := Str.replace2 '{' 'C' [] (Str.replace2 '{' 'B' [] (Str.replace2 '{' 'A' [] s))

/-- barcode.rs: each arm ends like this. -/
def barcodeResult (s : BarcodeState) (data : List Byte) (c : Context) (text : Str) (r : Except Str (List Byte)) : GraphicsCommand :=
  match r with
  | .ok points =>
    .barcode { points := points, pointWidth := c.barcode.width, pointHeight := c.barcode.height, hri := c.barcode.humanReadable,
               text := TextSpan.newForBarcode text c }
  | .error e => decorateError s.kind e data

/-- barcode.rs:115-264 `get_graphics` -/
def barcodeGraphics (ext : Ext) (s : BarcodeState) (data : List Byte) (c : Context) : Rs (Option GraphicsCommand) :=
  let str := (fromUtf8 data).getD []
  if !validateDataLength s.kind str.byteLen then pure (some (decorateError s.kind "Invalid data length".toList data))
  else match s.kind with
    | .code128 => pure (some (barcodeResult s data c (code128Text str) (ext.encode .code128 (code128Adjust str))))
    | .nw7Codabar => pure (some (barcodeResult s data c str (ext.encode .nw7Codabar str)))
    | .code39 => pure (some (barcodeResult s data c str (ext.encode .code39 (str.filter (· ≠ '*')))))
    | .code93 => pure (some (barcodeResult s data c str (ext.encode .code93 str)))
    | .ean13 => do
      let sp ← Str.slice str 0 12
      pure (some (barcodeResult s data c str (ext.encode .ean13 sp)))
    | .upcA => pure (some (barcodeResult s data c str (ext.encode .upcA str)))
    | .upcE => do
      match ← upceNew str.bytes with
      | .ok u => do
        let points ← upceEncode u
        pure (some (barcodeResult s data c str (.ok points)))
      | .error e => pure (some (decorateError s.kind e.toList data))
    | .ean8 => pure (some (barcodeResult s data c str (ext.encode .ean8 str)))
    | .itf => pure (some (barcodeResult s data c str (ext.encode .itf str)))
    | _ => pure (some (decorateError s.kind "Unknown barcode type".toList data))

/-- bit_image.rs:15-39; `color_1` -/
def bitImageGraphics (s : BitImageState) (data : List Byte) (c : Context) : Rs (Option GraphicsCommand) := do
  let stretch : Byte × Byte := (UInt8.ofNat s.stretch.1, UInt8.ofNat s.stretch.2)
  let color := c.graphics.renderColors.color1
  let g ← if s.colEncoded then imageFromColumn s.width s.height stretch color .inline data
    else imageFromRaster s.width s.height stretch color .inline data false
  pure (some g)

/-- raster_bit_image.rs:15-21 -/
def rasterStretch (n : Byte) : Byte × Byte :=
  if n = 0 ∨ n = 48 then (1, 1) else if n = 1 ∨ n = 49 then (2, 1) else if n = 2 ∨ n = 50 then (1, 2)
  else if n = 3 ∨ n = 52 then (2, 2) else (1, 1)

/-- raster_bit_image.rs:14-32 -/
def rasterGraphics (s : RasterState) (data : List Byte) (c : Context) : Rs (Option GraphicsCommand) := do
  let g ← imageFromRaster s.width s.height (rasterStretch s.scaling) (c.graphics.renderColors.colorFor 1) .block data true
  pure (some g)

/-- print_buffer_graphics.rs:16-22: the first error, or all images. -/
def bufferLayers : List GraphicsCommand → Except GraphicsCommand (List Image)
  | [] => .ok []
  | .error m :: _ => .error (.error m)
  | .image i :: rest => (bufferLayers rest).map (i :: ·)
  | _ :: rest => bufferLayers rest

/-- print_buffer_graphics.rs:12-37 -/
def printBufferGraphics (c : Context) : Rs (Option GraphicsCommand) :=
  match bufferLayers c.graphics.bufferGraphics with
  | .error g => pure (some g)
  | .ok [] => pure none
  | .ok layers => do
    match ← mergeLayers layers with
    | .ok i => pure (some (.image i))
    | .error _ => pure (some (.error "Could not merge image layers"))

/-- The handlers of subcommands/*/*.rs that override `get_graphics`. -/
def subGraphics (id : SubId) (data : List Byte) (c : Context) : Rs (Option GraphicsCommand) :=
  match id with
  | .printBuffer => printBufferGraphics c
  -- print_download_graphics.rs:7-12
  | .printDownload => pure ((ImageRef.fromData data .ram).bind c.graphics.storedGraphics.get)
  -- print_nv_graphic.rs:7-12
  | .printNv => pure ((ImageRef.fromData data .disc).bind c.graphics.storedGraphics.get)
  -- {aztec,composite,datamatrix,gs1,maxi,pdf417}_print.rs:7-14
  | .aztecPrint | .compositePrint | .datamatrixPrint | .gs1Print | .maxiPrint | .pdf417Print =>
    pure (c.code2d.symbolStorage.map .code2d)
  -- qr_print.rs:7-14
  | .qrPrint =>
    match c.code2d.symbolStorage with
    | some q => pure (some (.code2d q))
    | none => pure (some (.error "QR Not setup properly"))
  | _ => pure none

/-- `get_graphics`; `SubCommandHandler` forwards to its sub-command (subcommands/mod.rs:93-98). -/
def getGraphics (ext : Ext) (cmd : Command) (c : Context) : Rs (Option GraphicsCommand) :=
  match cmd.handler with
  | .subUnit id => subGraphics id cmd.data c
  | .barcode s => barcodeGraphics ext s cmd.data c
  | .bitImage s => bitImageGraphics s cmd.data c
  | .raster s => rasterGraphics s cmd.data c
  | .sub s =>
    match s.subcommand with
    | some sc => subGraphics sc.id cmd.data c
    | none => pure none
  | _ => pure none

end Thermal
