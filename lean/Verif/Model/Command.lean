import Verif.Model.Util
/-
Model of thermal_parser/src/command.rs (Command, DataType, CommandType, Command::push) together with the
stateful handlers that override `push` / `get_subcommand` / `get_command_bytes`.

`Box<dyn CommandHandler>` is modelled as the inductive `Handler`: one constructor per handler struct that
has fields, and `Handler.unit` (an identifier) for the field-less `struct Handler;` ones.
-/
namespace Thermal

/-- command.rs:60-70 -/
inductive CommandType where
  | control | text | textStyle | graphics | context | contextControl | subcommand | unknown
  deriving DecidableEq, Repr

/-- command.rs:72-84 -/
inductive DataType where
  | empty | single | double | triple | quad | octet | text | custom | subcommand | unknown
  deriving DecidableEq, Repr

/-- Identifies the field-less handler structs of thermal_parser/src/commands/*.rs (one per file). -/
inductive Hid where
  | text | unknown | beginPrint | endPrint
  | cancel | carriageReturn | defaultLineSpacing | feedAndCut | formfeed | horizontalTab | initialize
  | linefeed | paperEndSensor | printAndFeedLines | printAndFeed | printAndReverseFeedLines
  | printStopSensor | pulse | setHorizontalPos | setAltColor | setBarcodeHeight | setBarcodeWidth
  | setBlackWhiteInvert | setCharacterSize | setCodeTable | setDoubleStrike | setEmphasis | setFont
  | setMotionUnits | setBarcodeFont | setBarcodeHri | setInternationalCharset | setItalic
  | setJustification | setLineSpacing | setPanelButtons | setPeripheralDevice | setPrintMode
  | offsetVerticalPos | setSmoothing | setTabLen | setUnderline | setUpsideDown | transmitPrinterId
  | setPageMode | setVerticalPos | pageModePrintArea | pageModePrintDirection | pageModePrintData
  | selectStandardMode | unknownGsG
  deriving DecidableEq, Repr

/-- Identifies the (field-less) handlers of thermal_parser/src/subcommands/{gs_graphics,gs_code2d}/*.rs. -/
inductive SubId where
  | clearAllDownload | clearAllNv | clearDownload | clearNv | defineDownloadColumn | defineDownloadRaster
  | defineNvColumn | defineNvRaster | getDownloadKeycodes | getNvCapacity | getNvKeycodes
  | getNvRemaining | printBuffer | printDownload | printNv | setDotDensity | storeBufferRaster
  | storeBufferColumn
  | pdf417SetColumnCount | pdf417SetRowCount | pdf417SetWidth | pdf417SetCorrectionLevel
  | pdf417SetOptions | pdf417Store | pdf417Print | pdf417TransmitSize | maxiTransmitSize
  | qrTransmitSize | gs1TransmitSize | aztecTransmitSize | datamatrixTransmitSize | qrPrint | maxiPrint
  | compositeTransmitSize | gs1Print | compositePrint | aztecPrint | datamatrixPrint | datamatrixStore
  | aztecStore | compositeStore | gs1Store | maxiStore | qrStore | qrSetModel | qrSetSize
  | qrSetCorrectionLevel | maxiSetMode | gs1SetWidth | gs1SetMaxWidth | compositeSetWidth
  | compositeSetMaxWidth | compositeSetHri | aztecSetFunctionAndLayers | aztecSetSize
  | aztecSetCorrectionLevel | datamatrixSetOptions | datamatrixSetWidth
  deriving DecidableEq, Repr

/-- barcode.rs:19-37 -/
inductive BarcodeType where
  | upcA | upcE | ean13 | ean8 | code39 | itf | nw7Codabar | code93 | code128 | gs1128
  | gs1DatabarOmni | gs1DatabarTruncated | gs1DatabarLimited | gs1DatabarExpanded | code128Auto | unknown
  deriving DecidableEq, Repr

/-- barcode.rs:39-44 -/
inductive EncodingFunction where
  | nulTerminated | explicitSize | unknown
  deriving DecidableEq, Repr

/-- barcode.rs:46-55 -/
structure BarcodeState where
  kind : BarcodeType := .unknown
  kindId : Byte := 0
  encoding : EncodingFunction := .unknown
  capacity : Byte := 0
  hasCapacity : Bool := false
  acceptData : Bool := false
  rawParams : List Byte := []
  deriving DecidableEq, Repr

/-- bit_image.rs:3-13 -/
structure BitImageState where
  width : Nat := 0
  height : Nat := 0
  capacity : Nat := 0
  colEncoded : Bool := true
  size : Nat := 0
  acceptData : Bool := false
  stretch : Nat × Nat := (1, 1)
  params : List Byte := []
  deriving DecidableEq, Repr

/-- raster_bit_image.rs:3-11 -/
structure RasterState where
  width : Nat := 0
  height : Nat := 0
  capacity : Nat := 0
  scaling : Byte := 0
  acceptData : Bool := false
  params : List Byte := []
  deriving DecidableEq, Repr

/-- A sub-command `Command` (subcommands/*/*.rs `new()`): its `data_kind` is always `Subcommand` and its
handler is field-less, so only the other fields are stored. -/
structure SubCmd where
  name : String
  commands : List Byte
  data : List Byte := []
  kind : CommandType
  id : SubId
  deriving DecidableEq, Repr

/-- Which `Rc<Vec<Command>>` a `SubCommandHandler` was created with. -/
inductive SubTable where
  | graphics | code2d | none
  deriving DecidableEq, Repr

/-- subcommands/mod.rs:11-21 `SubCommandHandler` -/
structure SubState where
  table : SubTable
  subcommand : Option SubCmd := Option.none
  isLarge : Bool
  m : Byte := 0
  subcommandId : Byte := 0
  capacity : Nat := 0
  acceptData : Bool := false
  useM : Bool
  deriving DecidableEq, Repr

/-- `Box<dyn CommandHandler>` -/
inductive Handler where
  /-- a field-less handler of commands/ -/
  | unit (id : Hid)
  /-- a field-less handler of subcommands/ -/
  | subUnit (id : SubId)
  /-- set_character_effects.rs:4-7 -/
  | charEffects (capacity : Nat)
  | barcode (s : BarcodeState)
  | bitImage (s : BitImageState)
  | raster (s : RasterState)
  | sub (s : SubState)
  deriving DecidableEq, Repr

/-- command.rs:86-94 `Command` (`Rc<..>` fields by value). -/
structure Command where
  name : String
  commands : List Byte
  data : List Byte := []
  kind : CommandType
  dataKind : DataType
  handler : Handler
  deriving DecidableEq, Repr

/-- The `Command` value a stored sub-command stands for. -/
def SubCmd.toCommand (s : SubCmd) : Command :=
  { name := s.name, commands := s.commands, data := s.data, kind := s.kind,
    dataKind := .subcommand, handler := .subUnit s.id }

/-! ### Custom `push` implementations.  Each returns the new handler state, the new data and whether the
byte was accepted. -/

/-- feed_and_cut.rs:27-42 -/
def feedAndCutPush (data : List Byte) (byte : Byte) : List Byte × Bool :=
  match data with
  | [] => ([byte], true)
  | [d0] => if d0 = 0 ∨ d0 = 48 ∨ d0 = 1 ∨ d0 = 49 then (data, false) else (data ++ [byte], true)
  | _ => (data, false)

/-- set_character_effects.rs:10-30 -/
def charEffectsPush (cap : Nat) (data : List Byte) (byte : Byte) : Nat × List Byte × Bool :=
  if data.length < 2 then (cap, data ++ [byte], true)
  else if data.length = 2 then
    ((getOr data 0 0).toNat + (getOr data 1 0).toNat * 256 + 2, data ++ [byte], true)
  else if data.length < cap then (cap, data ++ [byte], true)
  else (cap, data, false)

/-- barcode.rs:299-316, the `match self.kind_id`. -/
def barcodeKind (b : Byte) : BarcodeType :=
  if b = 0 ∨ b = 65 then .upcA else if b = 1 ∨ b = 66 then .upcE else if b = 2 ∨ b = 67 then .ean13
  else if b = 3 ∨ b = 68 then .ean8 else if b = 4 ∨ b = 69 then .code39
  else if b = 5 ∨ b = 70 then .itf else if b = 6 ∨ b = 71 then .nw7Codabar
  else if b = 72 then .code93 else if b = 73 then .code128 else if b = 80 then .gs1128
  else if b = 81 then .gs1DatabarOmni else if b = 82 then .gs1DatabarTruncated
  else if b = 83 then .gs1DatabarLimited else if b = 84 then .gs1DatabarExpanded
  else if b = 85 then .code128Auto else .unknown

/-- barcode.rs:319-326 -/
def barcodeEncoding (b : Byte) : EncodingFunction :=
  if b ≤ 6 then .nulTerminated else if b ≥ 65 ∧ b ≤ 79 then .explicitSize else .unknown

/-- barcode.rs:292-355 `push` -/
def barcodePush (s : BarcodeState) (data : List Byte) (byte : Byte) : BarcodeState × List Byte × Bool :=
  if !s.acceptData then
    ({ s with rawParams := s.rawParams ++ [byte], kindId := byte, kind := barcodeKind byte,
              encoding := barcodeEncoding byte, acceptData := true }, data, true)
  else match s.encoding with
    | .nulTerminated =>
      if data.getLast?.getD 0x01 = NUL then (s, data.dropLast, false)
      else (s, data ++ [byte], true)
    | .explicitSize =>
      if !s.hasCapacity then
        ({ s with rawParams := s.rawParams ++ [byte], capacity := byte, hasCapacity := true }, data, true)
      else if data.length < s.capacity.toNat then (s, data ++ [byte], true)
      else (s, data, false)
    | .unknown => (s, data, false)

/-- bit_image.rs:40-88 `push`.  All u32 arithmetic is exact (operands below 2^16 · 24). -/
def bitImagePush (s : BitImageState) (data : List Byte) (byte : Byte) : BitImageState × List Byte × Bool :=
  if s.acceptData then
    if s.size ≥ s.capacity then (s, data, false)
    else ({ s with size := s.size + 1 }, data ++ [byte], true)
  else match data with
    | [] => (s, data ++ [byte], true)
    | [_] => (s, data ++ [byte], true)
    | m :: p1 :: _ =>
      let w := p1.toNat + byte.toNat * 256
      let s := { s with params := [m, p1, byte], width := w }
      let s := if m = 32 ∨ m = 33 then
          { s with height := 24, capacity := w * 24 / 8, colEncoded := true }
        else { s with height := 8, capacity := w * 8 / 8 }
      let s := if m = 0 ∨ m = 32 then { s with stretch := (2, 3) } else s
      ({ s with acceptData := true }, [], true)

/-- raster_bit_image.rs:33-65 `push`.  All u32 arithmetic is exact (65535 · 65535 < 2^32). -/
def rasterPush (s : RasterState) (data : List Byte) (byte : Byte) : RasterState × List Byte × Bool :=
  if !s.acceptData then
    match data with
    | sc :: xl :: xh :: yl :: _ =>
      let w := xl.toNat + xh.toNat * 256
      let h := yl.toNat + byte.toNat * 256
      ({ s with scaling := sc, width := w * 8, height := h, capacity := w * h,
                params := [sc, xl, xh, yl, byte], acceptData := true }, [], true)
    | _ => (s, data ++ [byte], true)
  else if data.length ≥ s.capacity then (s, data, false)
  else (s, data ++ [byte], true)

end Thermal
