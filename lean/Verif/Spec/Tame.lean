import Verif.Model.Apply
import Verif.Spec.Grid
/-
Parameters that the program does not accept although the parser does, and how far down a command can move the pen.
-/
namespace Thermal

/-- Parameters within what the program can handle, by the handler of the command.  With `narrow` right-justified text may
occur, but no page mode and no characters wider than twice the normal; without, the other way round. -/
def Tame (narrow : Bool) (cmd : Command) : Prop :=
  match cmd.handler with
  -- ESC L
  | .unit .setPageMode => narrow = false
  -- ESC e: reverse feeding
  | .unit .printAndReverseFeedLines => getOr cmd.data 0 0 = 0
  -- GS P: a motion unit below one dot
  | .unit .setMotionUnits => (getOr cmd.data 0 0).toNat ≤ 180 ∧ (getOr cmd.data 1 0).toNat ≤ 180
  -- ESC a: right-justification
  | .unit .setJustification => narrow = false → getOr cmd.data 0 0 ≠ 2 ∧ getOr cmd.data 0 0 ≠ 50
  -- GS !: character size
  | .unit .setCharacterSize => narrow = true → (getOr cmd.data 0 0).toNat / 16 % 8 ≤ 1
  -- GS k: EAN 13
  | .barcode s => s.kind = .ean13 → ∀ b ∈ cmd.data, b.toNat < 128
  -- ESC *: all dots are there
  | .bitImage s => s.width = 0 ∨ cmd.data.length = Spec.rowBytes s.height * s.width
  -- GS v 0: the number of dots, scaled
  | .raster s => s.width * (rasterStretch s.scaling).1.toNat * (s.height * (rasterStretch s.scaling).2.toNat) < U32
  -- GS ( L, GS 8 L: define column graphics
  | .subUnit .defineNvColumn | .subUnit .defineDownloadColumn => 8 ≤ cmd.data.length
  -- GS ( L, GS 8 L: store in the print buffer
  | .subUnit .storeBufferRaster => 4 ≤ cmd.data.length → Buffered cmd.data
  | .subUnit .storeBufferColumn => 4 ≤ cmd.data.length → Buffered cmd.data ∧
      (cmd.data.drop 8).length = Spec.rowBytes (parseU16 cmd.data 6) * parseU16 cmd.data 4
  -- GS ( k: settings of 2D codes
  | .subUnit .pdf417SetCorrectionLevel => 2 ≤ cmd.data.length ∧ 48 ≤ (getOr cmd.data 0 48).toNat
  | .subUnit .maxiSetMode => 48 ≤ (getOr cmd.data 0 50).toNat
  | .subUnit .datamatrixSetOptions => (getOr cmd.data 1 0).toNat + (getOr cmd.data 2 0).toNat < 256
  | _ => True
where
  /-- The parameters of graphics for the print buffer: scaled at most twice, and the number of dots fits. -/
  Buffered (data : List Byte) : Prop :=
    8 ≤ data.length ∧ (getOr data 1 0).toNat ≤ 2 ∧ (getOr data 2 0).toNat ≤ 2 ∧
    parseU16 data 4 * max (getOr data 1 0).toNat 1 * (parseU16 data 6 * max (getOr data 2 0).toNat 1) < U32

/-- How many dots a 2D code can move the pen down, at most.  Without page mode: a row is at most 255 dots high.  (In page mode, in an area narrower
than a module, the program starts a new row for every dark module.) -/
def codeReach (narrow : Bool) : Nat := if narrow then 255 * 177 else 255 * (177 * 177)

/-- How many dots a command can move the pen down, at most; with `narrow` in a job without page mode. -/
def reach (narrow : Bool) (cmd : Command) : Nat :=
  match cmd.handler with
  -- a line is at most 255 dots high
  | .unit .text => 255 * cmd.data.length
  | .unit .carriageReturn | .unit .horizontalTab | .unit .linefeed => 255
  | .unit .printAndFeed => 255
  | .unit .printAndFeedLines => 255 * 255
  | .unit .feedAndCut => 3 * 255
  | .unit .beginPrint => 2 * 255
  -- page mode: a page, a vertical offset
  | .unit .formfeed | .unit .pageModePrintData => 131072
  | .unit .offsetVerticalPos => 32768
  -- a barcode with its text above and below
  | .barcode _ => 2048 + 510 * cmd.data.length
  | .bitImage _ => 255
  -- images
  | .raster _ | .subUnit .printBuffer | .subUnit .printDownload | .subUnit .printNv => 131072
  -- 2D codes
  | .subUnit .pdf417Print | .subUnit .qrPrint | .subUnit .maxiPrint | .subUnit .gs1Print | .subUnit .compositePrint
  | .subUnit .aztecPrint | .subUnit .datamatrixPrint => codeReach narrow
  | _ => 0

/-- What is assumed of the encoders: a barcode has at most 65536 modules; a QR code is a square of at most 177 modules a side. -/
structure ExtOk (ext : Ext) : Prop where
  barcode : ∀ k s ms, ext.encode k s = .ok ms → ms.length ≤ 65536
  qr : ∀ d v e ms w, ext.qr d v e = some (ms, w) → 0 < w ∧ w ≤ 177 ∧ ms.length = w * w

end Thermal
