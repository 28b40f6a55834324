import Verif.Model.Context
/-
The settings of the printer, one name for each, and which of them each ESC/POS command is documented to change.
-/
namespace Thermal

/-- The settings kept in a context. -/
inductive Setting where
  | characterWidth | characterHeight | characterSet | codeTable | decoder | fontSize | justify | font | bold
  | italic | underline | strikethrough | invert | widthMult | heightMult | upsideDown | lineSpacing | color
  | backgroundColor | shadowColor | shadow | smoothing | tabs | barcodeHumanReadable | barcodeWidth
  | barcodeHeight | barcodeFont | symbolStorage | qrModel | qrErrorCorrection | qrSize | pdf417Columns
  | pdf417Rows | pdf417Width | pdf417RowHeight | pdf417ErrCorrection | pdf417IsTruncated | maxicodeMode
  | gs1DatabarWidth | gs1DatabarMaxWidth | compositeWidth | compositeMaxWidth | compositeFont | aztecMode
  | aztecLayers | aztecSize | aztecErrorCorrection | datamatrixType | datamatrixColumns | datamatrixRows
  | datamatrixWidth | renderColors | paperArea | dotsPerInch | vMotionUnit | hMotionUnit | graphicsCount
  | storedGraphics | bufferGraphics | paperX | paperY | printWidth | printHeight | pageEnabled | logicalArea
  | pageX | pageY | pageW | pageH | pageArea | direction | previousDirection | defaults
  deriving DecidableEq, Repr

/-- Two contexts agree on a setting. -/
def Setting.same (f : Setting) (c c' : Context) : Prop :=
  match f with
  | .characterWidth => c'.text.characterWidth = c.text.characterWidth
  | .characterHeight => c'.text.characterHeight = c.text.characterHeight
  | .characterSet => c'.text.characterSet = c.text.characterSet
  | .codeTable => c'.text.codeTable = c.text.codeTable
  | .decoder => c'.text.decoder = c.text.decoder
  | .fontSize => c'.text.fontSize = c.text.fontSize
  | .justify => c'.text.justify = c.text.justify
  | .font => c'.text.font = c.text.font
  | .bold => c'.text.bold = c.text.bold
  | .italic => c'.text.italic = c.text.italic
  | .underline => c'.text.underline = c.text.underline
  | .strikethrough => c'.text.strikethrough = c.text.strikethrough
  | .invert => c'.text.invert = c.text.invert
  | .widthMult => c'.text.widthMult = c.text.widthMult
  | .heightMult => c'.text.heightMult = c.text.heightMult
  | .upsideDown => c'.text.upsideDown = c.text.upsideDown
  | .lineSpacing => c'.text.lineSpacing = c.text.lineSpacing
  | .color => c'.text.color = c.text.color
  | .backgroundColor => c'.text.backgroundColor = c.text.backgroundColor
  | .shadowColor => c'.text.shadowColor = c.text.shadowColor
  | .shadow => c'.text.shadow = c.text.shadow
  | .smoothing => c'.text.smoothing = c.text.smoothing
  | .tabs => c'.text.tabs = c.text.tabs
  | .barcodeHumanReadable => c'.barcode.humanReadable = c.barcode.humanReadable
  | .barcodeWidth => c'.barcode.width = c.barcode.width
  | .barcodeHeight => c'.barcode.height = c.barcode.height
  | .barcodeFont => c'.barcode.font = c.barcode.font
  | .symbolStorage => c'.code2d.symbolStorage = c.code2d.symbolStorage
  | .qrModel => c'.code2d.qrModel = c.code2d.qrModel
  | .qrErrorCorrection => c'.code2d.qrErrorCorrection = c.code2d.qrErrorCorrection
  | .qrSize => c'.code2d.qrSize = c.code2d.qrSize
  | .pdf417Columns => c'.code2d.pdf417Columns = c.code2d.pdf417Columns
  | .pdf417Rows => c'.code2d.pdf417Rows = c.code2d.pdf417Rows
  | .pdf417Width => c'.code2d.pdf417Width = c.code2d.pdf417Width
  | .pdf417RowHeight => c'.code2d.pdf417RowHeight = c.code2d.pdf417RowHeight
  | .pdf417ErrCorrection => c'.code2d.pdf417ErrCorrection = c.code2d.pdf417ErrCorrection
  | .pdf417IsTruncated => c'.code2d.pdf417IsTruncated = c.code2d.pdf417IsTruncated
  | .maxicodeMode => c'.code2d.maxicodeMode = c.code2d.maxicodeMode
  | .gs1DatabarWidth => c'.code2d.gs1DatabarWidth = c.code2d.gs1DatabarWidth
  | .gs1DatabarMaxWidth => c'.code2d.gs1DatabarMaxWidth = c.code2d.gs1DatabarMaxWidth
  | .compositeWidth => c'.code2d.compositeWidth = c.code2d.compositeWidth
  | .compositeMaxWidth => c'.code2d.compositeMaxWidth = c.code2d.compositeMaxWidth
  | .compositeFont => c'.code2d.compositeFont = c.code2d.compositeFont
  | .aztecMode => c'.code2d.aztecMode = c.code2d.aztecMode
  | .aztecLayers => c'.code2d.aztecLayers = c.code2d.aztecLayers
  | .aztecSize => c'.code2d.aztecSize = c.code2d.aztecSize
  | .aztecErrorCorrection => c'.code2d.aztecErrorCorrection = c.code2d.aztecErrorCorrection
  | .datamatrixType => c'.code2d.datamatrixType = c.code2d.datamatrixType
  | .datamatrixColumns => c'.code2d.datamatrixColumns = c.code2d.datamatrixColumns
  | .datamatrixRows => c'.code2d.datamatrixRows = c.code2d.datamatrixRows
  | .datamatrixWidth => c'.code2d.datamatrixWidth = c.code2d.datamatrixWidth
  | .renderColors => c'.graphics.renderColors = c.graphics.renderColors
  | .paperArea => c'.graphics.paperArea = c.graphics.paperArea
  | .dotsPerInch => c'.graphics.dotsPerInch = c.graphics.dotsPerInch
  | .vMotionUnit => c'.graphics.vMotionUnit = c.graphics.vMotionUnit
  | .hMotionUnit => c'.graphics.hMotionUnit = c.graphics.hMotionUnit
  | .graphicsCount => c'.graphics.graphicsCount = c.graphics.graphicsCount
  | .storedGraphics => c'.graphics.storedGraphics = c.graphics.storedGraphics
  | .bufferGraphics => c'.graphics.bufferGraphics = c.graphics.bufferGraphics
  | .paperX => c'.graphics.renderArea.x = c.graphics.renderArea.x
  | .paperY => c'.graphics.renderArea.y = c.graphics.renderArea.y
  | .printWidth => c'.graphics.renderArea.w = c.graphics.renderArea.w
  | .printHeight => c'.graphics.renderArea.h = c.graphics.renderArea.h
  | .pageEnabled => c'.pageMode.enabled = c.pageMode.enabled
  | .logicalArea => c'.pageMode.logicalArea = c.pageMode.logicalArea
  | .pageX => c'.pageMode.renderArea.x = c.pageMode.renderArea.x
  | .pageY => c'.pageMode.renderArea.y = c.pageMode.renderArea.y
  | .pageW => c'.pageMode.renderArea.w = c.pageMode.renderArea.w
  | .pageH => c'.pageMode.renderArea.h = c.pageMode.renderArea.h
  | .pageArea => c'.pageMode.pageArea = c.pageMode.pageArea
  | .direction => c'.pageMode.direction = c.pageMode.direction
  | .previousDirection => c'.pageMode.previousDirection = c.pageMode.previousDirection
  | .defaults => c'.default = c.default

/-- The contexts agree on every setting that is not in the list. -/
def OnlyChanges (fs : List Setting) (c c' : Context) : Prop := ∀ f, f ∉ fs → f.same c c'

/-- The pen positions. -/
def penSettings : List Setting := [.paperX, .paperY, .pageX, .pageY]

/-- Everything `ESC @` resets. -/
def resettable : List Setting :=
  [.characterWidth, .characterHeight, .characterSet, .codeTable, .decoder, .fontSize, .justify, .font, .bold,
   .italic, .underline, .strikethrough, .invert, .widthMult, .heightMult, .upsideDown, .lineSpacing, .color,
   .backgroundColor, .shadowColor, .shadow, .smoothing, .tabs, .barcodeHumanReadable, .barcodeWidth,
   .barcodeHeight, .barcodeFont, .symbolStorage, .qrModel, .qrErrorCorrection, .qrSize, .pdf417Columns,
   .pdf417Rows, .pdf417Width, .pdf417RowHeight, .pdf417ErrCorrection, .pdf417IsTruncated, .maxicodeMode,
   .gs1DatabarWidth, .gs1DatabarMaxWidth, .compositeWidth, .compositeMaxWidth, .compositeFont, .aztecMode,
   .aztecLayers, .aztecSize, .aztecErrorCorrection, .datamatrixType, .datamatrixColumns, .datamatrixRows,
   .datamatrixWidth, .renderColors, .paperArea, .dotsPerInch, .vMotionUnit, .hMotionUnit, .graphicsCount,
   .storedGraphics, .bufferGraphics, .paperX, .paperY, .printWidth, .printHeight]

/-- The page mode settings that follow from a change of the print area or of the print direction. -/
def pageGeometry : List Setting := [.pageX, .pageY, .pageW, .pageH, .pageArea]

/-- The settings a command changes, by its opcode (ESC/POS command reference). -/
def documentedWrites (opcode : List Byte) : List Setting :=
  match opcode with
  | [27, 64] => resettable                                                  -- ESC @ initialise
  | [27, 33] => [.font, .characterWidth, .characterHeight, .bold, .widthMult, .heightMult, .underline] -- ESC ! print mode
  | [27, 77] => [.font, .characterWidth, .characterHeight]                  -- ESC M font
  | [29, 33] => [.widthMult, .heightMult]                                   -- GS ! character size
  | [27, 69] => [.bold]                                                     -- ESC E
  | [27, 71] => [.strikethrough]                                            -- ESC G
  | [27, 52] => [.italic]                                                   -- ESC 4
  | [27, 45] => [.underline]                                                -- ESC -
  | [27, 123] => [.upsideDown]                                              -- ESC {
  | [29, 66] => [.invert, .color, .backgroundColor]                         -- GS B
  | [29, 98] => [.smoothing]                                                -- GS b
  | [27, 114] => [.color]                                                   -- ESC r
  | [29, 40, 78] => [.color, .backgroundColor, .shadowColor, .shadow]       -- GS ( N
  | [27, 116] => [.codeTable, .decoder]                                     -- ESC t
  | [27, 82] => [.characterSet, .decoder]                                   -- ESC R
  | [27, 68] => [.tabs]                                                     -- ESC D
  | [27, 97] => [.justify]                                                  -- ESC a
  | [27, 50] => [.lineSpacing]                                              -- ESC 2
  | [27, 51] => [.lineSpacing]                                              -- ESC 3
  | [29, 104] => [.barcodeHeight]                                           -- GS h
  | [29, 119] => [.barcodeWidth]                                            -- GS w
  | [29, 102] => [.barcodeFont]                                             -- GS f
  | [29, 72] => [.barcodeHumanReadable]                                     -- GS H
  | [29, 80] => [.hMotionUnit, .vMotionUnit]                                -- GS P
  | [27, 76] => [.pageEnabled]                                              -- ESC L
  | [27, 83] => [.pageEnabled]                                              -- ESC S
  | [12] => [.pageEnabled]                                                  -- FF
  | [27, 87] => [.logicalArea, .previousDirection] ++ pageGeometry          -- ESC W
  | [27, 84] => [.direction, .previousDirection] ++ pageGeometry            -- ESC T
  | _ => []

/-- The settings a function of `GS ( L` and `GS 8 L` changes, by its function code. -/
def documentedGraphics (fn : Byte) : List Setting :=
  match fn.toNat with
  | 65 | 66 | 67 | 68 => [.storedGraphics]        -- NV graphics: delete all, delete, define (raster, column)
  | 81 | 82 | 83 | 84 => [.storedGraphics]        -- download graphics: delete all, delete, define (raster, column)
  | 2 | 50 => [.bufferGraphics]                   -- print the print buffer, which empties it
  | 112 | 113 => [.bufferGraphics]                -- store in the print buffer (raster, column)
  | 1 | 49 => [.dotsPerInch]                      -- dot density
  | _ => []

/-- The settings a function of `GS ( k` changes, by its symbol and function code. -/
def documentedCode2d (cn fn : Byte) : List Setting :=
  match cn.toNat, fn.toNat with
  | 48, 65 => [.pdf417Columns]
  | 48, 66 => [.pdf417Rows]
  | 48, 67 => [.pdf417Width]
  | 48, 69 => [.pdf417ErrCorrection]
  | 48, 70 => [.pdf417IsTruncated]
  | 49, 80 => [.symbolStorage]
  | 49, 65 => [.qrModel]
  | 49, 67 => [.qrSize]
  | 49, 69 => [.qrErrorCorrection]
  | 50, 65 => [.maxicodeMode]
  | 51, 67 => [.gs1DatabarWidth]
  | 51, 71 => [.gs1DatabarMaxWidth]
  | 52, 67 => [.compositeWidth]
  | 52, 71 => [.compositeMaxWidth]
  | 52, 72 => [.compositeFont]
  | 53, 66 => [.aztecMode, .aztecLayers]
  | 53, 67 => [.aztecSize]
  | 53, 69 => [.aztecErrorCorrection]
  | 54, 66 => [.datamatrixType, .datamatrixColumns, .datamatrixRows]
  | 54, 67 => [.datamatrixWidth]
  | _, _ => []

/-- The settings a command is documented to change, by its opcode; the opcode of a sub-command includes its header
(`pL pH m fn`, or `p1 p2 p3 p4 m fn` for `GS 8 L`). -/
def documented (opcode : List Byte) : List Setting :=
  match opcode with
  | [29, 40, 76, _, _, _, fn] => documentedGraphics fn
  | [29, 56, 76, _, _, _, _, _, fn] => documentedGraphics fn
  | [29, 40, 107, _, _, cn, fn] => documentedCode2d cn fn
  | _ => documentedWrites opcode

end Thermal
