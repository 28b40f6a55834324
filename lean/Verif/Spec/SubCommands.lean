import Verif.Model.CommandSet
/-
The function tables of GS ( L / GS 8 L (graphics) and GS ( k (two-dimensional codes), written out by function
number.  Nothing here refers to the lookup code of the parser.
-/
namespace Thermal.Spec

/-- GS ( L / GS 8 L: the function with number `fn`. -/
def graphicsFunction (fn : Byte) : Option SubCmd :=
  match fn.toNat with
  | 0 | 48 => some getNvCapacitySub
  | 1 | 49 => some setDotDensitySub
  | 2 | 50 => some printBufferSub
  | 4 | 52 => some getNvRemainingSub
  | 64 => some getNvKeycodesSub
  | 65 => some clearAllNvSub
  | 66 => some clearNvSub
  | 67 => some defineNvRasterSub
  | 68 => some defineNvColumnSub
  | 69 => some printNvSub
  | 80 => some getDownloadKeycodesSub
  | 81 => some clearAllDownloadSub
  | 82 => some clearDownloadSub
  | 83 => some defineDownloadRasterSub
  | 84 => some defineDownloadColumnSub
  | 85 => some printDownloadSub
  | 112 => some storeBufferRasterSub
  | 113 => some storeBufferColumnSub
  | _ => none

/-- GS ( k: the function `fn` of symbol type `cn` as documented by Epson (48 PDF417, 49 QR, 50 MaxiCode,
51 GS1 DataBar, 52 composite, 53 Aztec, 54 DataMatrix). -/
def code2dFunction (cn fn : Byte) : Option SubCmd :=
  match cn.toNat, fn.toNat with
  | 48, 65 => some pdf417SetColumnCountSub
  | 48, 66 => some pdf417SetRowCountSub
  | 48, 67 => some pdf417SetWidthSub
  | 48, 69 => some pdf417SetCorrectionLevelSub
  | 48, 70 => some pdf417SetOptionsSub
  | 48, 80 => some pdf417StoreSub
  | 48, 81 => some pdf417PrintSub
  | 48, 82 => some pdf417TransmitSizeSub
  | 49, 65 => some qrSetModelSub
  | 49, 67 => some qrSetSizeSub
  | 49, 69 => some qrSetCorrectionLevelSub
  | 49, 80 => some qrStoreSub
  | 49, 81 => some qrPrintSub
  | 49, 82 => some qrTransmitSizeSub
  | 50, 65 => some maxiSetModeSub
  | 50, 80 => some maxiStoreSub
  | 50, 81 => some maxiPrintSub
  | 50, 82 => some maxiTransmitSizeSub
  | 51, 67 => some gs1SetWidthSub
  | 51, 71 => some gs1SetMaxWidthSub
  | 51, 80 => some gs1StoreSub
  | 51, 81 => some gs1PrintSub
  | 51, 82 => some gs1TransmitSizeSub
  | 52, 67 => some compositeSetWidthSub
  | 52, 71 => some compositeSetMaxWidthSub
  | 52, 72 => some compositeSetHriSub
  | 52, 80 => some compositeStoreSub
  | 52, 81 => some compositePrintSub
  | 52, 82 => some compositeTransmitSizeSub
  | 53, 66 => some aztecSetFunctionAndLayersSub
  | 53, 67 => some aztecSetSizeSub
  | 53, 69 => some aztecSetCorrectionLevelSub
  | 53, 80 => some aztecStoreSub
  | 53, 81 => some aztecPrintSub
  | 53, 82 => some aztecTransmitSizeSub
  | 54, 66 => some datamatrixSetOptionsSub
  | 54, 67 => some datamatrixSetWidthSub
  | 54, 80 => some datamatrixStoreSub
  | 54, 81 => some datamatrixPrintSub
  | 54, 82 => some datamatrixTransmitSizeSub
  | _, _ => none

/-- What the implementation selects for GS ( k.  It deviates from `code2dFunction` in two places: the DataMatrix
"set width" entry is registered under (52, 67) instead of (54, 67). -/
def code2dImplemented (cn fn : Byte) : Option SubCmd :=
  if cn = 52 ∧ fn = 67 then some datamatrixSetWidthSub
  else if cn = 54 ∧ fn = 67 then none
  else code2dFunction cn fn

end Thermal.Spec
