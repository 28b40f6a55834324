import Verif.Model.Command
/-
Command tables: thermal_parser/src/command_sets/esc_pos.rs and every `new()` of commands/*.rs and
subcommands/*/*.rs, transcribed by script from the sources.  Paths are relative to
thermal_parser/src.
-/
namespace Thermal

/-- commands/barcode.rs:358-374 -/
def barcodeCmd : Command :=
  { name := "Barcode", commands := [29, 107], kind := .graphics, dataKind := .custom,
    handler := .barcode {} }

/-- commands/bit_image.rs:100-117 -/
def bitImageCmd : Command :=
  { name := "Bit Image", commands := [27, 42], kind := .graphics, dataKind := .custom,
    handler := .bitImage {} }

/-- commands/cancel.rs:16-24 -/
def cancelCmd : Command :=
  { name := "Cancel", commands := [24, 64], kind := .control, dataKind := .empty,
    handler := .unit .cancel }

/-- commands/carriage_return.rs:13-21 -/
def carriageReturnCmd : Command :=
  { name := "Line Feed", commands := [13], kind := .text, dataKind := .empty,
    handler := .unit .carriageReturn }

/-- commands/code_2d.rs:4-12 -/
def code2dCmd : Command :=
  { name := "QR Code", commands := [29, 40, 107], kind := .subcommand, dataKind := .custom,
    handler := .sub { table := .code2d, isLarge := false, useM := true } }

/-- commands/default_line_spacing.rs:14-22 -/
def defaultLineSpacingCmd : Command :=
  { name := "Default Line Spacing", commands := [27, 50], kind := .context, dataKind := .empty,
    handler := .unit .defaultLineSpacing }

/-- commands/feed_and_cut.rs:45-53 -/
def feedAndCutCmd : Command :=
  { name := "Feed and Cut", commands := [29, 86], kind := .control, dataKind := .custom,
    handler := .unit .feedAndCut }

/-- commands/formfeed.rs:21-29 -/
def formfeedCmd : Command :=
  { name := "Form Feed", commands := [12], kind := .control, dataKind := .empty,
    handler := .unit .formfeed }

/-- commands/graphics.rs:3-11 -/
def graphicsCmd : Command :=
  { name := "Graphics", commands := [29, 40, 76], kind := .subcommand, dataKind := .custom,
    handler := .sub { table := .graphics, isLarge := false, useM := false } }

/-- commands/horizontal_tab.rs:13-21 -/
def horizontalTabCmd : Command :=
  { name := "Horizontal Tab", commands := [9], kind := .text, dataKind := .empty,
    handler := .unit .horizontalTab }

/-- commands/initialize.rs:19-27 -/
def initializeCmd : Command :=
  { name := "Initialize", commands := [27, 64], kind := .contextControl, dataKind := .empty,
    handler := .unit .initialize }

/-- commands/large_graphics.rs:3-11 -/
def largeGraphicsCmd : Command :=
  { name := "Large Graphics", commands := [29, 56, 76], kind := .subcommand, dataKind := .custom,
    handler := .sub { table := .graphics, isLarge := true, useM := false } }

/-- commands/linefeed.rs:13-21 -/
def linefeedCmd : Command :=
  { name := "Line Feed", commands := [10], kind := .text, dataKind := .empty,
    handler := .unit .linefeed }

/-- commands/paper_end_sensor.rs:8-16 -/
def paperEndSensorCmd : Command :=
  { name := "Select Paper End Sensors", commands := [27, 99, 3], kind := .control, dataKind := .single,
    handler := .unit .paperEndSensor }

/-- commands/print_and_feed_lines.rs:17-25 -/
def printAndFeedLinesCmd : Command :=
  { name := "Print and Feed Lines", commands := [27, 100], kind := .control, dataKind := .single,
    handler := .unit .printAndFeedLines }

/-- commands/print_and_feed.rs:17-25 -/
def printAndFeedCmd : Command :=
  { name := "Print and Feed", commands := [27, 74], kind := .control, dataKind := .single,
    handler := .unit .printAndFeed }

/-- commands/print_and_reverse_feed_lines.rs:17-25 -/
def printAndReverseFeedLinesCmd : Command :=
  { name := "Print and Reverse Feed Lines", commands := [27, 101], kind := .control, dataKind := .single,
    handler := .unit .printAndReverseFeedLines }

/-- commands/print_stop_sensor.rs:8-16 -/
def printStopSensorCmd : Command :=
  { name := "Print Stop Sensors", commands := [27, 99, 4], kind := .control, dataKind := .single,
    handler := .unit .printStopSensor }

/-- commands/pulse.rs:8-16 -/
def pulseCmd : Command :=
  { name := "Pulse", commands := [27, 112], kind := .control, dataKind := .triple,
    handler := .unit .pulse }

/-- commands/raster_bit_image.rs:76-91 -/
def rasterBitImageCmd : Command :=
  { name := "Raster Bit Image", commands := [29, 118, 48], kind := .graphics, dataKind := .custom,
    handler := .raster {} }

/-- commands/request_response_transmission.rs:3-11 -/
def requestResponseTransmissionCmd : Command :=
  { name := "Request Response Transmission", commands := [29, 40, 72], kind := .control, dataKind := .custom,
    handler := .sub { table := .none, isLarge := false, useM := false } }

/-- commands/set_horizontal_pos.rs:30-38 -/
def setHorizontalPosCmd : Command :=
  { name := "Set Absolute Horizontal Position", commands := [27, 36], kind := .context, dataKind := .double,
    handler := .unit .setHorizontalPos }

/-- commands/set_alt_color.rs:16-24 -/
def setAltColorCmd : Command :=
  { name := "Set Print Color to Alternate", commands := [27, 114], kind := .textStyle, dataKind := .single,
    handler := .unit .setAltColor }

/-- commands/set_barcode_height.rs:13-21 -/
def setBarcodeHeightCmd : Command :=
  { name := "Set Barcode Height", commands := [29, 104], kind := .context, dataKind := .single,
    handler := .unit .setBarcodeHeight }

/-- commands/set_barcode_width.rs:32-40 -/
def setBarcodeWidthCmd : Command :=
  { name := "Set Barcode Width", commands := [29, 119], kind := .context, dataKind := .single,
    handler := .unit .setBarcodeWidth }

/-- commands/set_black_white_invert.rs:22-30 -/
def setBlackWhiteInvertCmd : Command :=
  { name := "Set Black White Invert", commands := [29, 66], kind := .textStyle, dataKind := .single,
    handler := .unit .setBlackWhiteInvert }

/-- commands/set_character_size.rs:39-47 -/
def setCharacterSizeCmd : Command :=
  { name := "Set Character Size", commands := [29, 33], kind := .textStyle, dataKind := .single,
    handler := .unit .setCharacterSize }

/-- commands/set_code_table.rs:95-103 -/
def setCodeTableCmd : Command :=
  { name := "Set Code Table", commands := [27, 116], kind := .textStyle, dataKind := .single,
    handler := .unit .setCodeTable }

/-- commands/set_double_strike.rs:25-33 -/
def setDoubleStrikeCmd : Command :=
  { name := "Enable Double Strike Through", commands := [27, 71], kind := .textStyle, dataKind := .single,
    handler := .unit .setDoubleStrike }

/-- commands/set_emphasis.rs:13-21 -/
def setEmphasisCmd : Command :=
  { name := "Enable Emphasis", commands := [27, 69], kind := .textStyle, dataKind := .single,
    handler := .unit .setEmphasis }

/-- commands/set_font.rs:13-21 -/
def setFontCmd : Command :=
  { name := "Set Font", commands := [27, 77], kind := .textStyle, dataKind := .single,
    handler := .unit .setFont }

/-- commands/set_motion_units.rs:43-51 -/
def setMotionUnitsCmd : Command :=
  { name := "Set Vertical and Horizontal Motion Units", commands := [29, 80], kind := .context, dataKind := .double,
    handler := .unit .setMotionUnits }

/-- commands/set_barcode_font.rs:14-22 -/
def setBarcodeFontCmd : Command :=
  { name := "Set Hri Barcode Font", commands := [29, 102], kind := .context, dataKind := .single,
    handler := .unit .setBarcodeFont }

/-- commands/set_barcode_hri.rs:19-27 -/
def setBarcodeHriCmd : Command :=
  { name := "Set Hri Print POS", commands := [29, 72], kind := .context, dataKind := .single,
    handler := .unit .setBarcodeHri }

/-- commands/set_international_charset.rs:62-70 -/
def setInternationalCharsetCmd : Command :=
  { name := "Set International Character Set", commands := [27, 82], kind := .textStyle, dataKind := .single,
    handler := .unit .setInternationalCharset }

/-- commands/set_italic.rs:13-21 -/
def setItalicCmd : Command :=
  { name := "Enable Italic", commands := [27, 52], kind := .textStyle, dataKind := .single,
    handler := .unit .setItalic }

/-- commands/set_justification.rs:22-30 -/
def setJustificationCmd : Command :=
  { name := "Set Text Justification", commands := [27, 97], kind := .control, dataKind := .single,
    handler := .unit .setJustification }

/-- commands/set_line_spacing.rs:17-25 -/
def setLineSpacingCmd : Command :=
  { name := "Set Line Spacing", commands := [27, 51], kind := .context, dataKind := .single,
    handler := .unit .setLineSpacing }

/-- commands/set_panel_buttons.rs:8-16 -/
def setPanelButtonsCmd : Command :=
  { name := "Enable Panel Buttons", commands := [27, 99, 5], kind := .control, dataKind := .single,
    handler := .unit .setPanelButtons }

/-- commands/set_peripheral_device.rs:8-16 -/
def setPeripheralDeviceCmd : Command :=
  { name := "Set Peripheral Device", commands := [27, 61], kind := .control, dataKind := .single,
    handler := .unit .setPeripheralDevice }

/-- commands/set_print_mode.rs:50-58 -/
def setPrintModeCmd : Command :=
  { name := "Set Print Mode", commands := [27, 33], kind := .textStyle, dataKind := .single,
    handler := .unit .setPrintMode }

/-- commands/offset_vertical_pos.rs:34-42 -/
def offsetVerticalPosCmd : Command :=
  { name := "Set Relative Vertical Position", commands := [29, 92], kind := .context, dataKind := .double,
    handler := .unit .offsetVerticalPos }

/-- commands/set_smoothing.rs:13-21 -/
def setSmoothingCmd : Command :=
  { name := "Set Smoothing", commands := [29, 98], kind := .textStyle, dataKind := .single,
    handler := .unit .setSmoothing }

/-- commands/set_tab_len.rs:26-34 -/
def setTabLenCmd : Command :=
  { name := "Set Tab Len", commands := [27, 68], kind := .textStyle, dataKind := .double,
    handler := .unit .setTabLen }

/-- commands/set_underline.rs:18-26 -/
def setUnderlineCmd : Command :=
  { name := "Enable Underline", commands := [27, 45], kind := .textStyle, dataKind := .single,
    handler := .unit .setUnderline }

/-- commands/set_upside_down.rs:13-21 -/
def setUpsideDownCmd : Command :=
  { name := "Enable Upside Down Mode", commands := [27, 123], kind := .textStyle, dataKind := .single,
    handler := .unit .setUpsideDown }

/-- commands/transmit_printer_id.rs:8-16 -/
def transmitPrinterIdCmd : Command :=
  { name := "Transmit Printer ID", commands := [29, 73], kind := .control, dataKind := .single,
    handler := .unit .transmitPrinterId }

/-- commands/set_page_mode.rs:18-26 -/
def setPageModeCmd : Command :=
  { name := "Set page mode", commands := [27, 76], kind := .contextControl, dataKind := .empty,
    handler := .unit .setPageMode }

/-- commands/set_vertical_pos.rs:38-46 -/
def setVerticalPosCmd : Command :=
  { name := "Set Absolute Vertical Position", commands := [29, 36], kind := .context, dataKind := .double,
    handler := .unit .setVerticalPos }

/-- commands/page_mode_print_area.rs:78-86 -/
def pageModePrintAreaCmd : Command :=
  { name := "Set Print Area", commands := [27, 87], kind := .contextControl, dataKind := .octet,
    handler := .unit .pageModePrintArea }

/-- commands/page_mode_print_direction.rs:102-110 -/
def pageModePrintDirectionCmd : Command :=
  { name := "Set Page Mode Print Direction", commands := [27, 84], kind := .contextControl, dataKind := .single,
    handler := .unit .pageModePrintDirection }

/-- commands/page_mode_print_data.rs:25-33 -/
def pageModePrintDataCmd : Command :=
  { name := "Print Contents of Page Mode", commands := [27, 12], kind := .control, dataKind := .custom,
    handler := .unit .pageModePrintData }

/-- commands/select_standard_mode.rs:30-38 -/
def selectStandardModeCmd : Command :=
  { name := "Select standard mode", commands := [27, 83], kind := .context, dataKind := .empty,
    handler := .unit .selectStandardMode }

/-- commands/set_character_effects.rs:67-75 -/
def setCharacterEffectsCmd : Command :=
  { name := "Set Character Effects", commands := [29, 40, 78], kind := .textStyle, dataKind := .custom,
    handler := .charEffects 2 }

/-- commands/unknown_gs_g.rs:16-24 -/
def unknownGsGCmd : Command :=
  { name := "Unknown GS ( G", commands := [29, 40, 71], kind := .context, dataKind := .quad,
    handler := .unit .unknownGsG }

/-- commands/text.rs:20-28 -/
def textCmd : Command :=
  { name := "Text", commands := [], kind := .text, dataKind := .text,
    handler := .unit .text }

/-- commands/unknown.rs:8-16 -/
def unknownCmd : Command :=
  { name := "Unknown Command", commands := [16, 27, 28, 29], kind := .unknown, dataKind := .unknown,
    handler := .unit .unknown }

/-- commands/begin_print.rs:17-25 -/
def beginPrintCmd : Command :=
  { name := "Begin Print", commands := [], kind := .control, dataKind := .empty,
    handler := .unit .beginPrint }

/-- commands/end_print.rs:17-25 -/
def endPrintCmd : Command :=
  { name := "End Print", commands := [], kind := .control, dataKind := .empty,
    handler := .unit .endPrint }

/-- subcommands/gs_graphics/clear_all_download_graphics.rs:15-23 -/
def clearAllDownloadSub : SubCmd :=
  { name := "Clears Download RAM Graphics Data", commands := [81], kind := .context, id := .clearAllDownload }

/-- subcommands/gs_graphics/clear_all_nv_graphics.rs:18-26 -/
def clearAllNvSub : SubCmd :=
  { name := "Clears NV Graphics Data", commands := [65], kind := .context, id := .clearAllNv }

/-- subcommands/gs_graphics/clear_download_graphic.rs:14-22 -/
def clearDownloadSub : SubCmd :=
  { name := "Clear Download (RAM) Graphic", commands := [82], kind := .context, id := .clearDownload }

/-- subcommands/gs_graphics/clear_nv_graphic.rs:15-23 -/
def clearNvSub : SubCmd :=
  { name := "Clear NV Graphic", commands := [66], kind := .context, id := .clearNv }

/-- subcommands/gs_graphics/define_download_graphics_column.rs:39-47 -/
def defineDownloadColumnSub : SubCmd :=
  { name := "Define Download Graphics in Column Format", commands := [84], kind := .context, id := .defineDownloadColumn }

/-- subcommands/gs_graphics/define_download_graphics_raster.rs:39-47 -/
def defineDownloadRasterSub : SubCmd :=
  { name := "Define Download Graphics in Raster Format", commands := [83], kind := .context, id := .defineDownloadRaster }

/-- subcommands/gs_graphics/define_nv_graphics_column.rs:39-47 -/
def defineNvColumnSub : SubCmd :=
  { name := "Define NV Graphics in Column Format", commands := [68], kind := .context, id := .defineNvColumn }

/-- subcommands/gs_graphics/define_nv_graphics_raster.rs:39-47 -/
def defineNvRasterSub : SubCmd :=
  { name := "Define NV Graphics in Raster Format", commands := [67], kind := .context, id := .defineNvRaster }

/-- subcommands/gs_graphics/get_download_keycodes.rs:11-19 -/
def getDownloadKeycodesSub : SubCmd :=
  { name := "Get Download RAM Key Codes", commands := [80], kind := .control, id := .getDownloadKeycodes }

/-- subcommands/gs_graphics/get_nv_capacity.rs:11-19 -/
def getNvCapacitySub : SubCmd :=
  { name := "Get NV Capacity", commands := [0, 48], kind := .control, id := .getNvCapacity }

/-- subcommands/gs_graphics/get_nv_keycodes.rs:11-19 -/
def getNvKeycodesSub : SubCmd :=
  { name := "Get NV Key Codes", commands := [64], kind := .control, id := .getNvKeycodes }

/-- subcommands/gs_graphics/get_nv_remaining_capacity.rs:11-19 -/
def getNvRemainingSub : SubCmd :=
  { name := "Get NV Remaining Capacity", commands := [4, 52], kind := .control, id := .getNvRemaining }

/-- subcommands/gs_graphics/print_buffer_graphics.rs:48-56 -/
def printBufferSub : SubCmd :=
  { name := "Print Buffer Graphics", commands := [2, 50], kind := .graphics, id := .printBuffer }

/-- subcommands/gs_graphics/print_download_graphics.rs:15-23 -/
def printDownloadSub : SubCmd :=
  { name := "Print Download (RAM) Graphics", commands := [85], kind := .graphics, id := .printDownload }

/-- subcommands/gs_graphics/print_nv_graphic.rs:16-24 -/
def printNvSub : SubCmd :=
  { name := "Print NV Graphic", commands := [69], kind := .graphics, id := .printNv }

/-- subcommands/gs_graphics/set_dot_density.rs:22-30 -/
def setDotDensitySub : SubCmd :=
  { name := "Set Dot Density", commands := [1, 49], kind := .context, id := .setDotDensity }

/-- subcommands/gs_graphics/store_buffer_graphics_raster.rs:37-45 -/
def storeBufferRasterSub : SubCmd :=
  { name := "Store Print Buffer Graphics Raster Format", commands := [112], kind := .context, id := .storeBufferRaster }

/-- subcommands/gs_graphics/store_buffer_graphics_column.rs:36-44 -/
def storeBufferColumnSub : SubCmd :=
  { name := "Store Print Buffer Graphics Table Format", commands := [113], kind := .context, id := .storeBufferColumn }

/-- subcommands/gs_code2d/pdf417_set_column_count.rs:12-20 -/
def pdf417SetColumnCountSub : SubCmd :=
  { name := "PDF417 Sets the Column Width", commands := [48, 65], kind := .context, id := .pdf417SetColumnCount }

/-- subcommands/gs_code2d/pdf417_set_row_count.rs:12-20 -/
def pdf417SetRowCountSub : SubCmd :=
  { name := "PDF417 Sets the number of rows", commands := [48, 66], kind := .context, id := .pdf417SetRowCount }

/-- subcommands/gs_code2d/pdf417_set_width.rs:12-20 -/
def pdf417SetWidthSub : SubCmd :=
  { name := "PDF417 Sets the Module Width", commands := [48, 67], kind := .context, id := .pdf417SetWidth }

/-- subcommands/gs_code2d/pdf417_set_correction_level.rs:47-55 -/
def pdf417SetCorrectionLevelSub : SubCmd :=
  { name := "PDF417 Set Error Correction Level", commands := [48, 69], kind := .context, id := .pdf417SetCorrectionLevel }

/-- subcommands/gs_code2d/pdf417_set_options.rs:14-22 -/
def pdf417SetOptionsSub : SubCmd :=
  { name := "PDF417 Set Options", commands := [48, 70], kind := .context, id := .pdf417SetOptions }

/-- subcommands/gs_code2d/pdf417_store.rs:13-21 -/
def pdf417StoreSub : SubCmd :=
  { name := "PDF417 Store the Code2D data", commands := [48, 80], kind := .context, id := .pdf417Store }

/-- subcommands/gs_code2d/pdf417_print.rs:17-25 -/
def pdf417PrintSub : SubCmd :=
  { name := "Print the Code2D data", commands := [48, 81], kind := .graphics, id := .pdf417Print }

/-- subcommands/gs_code2d/pdf417_transmit_size.rs:10-18 -/
def pdf417TransmitSizeSub : SubCmd :=
  { name := "Transmit Size of storage area", commands := [48, 82], kind := .control, id := .pdf417TransmitSize }

/-- subcommands/gs_code2d/maxi_transmit_size.rs:10-18 -/
def maxiTransmitSizeSub : SubCmd :=
  { name := "Transmit Size of storage area", commands := [50, 82], kind := .control, id := .maxiTransmitSize }

/-- subcommands/gs_code2d/qr_transmit_size.rs:10-18 -/
def qrTransmitSizeSub : SubCmd :=
  { name := "Transmit Size of storage area", commands := [49, 82], kind := .control, id := .qrTransmitSize }

/-- subcommands/gs_code2d/gs1_transmit_size.rs:10-18 -/
def gs1TransmitSizeSub : SubCmd :=
  { name := "Transmit Size of storage area", commands := [51, 82], kind := .control, id := .gs1TransmitSize }

/-- subcommands/gs_code2d/aztec_transmit_size.rs:10-18 -/
def aztecTransmitSizeSub : SubCmd :=
  { name := "Transmit Size of storage area", commands := [53, 82], kind := .control, id := .aztecTransmitSize }

/-- subcommands/gs_code2d/datamatrix_transmit_size.rs:10-18 -/
def datamatrixTransmitSizeSub : SubCmd :=
  { name := "Transmit Size of storage area", commands := [54, 82], kind := .control, id := .datamatrixTransmitSize }

/-- subcommands/gs_code2d/qr_print.rs:17-25 -/
def qrPrintSub : SubCmd :=
  { name := "Print the Code2D data", commands := [49, 81], kind := .graphics, id := .qrPrint }

/-- subcommands/gs_code2d/maxi_print.rs:17-25 -/
def maxiPrintSub : SubCmd :=
  { name := "Print the Code2D data", commands := [50, 81], kind := .graphics, id := .maxiPrint }

/-- subcommands/gs_code2d/composite_transmit_size.rs:10-18 -/
def compositeTransmitSizeSub : SubCmd :=
  { name := "Transmit Size of storage area", commands := [52, 82], kind := .control, id := .compositeTransmitSize }

/-- subcommands/gs_code2d/gs1_print.rs:17-25 -/
def gs1PrintSub : SubCmd :=
  { name := "Print the Code2D data", commands := [51, 81], kind := .graphics, id := .gs1Print }

/-- subcommands/gs_code2d/composite_print.rs:17-25 -/
def compositePrintSub : SubCmd :=
  { name := "Print the Code2D data", commands := [52, 81], kind := .graphics, id := .compositePrint }

/-- subcommands/gs_code2d/aztec_print.rs:17-25 -/
def aztecPrintSub : SubCmd :=
  { name := "Print the Code2D data", commands := [53, 81], kind := .graphics, id := .aztecPrint }

/-- subcommands/gs_code2d/datamatrix_print.rs:17-25 -/
def datamatrixPrintSub : SubCmd :=
  { name := "Print the Code2D data", commands := [54, 81], kind := .graphics, id := .datamatrixPrint }

/-- subcommands/gs_code2d/datamatrix_store.rs:13-21 -/
def datamatrixStoreSub : SubCmd :=
  { name := "PDF417 Store the Code2D data", commands := [54, 80], kind := .context, id := .datamatrixStore }

/-- subcommands/gs_code2d/aztec_store.rs:13-21 -/
def aztecStoreSub : SubCmd :=
  { name := "PDF417 Store the Code2D data", commands := [53, 80], kind := .context, id := .aztecStore }

/-- subcommands/gs_code2d/composite_store.rs:13-21 -/
def compositeStoreSub : SubCmd :=
  { name := "PDF417 Store the Code2D data", commands := [52, 80], kind := .context, id := .compositeStore }

/-- subcommands/gs_code2d/gs1_store.rs:13-21 -/
def gs1StoreSub : SubCmd :=
  { name := "PDF417 Store the Code2D data", commands := [51, 80], kind := .context, id := .gs1Store }

/-- subcommands/gs_code2d/maxi_store.rs:13-21 -/
def maxiStoreSub : SubCmd :=
  { name := "PDF417 Store the Code2D data", commands := [50, 80], kind := .context, id := .maxiStore }

/-- subcommands/gs_code2d/qr_store.rs:90-98 -/
def qrStoreSub : SubCmd :=
  { name := "QR Store the Code2D data", commands := [49, 80], kind := .context, id := .qrStore }

/-- subcommands/gs_code2d/qr_set_model.rs:19-27 -/
def qrSetModelSub : SubCmd :=
  { name := "QR Sets the Model", commands := [49, 65], kind := .context, id := .qrSetModel }

/-- subcommands/gs_code2d/qr_set_size.rs:12-20 -/
def qrSetSizeSub : SubCmd :=
  { name := "QR Sets the dot count", commands := [49, 67], kind := .context, id := .qrSetSize }

/-- subcommands/gs_code2d/qr_set_correction_level.rs:19-27 -/
def qrSetCorrectionLevelSub : SubCmd :=
  { name := "QR Sets Error Correction Level", commands := [49, 69], kind := .context, id := .qrSetCorrectionLevel }

/-- subcommands/gs_code2d/maxi_set_mode.rs:15-23 -/
def maxiSetModeSub : SubCmd :=
  { name := "Maxi Sets the Mode", commands := [50, 65], kind := .context, id := .maxiSetMode }

/-- subcommands/gs_code2d/gs1_set_width.rs:12-20 -/
def gs1SetWidthSub : SubCmd :=
  { name := "GS1 Sets the dot Width", commands := [51, 67], kind := .context, id := .gs1SetWidth }

/-- subcommands/gs_code2d/gs1_set_max_width.rs:14-22 -/
def gs1SetMaxWidthSub : SubCmd :=
  { name := "GS1 Sets Max Width", commands := [51, 71], kind := .context, id := .gs1SetMaxWidth }

/-- subcommands/gs_code2d/composite_set_width.rs:12-20 -/
def compositeSetWidthSub : SubCmd :=
  { name := "Composite Sets the dot Width", commands := [52, 67], kind := .context, id := .compositeSetWidth }

/-- subcommands/gs_code2d/composite_set_max_width.rs:14-22 -/
def compositeSetMaxWidthSub : SubCmd :=
  { name := "Composite Sets Max Width", commands := [52, 71], kind := .context, id := .compositeSetMaxWidth }

/-- subcommands/gs_code2d/composite_set_hri.rs:13-21 -/
def compositeSetHriSub : SubCmd :=
  { name := "Composite Sets Human Readable Options", commands := [52, 72], kind := .context, id := .compositeSetHri }

/-- subcommands/gs_code2d/aztec_set_function_and_layers.rs:27-35 -/
def aztecSetFunctionAndLayersSub : SubCmd :=
  { name := "Aztec Set Function and Layers", commands := [53, 66], kind := .context, id := .aztecSetFunctionAndLayers }

/-- subcommands/gs_code2d/aztec_set_size.rs:16-24 -/
def aztecSetSizeSub : SubCmd :=
  { name := "Aztec Set Size", commands := [53, 67], kind := .context, id := .aztecSetSize }

/-- subcommands/gs_code2d/aztec_set_correction_level.rs:13-21 -/
def aztecSetCorrectionLevelSub : SubCmd :=
  { name := "Aztec Set Error Correction Level", commands := [53, 69], kind := .context, id := .aztecSetCorrectionLevel }

/-- subcommands/gs_code2d/datamatrix_set_options.rs:46-54 -/
def datamatrixSetOptionsSub : SubCmd :=
  { name := "Datamatrix Set Options", commands := [54, 66], kind := .context, id := .datamatrixSetOptions }

/-- subcommands/gs_code2d/datamatrix_set_width.rs:12-20 -/
def datamatrixSetWidthSub : SubCmd :=
  { name := "Datamatrix Sets the dot Width", commands := [52, 67], kind := .context, id := .datamatrixSetWidth }

/-- subcommands/gs_graphics/mod.rs:24-48 `all()` (same order; the raster download entry occurs twice). -/
def gsGraphicsAll : List SubCmd :=
  [clearAllDownloadSub,
   clearAllNvSub,
   clearDownloadSub,
   clearNvSub,
   defineDownloadColumnSub,
   defineDownloadRasterSub,
   defineNvColumnSub,
   defineNvRasterSub,
   defineDownloadRasterSub,
   getDownloadKeycodesSub,
   getNvCapacitySub,
   getNvKeycodesSub,
   getNvRemainingSub,
   printBufferSub,
   printDownloadSub,
   printNvSub,
   setDotDensitySub,
   storeBufferRasterSub,
   storeBufferColumnSub]

/-- subcommands/gs_code2d/mod.rs:46-91 `all()` (same order). -/
def gsCode2dAll : List SubCmd :=
  [pdf417SetColumnCountSub,
   pdf417SetRowCountSub,
   pdf417SetWidthSub,
   pdf417SetCorrectionLevelSub,
   pdf417SetOptionsSub,
   pdf417StoreSub,
   pdf417PrintSub,
   pdf417TransmitSizeSub,
   maxiTransmitSizeSub,
   qrTransmitSizeSub,
   gs1TransmitSizeSub,
   aztecTransmitSizeSub,
   datamatrixTransmitSizeSub,
   qrPrintSub,
   maxiPrintSub,
   compositeTransmitSizeSub,
   gs1PrintSub,
   compositePrintSub,
   aztecPrintSub,
   datamatrixPrintSub,
   datamatrixStoreSub,
   aztecStoreSub,
   compositeStoreSub,
   gs1StoreSub,
   maxiStoreSub,
   qrStoreSub,
   qrSetModelSub,
   qrSetSizeSub,
   qrSetCorrectionLevelSub,
   maxiSetModeSub,
   gs1SetWidthSub,
   gs1SetMaxWidthSub,
   compositeSetWidthSub,
   compositeSetMaxWidthSub,
   compositeSetHriSub,
   aztecSetFunctionAndLayersSub,
   aztecSetSizeSub,
   aztecSetCorrectionLevelSub,
   datamatrixSetOptionsSub,
   datamatrixSetWidthSub]

/-- command_sets/esc_pos.rs:5-60 `commands` (same order). -/
def escPosCommands : List Command :=
  [barcodeCmd,
   bitImageCmd,
   cancelCmd,
   carriageReturnCmd,
   code2dCmd,
   defaultLineSpacingCmd,
   feedAndCutCmd,
   formfeedCmd,
   graphicsCmd,
   horizontalTabCmd,
   initializeCmd,
   largeGraphicsCmd,
   linefeedCmd,
   paperEndSensorCmd,
   printAndFeedLinesCmd,
   printAndFeedCmd,
   printAndReverseFeedLinesCmd,
   printStopSensorCmd,
   pulseCmd,
   rasterBitImageCmd,
   requestResponseTransmissionCmd,
   setHorizontalPosCmd,
   setAltColorCmd,
   setBarcodeHeightCmd,
   setBarcodeWidthCmd,
   setBlackWhiteInvertCmd,
   setCharacterSizeCmd,
   setCodeTableCmd,
   setDoubleStrikeCmd,
   setEmphasisCmd,
   setFontCmd,
   setMotionUnitsCmd,
   setBarcodeFontCmd,
   setBarcodeHriCmd,
   setInternationalCharsetCmd,
   setItalicCmd,
   setJustificationCmd,
   setLineSpacingCmd,
   setPanelButtonsCmd,
   setPeripheralDeviceCmd,
   setPrintModeCmd,
   offsetVerticalPosCmd,
   setSmoothingCmd,
   setTabLenCmd,
   setUnderlineCmd,
   setUpsideDownCmd,
   transmitPrinterIdCmd,
   setPageModeCmd,
   setVerticalPosCmd,
   pageModePrintAreaCmd,
   pageModePrintDirectionCmd,
   pageModePrintDataCmd,
   selectStandardModeCmd,
   setCharacterEffectsCmd,
   unknownGsGCmd]

end Thermal
