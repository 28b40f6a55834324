import Verif.Spec.Decoder
import Verif.Spec.PrintedText
import Verif.Model.Log
/-
The log of a job: one line for every command, with its name and its parameters in a readable form.
-/
namespace Thermal.Spec

/-- A number in decimal digits. -/
def digits (n : Nat) : Str := (Nat.repr n).toList

/-- The name of a code page (ESC t). -/
def pageName (n : Byte) : String :=
  (([(1, "Katakana"), (2, "PC850: Multilingual"), (3, "PC860: Portuguese"), (4, "PC863: Canadian-French"), (5, "PC865: Nordic"), (11, "PC851: Greek"),
     (12, "PC853: Turkish"), (13, "PC857: Turkish")] : List (Byte × String)).lookup n).getD "Default (Codepage 437)"

/-- The name of an international character set (ESC R). -/
def setName (n : Byte) : String :=
  (([(1, "French"), (2, "German"), (3, "British English"), (4, "Danish Variant I"), (5, "Swedish"), (6, "Italian"), (7, "Spanish Variant I"),
     (8, "Japanese"), (9, "Norwegian"), (10, "Danish Variant II"), (11, "Spanish Variant II"), (12, "Latin"), (13, "Korean"), (14, "Slovenian"),
     (15, "Chinese"), (16, "Vietnamese"), (17, "Arabic"), (66, "Devengari"), (67, "Bengali"), (68, "Tamil"), (69, "Telugu"), (70, "Assamese"),
     (71, "Oriya"), (72, "Kannada"), (73, "Malayalam"), (74, "Gujarati"), (75, "Punjabi"), (82, "Marathi")] : List (Byte × String)).lookup n).getD "Us English"

/-- A byte in hexadecimal, with two digits. -/
def hexByte (b : Byte) : Str := ["0123456789ABCDEF".toList.getD (b.toNat / 16) '?', "0123456789ABCDEF".toList.getD (b.toNat % 16) '?']

/-- Bytes in hexadecimal, between brackets: `[1B, 40]`. -/
def hexList (bs : List Byte) : Str := "[".toList ++ ", ".toList.intercalate (bs.map hexByte) ++ "]".toList

/-- The name of a symbology in the log (as the program spells it). -/
def symbologyName (k : BarcodeType) : String :=
  (([(.upcA, "UPC A"), (.upcE, "UPC E"), (.ean13, "EAN 13"), (.ean8, "EAN 8"), (.code39, "CODE 39"), (.itf, "ITF"), (.nw7Codabar, "Nw7Codabar"),
     (.code93, "Code93"), (.code128, "Code128"), (.gs1128, "GS1 128"), (.gs1DatabarOmni, "GS1 Omni"), (.gs1DatabarTruncated, "GS1 Truncated"),
     (.gs1DatabarLimited, "GS1 Kimited"), (.gs1DatabarExpanded, "GS1 Expanded"), (.code128Auto, "Code 128 Auto")] : List (BarcodeType × String)).lookup k).getD
    "Unknown"

/-- Words between quotation marks and brackets. -/
def wordList (ws : List String) : Str := "[".toList ++ ", ".toList.intercalate (ws.map fun w => ("\"" ++ w ++ "\"").toList) ++ "]".toList

/-- A number of two bytes, the low one first. -/
def word (data : List Byte) (i : Nat) : Nat := (data.getD i 0).toNat + (data.getD (i + 1) 0).toNat * 256

/-- The same as a signed number. -/
def signedWord (data : List Byte) : Str := if word data 0 < 32768 then digits (word data 0) else '-' :: digits (65536 - word data 0)

/-- The text of bytes in a code page and a character set (page 255 is UTF-8). -/
def readText (page set : Byte) (bs : List Byte) : Str :=
  if page = 255 then fromUtf8Lossy bs else bs.flatMap (byteText page set)

/-- The line of a bar code: symbology, number of bytes, the bytes as text. -/
def barcodeLine (s : BarcodeState) (data : List Byte) : Str :=
  if s.kind = .unknown then
    "Unknown Barcode Format with ".toList ++
      (match s.encoding with
        | .nulTerminated => "Nul Terminated"
        | .explicitSize => "Explicit Size"
        | .unknown => "Unknown").toList ++ " encoding and a type id of ".toList ++ digits s.kindId.toNat ++ " and data ".toList ++ hexList data
  else (symbologyName s.kind).toList ++ " Barcode with ".toList ++ digits data.length ++ " bytes: ".toList ++ (fromUtf8 data).getD "[No Data]".toList

/-- What a command is called, by the bytes it begins with: the commands without functions of their own.  (The last: the commands the program does not know.) -/
def commandNames : List (List Byte × String) :=
  [([29, 107], "Barcode"), ([27, 42], "Bit Image"), ([24, 64], "Cancel"), ([13], "Carriage Return"), ([27, 50], "Default Line Spacing"),
    ([29, 86], "Feed and Cut"), ([12], "Form Feed"), ([9], "Horizontal Tab"), ([27, 64], "Initialize"), ([10], "Line Feed"),
    ([27, 99, 3], "Select Paper End Sensors"), ([27, 100], "Print and Feed Lines"), ([27, 74], "Print and Feed"),
    ([27, 101], "Print and Reverse Feed Lines"), ([27, 99, 4], "Print Stop Sensors"), ([27, 112], "Pulse"), ([29, 118, 48], "Raster Bit Image"),
    ([29, 40, 72], "Request Response Transmission"), ([27, 36], "Set Absolute Horizontal Position"), ([27, 114], "Set Print Color to Alternate"),
    ([29, 104], "Set Barcode Height"), ([29, 119], "Set Barcode Width"), ([29, 66], "Set Black White Invert"), ([29, 33], "Set Character Size"),
    ([27, 116], "Set Code Table"), ([27, 71], "Enable Double Strike Through"), ([27, 69], "Enable Emphasis"), ([27, 77], "Set Font"),
    ([29, 80], "Set Vertical and Horizontal Motion Units"), ([29, 102], "Set Hri Barcode Font"), ([29, 72], "Set Hri Print POS"),
    ([27, 82], "Set International Character Set"), ([27, 52], "Enable Italic"), ([27, 97], "Set Text Justification"), ([27, 51], "Set Line Spacing"),
    ([27, 99, 5], "Enable Panel Buttons"), ([27, 61], "Set Peripheral Device"), ([27, 33], "Set Print Mode"),
    ([29, 92], "Set Relative Vertical Position"), ([29, 98], "Set Smoothing"), ([27, 68], "Set Tab Len"), ([27, 45], "Enable Underline"),
    ([27, 123], "Enable Upside Down Mode"), ([29, 73], "Transmit Printer ID"), ([27, 76], "Set page mode"),
    ([29, 36], "Set Absolute Vertical Position"), ([27, 87], "Set Print Area"), ([27, 84], "Set Page Mode Print Direction"),
    ([27, 12], "Print Contents of Page Mode"), ([27, 83], "Select standard mode"), ([29, 40, 78], "Set Character Effects"),
    ([29, 40, 71], "Unknown GS ( G"), ([16, 27, 28, 29], "Unknown Command")]

/-- The line of a command when `page` and `set` are selected. -/
def logLine (quote : Str → Str) (page set : Byte) (cmd : Command) : Str :=
  let name := cmd.name.toList
  let data := cmd.data
  let n := (data.getD 0 0).toNat
  match cmd.commands with
  | [] => if cmd.kind = .text then quote (readText page set data) else if data = [] then name else name ++ " ".toList ++ hexList data
  | [29, 33] => name ++ " Stretch w".toList ++ digits (n / 16 % 8 + 1) ++ " h".toList ++ digits (n % 8 + 1)                    -- GS !
  | [27, 33] =>                                                                                                                -- ESC !
    name ++ ": ".toList ++ wordList [if n.testBit 0 then "Font B" else "Font A", if n.testBit 3 then "Bold" else "Not Bold",
      if n.testBit 4 then "Double Height" else "Standard Height", if n.testBit 5 then "Double Width" else "Standard Width",
      if n.testBit 6 then "Underline" else "No Underline"]
  | [27, 87] =>                                                                                                                -- ESC W
    "Set Print Area --> RenderArea { x: ".toList ++ digits (word data 0) ++ ", y: ".toList ++ digits (word data 2) ++
      ", w: ".toList ++ digits (word data 4) ++ ", h: ".toList ++ digits (word data 6) ++ " }".toList
  | [27, 36] | [29, 36] => name ++ " --> ".toList ++ digits (word data 0)                                                      -- ESC $, GS $
  | [29, 92] => name ++ " --> ".toList ++ signedWord data                                                                      -- GS \
  | [27, 82] =>                                                                                                                -- ESC R
    name ++ " to ".toList ++ digits set.toNat ++ ". ".toList ++ (pageName page).toList ++ " (".toList ++ (setName set).toList ++ ")".toList
  | [27, 116] =>                                                                                                               -- ESC t
    name ++ " to ".toList ++ digits page.toNat ++ ". ".toList ++ (pageName page).toList ++ " (".toList ++ (setName set).toList ++ ")".toList
  | _ =>
    match cmd.handler with
    | .barcode s => barcodeLine s data                                                                                         -- GS k
    | _ => if data = [] then name else name ++ " ".toList ++ hexList data

/-- The code page and the character set after a command: ESC t, ESC R, ESC @. -/
def selects (page set : Byte) (cmd : Command) : Byte × Byte :=
  match cmd.commands with
  | [27, 116] => (cmd.data.getD 0 0, set)
  | [27, 82] => (page, cmd.data.getD 0 0)
  | [27, 64] => (0, 0)
  | _ => (page, set)

/-- The lines of a job, each written before its command is carried out. -/
def logLines (quote : Str → Str) : Byte → Byte → List Command → List Str
  | _, _, [] => []
  | page, set, cmd :: cmds => logLine quote page set cmd :: logLines quote (selects page set cmd).1 (selects page set cmd).2 cmds

end Thermal.Spec
