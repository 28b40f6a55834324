import Verif.Model.Renderer
/-
The lines of the log: `CommandHandler::debug` of all handlers, and the loop of `render` that writes them.
-/
namespace Thermal

/-- The name of a code page: the first component of decoder/codepage_*.rs `TABLE`, selected as in decoder/mod.rs:73-85. -/
def codepageName (n : Byte) : Str :=
  (if n = 1 then "Katakana" else if n = 2 then "PC850: Multilingual" else if n = 3 then "PC860: Portuguese"
  else if n = 4 then "PC863: Canadian-French" else if n = 5 then "PC865: Nordic" else if n = 11 then "PC851: Greek"
  else if n = 12 then "PC853: Turkish" else if n = 13 then "PC857: Turkish" else "Default (Codepage 437)").toList

/-- The name of a language: the first component of the constants of decoder/international.rs, selected as in decoder/mod.rs:87-119. -/
def languageName (n : Byte) : Str :=
  (if n = 1 then "French" else if n = 2 then "German" else if n = 3 then "British English" else if n = 4 then "Danish Variant I"
  else if n = 5 then "Swedish" else if n = 6 then "Italian" else if n = 7 then "Spanish Variant I" else if n = 8 then "Japanese"
  else if n = 9 then "Norwegian" else if n = 10 then "Danish Variant II" else if n = 11 then "Spanish Variant II" else if n = 12 then "Latin"
  else if n = 13 then "Korean" else if n = 14 then "Slovenian" else if n = 15 then "Chinese" else if n = 16 then "Vietnamese"
  else if n = 17 then "Arabic" else if n = 66 then "Devengari" else if n = 67 then "Bengali" else if n = 68 then "Tamil"
  else if n = 69 then "Telugu" else if n = 70 then "Assamese" else if n = 71 then "Oriya" else if n = 72 then "Kannada"
  else if n = 73 then "Malayalam" else if n = 74 then "Gujarati" else if n = 75 then "Punjabi" else if n = 82 then "Marathi"
  else "Us English").toList

/-- barcode.rs:67-86 `kind_to_string` -/
def kindToString (k : BarcodeType) : Str :=
  (match k with
  | .upcA => "UPC A" | .upcE => "UPC E" | .ean13 => "EAN 13" | .ean8 => "EAN 8" | .code39 => "CODE 39" | .itf => "ITF"
  | .nw7Codabar => "Nw7Codabar" | .code93 => "Code93" | .code128 => "Code128" | .gs1128 => "GS1 128" | .gs1DatabarOmni => "GS1 Omni"
  | .gs1DatabarTruncated => "GS1 Truncated" | .gs1DatabarLimited => "GS1 Kimited" | .gs1DatabarExpanded => "GS1 Expanded"
  | .code128Auto => "Code 128 Auto" | .unknown => "Unknown").toList

/-- `{}` of an unsigned number. -/
def showNat (n : Nat) : Str := Nat.toDigits 10 n

/-- `{}` of a signed number. -/
def showInt (n : Int) : Str := if n < 0 then '-' :: showNat n.natAbs else showNat n.natAbs

/-- `{:02X?}` of a list of bytes. -/
def showBytes (bs : List Byte) : Str := "[".toList ++ ((bs.map hex02).intersperse ", ".toList).flatten ++ "]".toList

/-- barcode.rs:256-275 `debug` -/
def barcodeDebug (s : BarcodeState) (data : List Byte) : Str :=
  let encoding := match s.encoding with
    | .nulTerminated => "Nul Terminated"
    | .explicitSize => "Explicit Size"
    | .unknown => "Unknown"
  if s.kind = .unknown then
    "Unknown Barcode Format with ".toList ++ encoding.toList ++ " encoding and a type id of ".toList ++ decimal s.kindId ++
      " and data ".toList ++ showBytes data
  else kindToString s.kind ++ " Barcode with ".toList ++ showNat data.length ++ " bytes: ".toList ++ (fromUtf8 data).getD "[No Data]".toList

/-- set_print_mode.rs:22-46 `debug`; `{:?}` of a list of words without special characters. -/
def printModeDebug (name : Str) (data : List Byte) : Str :=
  let f := bitflagsLsb (getOr data 0 0)
  let changes : List String :=
    [if f.getD 0 false then "Font B" else "Font A", if f.getD 3 false then "Bold" else "Not Bold",
     if f.getD 4 false then "Double Height" else "Standard Height", if f.getD 5 false then "Double Width" else "Standard Width",
     if f.getD 6 false then "Underline" else "No Underline"]
  name ++ ": [".toList ++ ((changes.map fun w => '"' :: w.toList ++ ['"']).intersperse ", ".toList).flatten ++ "]".toList

/-- page_mode_print_area.rs:73-75 `debug`; `{:?}` of context.rs `RenderArea`, which derives `Debug`. -/
def printAreaDebug (data : List Byte) : Str :=
  let a := calculatePageArea data
  "Set Print Area --> RenderArea { x: ".toList ++ showNat a.x ++ ", y: ".toList ++ showNat a.y ++ ", w: ".toList ++ showNat a.w ++
    ", h: ".toList ++ showNat a.h ++ " }".toList

/-- `handler.debug(command, context)`: command.rs:200-205 (the default, `debugText`), subcommands/mod.rs:108-113, set_character_size.rs:20-24,
set_print_mode.rs:22-46, text.rs:12-17, page_mode_print_area.rs:73-75, set_vertical_pos.rs:33-35, set_horizontal_pos.rs:25-27,
offset_vertical_pos.rs:20-22, set_international_charset.rs:51-59, set_code_table.rs:84-92, barcode.rs:256-275.  `quote` is `{:?}` of a string.
The fields `name` and `language` of the decoder are those of the code table and character set it was made from (context.rs:855-864; `contextDecoder`
leaves them out), so they are looked up again. -/
def handlerDebug (quote : Str → Str) (cmd : Command) (c : Context) : Rs Str :=
  let name := cmd.name.toList
  match cmd.handler with
  | .unit .setCharacterSize =>
    let s := parseStretch (getOr cmd.data 0 0)
    pure (name ++ " Stretch w".toList ++ decimal s.1 ++ " h".toList ++ decimal s.2)
  | .unit .setPrintMode => pure (printModeDebug name cmd.data)
  | .unit .text => do
    let s ← c.text.decoder.decode cmd.data
    pure (quote s)
  | .unit .pageModePrintArea => pure (printAreaDebug cmd.data)
  | .unit .setVerticalPos => pure (name ++ " --> ".toList ++ showNat (getPos cmd.data))
  | .unit .setHorizontalPos => pure (name ++ " --> ".toList ++ showNat (getPos cmd.data))
  | .unit .offsetVerticalPos => pure (name ++ " --> ".toList ++ showInt (getPosI16 cmd.data))
  | .unit .setInternationalCharset =>
    pure (name ++ " to ".toList ++ decimal c.text.characterSet ++ ". ".toList ++ codepageName c.text.codeTable ++ " (".toList ++
      languageName c.text.characterSet ++ ")".toList)
  | .unit .setCodeTable =>
    pure (name ++ " to ".toList ++ decimal c.text.codeTable ++ ". ".toList ++ codepageName c.text.codeTable ++ " (".toList ++
      languageName c.text.characterSet ++ ")".toList)
  | .barcode s => pure (barcodeDebug s cmd.data)
  | .sub s => pure (match s.subcommand with
    | some sub => sub.name.toList
    | none => [])
  | _ => pure (debugText cmd)

namespace Renderer
variable {σ Out : Type} (R : OutputRenderer σ Out)

/-- renderer.rs:126-132: the loop of `render` with the lines that `log_debug` gets. -/
def processLogged (ext : Ext) (quote : Str → Str) : List Command → Renderer σ Out → Rs (Renderer σ Out × List Str)
  | [], r => .ok (r, [])
  | cmd :: cmds, r => do
    let line ← handlerDebug quote cmd r.context
    let r ← processCommand R ext r cmd
    let (r, lines) ← processLogged ext quote cmds r
    pure (r, line :: lines)

/-- renderer.rs:120-143 `render`: the outputs, the errors, the renderer afterwards, and the lines written for the commands. -/
def renderLogged (ext : Ext) (quote : Str → Str) (r : Renderer σ Out) (bytes : List Byte) :
    Rs ((List Out × List RenderError × Renderer σ Out) × List Str) := do
  let cmds ← parseEscPos bytes
  let (r, lines) ← processLogged R ext quote cmds r
  pure ((r.outputBuffer, r.errorBuffer, { r with outputBuffer := [], errorBuffer := [] }), lines)

end Renderer
end Thermal
