import Verif.Model.Str
import Verif.Model.Parser
/-
Model of thermal_parser/src/thermal_file.rs (the .thermal text format).
-/
namespace Thermal

/-- thermal_file.rs:42 -/
def commentPrefix : Str := ['\'', '/', '/']
/-- thermal_file.rs:43 -/
def hexPrefix : Str := ['0', 'x']

/-- local variables of `parse_tokens` (thermal_file.rs:110-113) -/
structure TokState where
  tokens : List Str := []
  s0 : Nat := 0
  s1 : Nat := 0
  gobble : Bool := false
  esc : Bool := false

/-- thermal_file.rs:115-182: the body of the `for c in line.chars()` loop. -/
def tokStep (line : Str) (t : TokState) (c : Char) : Rs TokState :=
  if t.gobble then
    if c = '\\' ∧ t.esc = true then .ok { t with esc := false, s1 := t.s1 + 1 }
    else if c = '"' ∧ t.esc = true then .ok { t with esc := false, s1 := t.s1 + 1 }
    else if c = '\\' then .ok { t with esc := true, s1 := t.s1 + 1 }
    else if c = '"' then do
      let tok ← line.slice t.s0 t.s1
      let e := t.s1 + c.utf8Size
      .ok { tokens := t.tokens ++ [tok], s0 := e, s1 := e, gobble := false, esc := false }
    else .ok { t with esc := false, s1 := t.s1 + c.utf8Size }
  else if c = '"' then .ok { t with gobble := true, esc := false, s0 := t.s1, s1 := t.s1 + 1 }
  else if isAsciiWhitespace c then
    if t.s0 ≠ t.s1 then do
      let tok ← line.slice t.s0 t.s1
      .ok { t with tokens := t.tokens ++ [tok], s0 := t.s1 + c.utf8Size, s1 := t.s1 + c.utf8Size }
    else .ok { t with s0 := t.s1 + c.utf8Size, s1 := t.s1 + c.utf8Size }
  else .ok { t with s1 := t.s1 + c.utf8Size }

/-- the loop of `parse_tokens` (thermal_file.rs:115) -/
def tokLoop (line : Str) : Str → TokState → Rs TokState
  | [], t => .ok t
  | c :: cs, t => do let t ← tokStep line t c; tokLoop line cs t

/-- thermal_file.rs:109-190 `parse_tokens` -/
def parseTokens (line : Str) : Rs (List Str) := do
  let t ← tokLoop line line {}
  if t.s0 ≠ t.s1 then do
    let tok ← line.slice t.s0 t.s1
    .ok (t.tokens ++ [tok])
  else .ok t.tokens

/-- thermal_file.rs:60-102: the bytes of one token (`match token`). -/
def tokenBytes (tok : Str) : Rs (List Byte) :=
  if tok = "NUL".toList then .ok [NUL]
  else if tok = "ESC".toList then .ok [ESC]
  else if tok = "HT".toList then .ok [HT]
  else if tok = "LF".toList then .ok [LF]
  else if tok = "FF".toList then .ok [FF]
  else if tok = "CR".toList then .ok [CR]
  else if tok = "GS".toList then .ok [GS]
  else if tok = "FS".toList then .ok [FS]
  else if tok = "DLE".toList then .ok [DLE]
  else if tok = "CAN".toList then .ok [CAN]
  else if tok.startsWith hexPrefix then do
    let digits ← tok.sliceFrom 2
    .ok (u8FromStrRadix 16 digits).toList
  else if tok.startsWith ['"'] then do
    let un := Str.replace2 '\\' '"' ['"'] (Str.replace2 '\\' '\\' ['\\'] tok)
    let body ← un.sliceFrom 1
    .ok body.bytes
  else match u8FromStrRadix 10 tok with
    | some b => .ok [b]
    | none => .ok tok.bytes

/-- thermal_file.rs:59: the inner `for token in tokens` loop -/
def tokensBytes : List Str → Rs (List Byte)
  | [] => .ok []
  | t :: ts => do let a ← tokenBytes t; let b ← tokensBytes ts; .ok (a ++ b)

/-- thermal_file.rs:51-59: one line -/
def lineBytes (line : Str) : Rs (List Byte) :=
  if line.startsWith commentPrefix || line.isBlank then .ok []
  else do let ts ← parseTokens line; tokensBytes ts

/-- thermal_file.rs:49: the `for line in text.lines()` loop -/
def linesBytes : List Str → Rs (List Byte)
  | [] => .ok []
  | l :: ls => do let a ← lineBytes l; let b ← linesBytes ls; .ok (a ++ b)

/-- thermal_file.rs:46-107 `parse_str` -/
def parseStr (text : Str) : Rs (List Byte) := linesBytes text.lines

/-! ### Commands to source -/

/-- thermal_file.rs:256-268 `try_const` -/
def tryConst (b : Byte) : Str :=
  if b = 0x1B then "ESC".toList
  else if b = 0x1D then "GS".toList
  else if b = 0x1C then "FS".toList
  else if b = 0x0C then "FF".toList
  else if b = 0x00 then "NUL".toList
  else if b = 0x0D then "CR".toList
  else if b = 0x10 then "DLE".toList
  else if b = 0x18 then "CAN".toList
  else "0x".toList ++ hex02 b

/-- thermal_file.rs:273-291 `try_string`.  `String::from_utf8(vec![byte])` succeeds exactly for bytes below 128. -/
def tryString (b : Byte) : Str :=
  if b < 32 ∨ b = 127 then decimal b
  else if b = 0x5C then ['"', '\\', '\\', '"']
  else if b = 0x22 then ['"', '\\', '"', '"']
  else if b < 128 then ['"', Char.ofNat b.toNat, '"']
  else decimal b

/-- thermal_file.rs:293-319 `explain_unknown` -/
def explainUnknown (data : List Byte) : Str :=
  match data with
  | first :: second :: rest =>
    tryConst first ++ [' '] ++ tryString second ++ [' '] ++ rest.flatMap (fun b => tryConst b ++ [' '])
  | [b] => tryConst b
  | [] => "'// No bytes provided".toList

/-- thermal_file.rs:321-338 `explain_command` -/
def explainCommand (bytes : List Byte) : Str :=
  match bytes with
  | [] => []
  | first :: rest => tryConst first ++ [' '] ++ rest.flatMap (fun b => tryString b ++ [' '])

/-- thermal_file.rs:239 `data.chunks(32)`; the first argument bounds the number of chunks (the length is enough) -/
def chunks32 : Nat → List Byte → List (List Byte)
  | 0, _ => []
  | _, [] => []
  | n + 1, d => d.take 32 :: chunks32 n (d.drop 32)

/-- thermal_file.rs:209-254 `cmd_to_thermal` -/
def cmdToThermal (cmd : Command) : Str :=
  let (commands, data) := cmd.getCommandBytes
  if cmd.kind = .text then
    if commands.head? = some LF then "LF \n".toList
    else ['"'] ++ fromUtf8Lossy data ++ ['"', '\n']
  else if cmd.kind = .unknown then
    "'// Unknown command \n ".toList ++ explainUnknown data ++ ['\n', '\n']
  else
    let comment := "'// ".toList ++ cmd.name.toList
    let cmdStr :=
      if data.length < 10 then explainCommand commands ++ data.flatMap (fun b => ' ' :: decimal b)
      else explainCommand commands ++ ['\n'] ++
        (chunks32 data.length data).flatMap (fun chunk =>
          Str.trim (chunk.flatMap (fun b => " 0x".toList ++ hex02 b)) ++ ['\n'])
    comment ++ ['\n'] ++ cmdStr ++ ['\n', '\n']

/-- thermal_file.rs:199-207 `cmds_to_thermal` -/
def cmdsToThermal (cmds : List Command) : Str := cmds.flatMap cmdToThermal

end Thermal
