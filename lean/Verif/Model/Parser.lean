import Verif.Model.CommandSet
/-
Model of thermal_parser/src/subcommands/mod.rs (SubCommandHandler), Command::push and
thermal_parser/src/parser.rs.
-/
namespace Thermal

/-- The `Rc<Vec<Command>>` of a sub-command handler (subcommands/mod.rs:156-178). -/
def SubTable.all : SubTable → List SubCmd
  | .graphics => gsGraphicsAll
  | .code2d => gsCode2dAll
  | .none => []

/-- subcommands/mod.rs:25-32 `detect_kind`: the first entry whose commands contain the id. -/
def detectKind (table : List SubCmd) (id : Byte) (prev : Option SubCmd) : Option SubCmd :=
  match table.find? (fun c => c.commands.contains id) with
  | some c => some c
  | none => prev

/-- subcommands/mod.rs:34-49 `detect_kind_use_m`: loop over the table, the last match wins. -/
def detectKindUseM (table : List SubCmd) (m id : Byte) (prev : Option SubCmd) : Option SubCmd :=
  table.foldl (fun acc c =>
    if (match c.commands[0]? with | some f => f != m | none => false) then acc
    else if (c.commands.drop 1).contains id then some c else acc) prev

/-- subcommands/mod.rs:52-82 `parse_meta`. -/
def SubState.parseMeta (s : SubState) (data : List Byte) : Rs SubState := do
  let s ← if data.length = 4 then do
      let cap ← subU (parseU16 data 0) 2
      let m ← getUnwrap data 2
      let id ← getUnwrap data 3
      pure { s with capacity := cap, m := m, subcommandId := id }
    else pure s
  let s ← if data.length = 6 then do
      let cap ← subU (parseU32 data 0) 2
      let m ← getUnwrap data 4
      let id ← getUnwrap data 5
      pure { s with capacity := cap, m := m, subcommandId := id }
    else pure s
  let sub := if s.useM then detectKindUseM s.table.all s.m s.subcommandId s.subcommand
    else detectKind s.table.all s.subcommandId s.subcommand
  let sub := sub.map (fun c => { c with commands := data })
  pure { s with subcommand := sub, acceptData := true }

/-- subcommands/mod.rs:137-151, the part of `push` after the meta data is known. -/
def SubState.pushData (s : SubState) (data : List Byte) (byte : Byte) : SubState × List Byte × Bool :=
  if data.length < s.capacity then (s, data ++ [byte], true)
  else match s.subcommand with
    | some sub => ({ s with subcommand := some { sub with data := data } }, sub.data, false)
    | none => (s, data, false)

/-- subcommands/mod.rs:115-151 `push`. -/
def SubState.push (s : SubState) (data : List Byte) (byte : Byte) : Rs (SubState × List Byte × Bool) :=
  if s.acceptData then pure (s.pushData data byte)
  else
    let n := if s.isLarge then 6 else 4
    if data.length < n then pure (s, data ++ [byte], true)
    else do
      let s ← s.parseMeta (data.take n)
      pure (s.pushData [] byte)

/-- `handler.push(&mut self.data, byte)`: dynamic dispatch on the handler; command.rs:208-210 is the
default implementation (reject). -/
def Handler.push (h : Handler) (data : List Byte) (byte : Byte) : Rs (Handler × List Byte × Bool) :=
  match h with
  | .unit .feedAndCut => let (d, ok) := feedAndCutPush data byte; pure (h, d, ok)
  | .unit _ => pure (h, data, false)
  | .subUnit _ => pure (h, data, false)
  | .charEffects cap => let (c, d, ok) := charEffectsPush cap data byte; pure (.charEffects c, d, ok)
  | .barcode s => let (s, d, ok) := barcodePush s data byte; pure (.barcode s, d, ok)
  | .bitImage s => let (s, d, ok) := bitImagePush s data byte; pure (.bitImage s, d, ok)
  | .raster s => let (s, d, ok) := rasterPush s data byte; pure (.raster s, d, ok)
  | .sub s => do let (s, d, ok) ← s.push data byte; pure (.sub s, d, ok)

/-- The parameter count checks of command.rs:123-151: `some n` for a fixed-size command. -/
def DataType.arity : DataType → Option Nat
  | .empty => some 0 | .single => some 1 | .double => some 2 | .triple => some 3
  | .quad => some 4 | .octet => some 8 | _ => none

/-- command.rs:116-155 `Command::push`; returns the command after the call and whether the byte was
accepted. -/
def Command.push (c : Command) (byte : Byte) : Rs (Command × Bool) :=
  match c.dataKind with
  | .custom | .subcommand => do
      let (h, d, ok) ← c.handler.push c.data byte
      pure ({ c with handler := h, data := d }, ok)
  | .text | .unknown => pure ({ c with data := c.data ++ [byte] }, true)
  | k => match k.arity with
    | some n => if c.data.length ≥ n then pure (c, false) else pure ({ c with data := c.data ++ [byte] }, true)
    | none => pure ({ c with data := c.data ++ [byte] }, true)

/-- subcommands/mod.rs:154-158 `get_subcommand` (`None` by default, command.rs:213-215). -/
def Handler.getSubcommand : Handler → Option SubCmd
  | .sub s => s.subcommand
  | _ => none

/-- command_sets/mod.rs:3-14 -/
structure CommandSet where
  commands : List Command
  default : Command
  unknown : Command
  beginParsing : Command
  endParsing : Command

/-- command_sets/esc_pos.rs:4-70 -/
def escPos : CommandSet :=
  { commands := escPosCommands, default := textCmd, unknown := unknownCmd,
    beginParsing := beginPrintCmd, endParsing := endPrintCmd }

/-- parser.rs:6-14.  `match_depth` is a u8; it is a `Nat` here and proved ≤ 2 in every reachable state
(`Verif.Proofs.ParserAbs`), so the u8 increment never overflows. -/
structure Parser where
  cmdSet : CommandSet
  matchDepth : Nat := 0
  commandMatches : List Command := []
  currentCommand : Option Command := none
  currentCommandIsDefault : Bool := false
  commandBuffer : List Byte := []
  capturedCommands : List Command := []

/-- parser.rs:17-27 -/
def Parser.new (cs : CommandSet) : Parser := { cmdSet := cs }

/-- parser.rs:57-77 `emit_command`: what is appended to `captured_commands`. -/
def emitted (cmd : Command) : List Command :=
  if cmd.kind = .subcommand then
    match cmd.handler.getSubcommand with
    | some sub => [({ sub with commands := cmd.commands ++ sub.commands } : SubCmd).toCommand]
    | none => []
  else [cmd]

/-- parser.rs:57-77 `emit_command` -/
def Parser.emit (p : Parser) (cmd : Command) : Parser :=
  { p with capturedCommands := p.capturedCommands ++ emitted cmd }

/-- `if let Some(c) = prev { self.emit_command(c) }` (parser.rs:125-127) -/
def Parser.emitOpt (p : Parser) : Option Command → Parser
  | some c => p.emit c
  | none => p

/-- parser.rs:147-153: does the buffer start with one of the bytes listed as the "opcode" of the unknown
command? -/
def CommandSet.leads (cs : CommandSet) (buf : List Byte) : Bool :=
  match buf.head? with
  | some b => cs.unknown.commands.contains b
  | none => false

/-- parser.rs:145-180: no command matches the buffered bytes. -/
def Parser.noMatch (p : Parser) (byte : Byte) : Rs Parser := do
  if p.cmdSet.leads p.commandBuffer then
    let newCmd := { p.cmdSet.unknown with data := p.commandBuffer }
    let prev := p.currentCommand
    let p := { p with commandBuffer := [], currentCommandIsDefault := true, matchDepth := 0,
                      currentCommand := some newCmd }
    match prev with
    | some c => pure (p.emit c)
    | none => pure (p.emit p.cmdSet.unknown)
  else if p.currentCommandIsDefault then do
    let cur ← match p.currentCommand with
      | some c => do let (c, _) ← c.push byte; pure (some c)
      | none => pure none
    pure { p with currentCommand := cur, commandBuffer := [], currentCommandIsDefault := true,
                  matchDepth := 0 }
  else do
    let (newCmd, _) ← p.cmdSet.default.push byte
    let prev := p.currentCommand
    let p := { p with commandBuffer := [], currentCommandIsDefault := true, matchDepth := 0,
                      currentCommand := some newCmd }
    match prev with
    | some c => pure (p.emit c)
    | none => pure (p.emit p.cmdSet.unknown)

/-- parser.rs:90-180: the byte was not consumed by the current command; look for matching opcodes. -/
def Parser.search (p : Parser) (byte : Byte) : Rs Parser :=
  let p := { p with commandBuffer := p.commandBuffer ++ [byte] }
  let subset := if p.matchDepth = 0 then p.cmdSet.commands else p.commandMatches
  let p := { p with commandMatches := subset.filter (fun c => c.commands[p.matchDepth]? == some byte) }
  match p.commandMatches with
  | [m] => do
      let last ← subU m.commands.length 1
      if last ≠ p.matchDepth then pure { p with matchDepth := p.matchDepth + 1 }
      else
        let prev := p.currentCommand
        let p := { p with currentCommandIsDefault := false, commandBuffer := [], matchDepth := 0,
                          currentCommand := some m }
        pure (p.emitOpt prev)
  | [] => p.noMatch byte
  | _ => pure { p with matchDepth := p.matchDepth + 1 }

/-- parser.rs:79-180 `parse` -/
def Parser.parse (p : Parser) (byte : Byte) : Rs Parser := do
  if p.matchDepth = 0 && !p.currentCommandIsDefault then
    match p.currentCommand with
    | some c => do
        let (c, ok) ← c.push byte
        let p := { p with currentCommand := some c }
        if ok then pure p else p.search byte
    | none => p.search byte
  else p.search byte

/-- parser.rs:32-34: the `for byte in bytes` loop. -/
def Parser.parseAll (p : Parser) : List Byte → Rs Parser
  | [] => pure p
  | b :: bs => do let p ← p.parse b; p.parseAll bs

/-- parser.rs:36-54: emit the open command and End Print, reset, hand out the captured commands. -/
def Parser.finish (p : Parser) : List Command × Parser :=
  let q := ({ p with currentCommand := none } : Parser).emitOpt p.currentCommand
  let q := q.emit q.cmdSet.endParsing
  (q.capturedCommands,
   { q with matchDepth := 0, commandBuffer := [], commandMatches := [], currentCommandIsDefault := false,
            capturedCommands := [] })

/-- parser.rs:29-55 `parse_bytes`; returns the commands and the parser after the call. -/
def Parser.parseBytes (p : Parser) (bytes : List Byte) : Rs (List Command × Parser) := do
  let q ← (p.emit p.cmdSet.beginParsing).parseAll bytes
  pure q.finish

/-- thermal_parser/src/lib.rs `parse_esc_pos` -/
def parseEscPos (bytes : List Byte) : Rs (List Command) := do
  let (cmds, _) ← (Parser.new escPos).parseBytes bytes
  pure cmds

/-- command.rs:220-224 `get_command_bytes` and its overrides barcode.rs:277-287,
bit_image.rs:91-97, raster_bit_image.rs:67-73. -/
def Command.getCommandBytes (c : Command) : List Byte × List Byte :=
  match c.handler with
  | .barcode s => (c.commands ++ s.rawParams,
      if s.encoding = .nulTerminated then c.data ++ [NUL] else c.data)
  | .bitImage s => (c.commands, s.params ++ c.data)
  | .raster s => (c.commands, s.params ++ c.data)
  | _ => (c.commands, c.data)

end Thermal
