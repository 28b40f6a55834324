import Verif.Spec.SubCommands
/-
Specification of a well-formed ESC/POS stream: items, their wire encoding, and the commands a reader must
produce for them.  Written from the protocol, without reference to the parser.
-/
namespace Thermal.Spec

/-- Bytes that start an opcode (HT LF FF CR CAN ESC GS) or a command the parser knows only as
"unknown" (DLE FS). -/
def opener (b : Byte) : Bool := [9, 10, 12, 13, 16, 24, 27, 28, 29].contains b

/-- low byte of a length -/
def lo (n : Nat) : Byte := UInt8.ofNat (n % 256)
/-- second byte of a length -/
def hi (n : Nat) : Byte := UInt8.ofNat (n / 256 % 256)
/-- third byte of a length -/
def hi2 (n : Nat) : Byte := UInt8.ofNat (n / 65536 % 256)
/-- fourth byte of a length -/
def hi3 (n : Nat) : Byte := UInt8.ofNat (n / 16777216 % 256)

inductive Item where
  /-- a run of text bytes -/
  | text (t : List Byte)
  /-- a command of the set with a fixed number of parameter bytes -/
  | fixed (c : Command) (args : List Byte)
  /-- ESC FF -/
  | pagePrint
  /-- GS V m -/
  | cut (m : Byte)
  /-- GS V m n -/
  | feedCut (m n : Byte)
  /-- GS ( N pL pH body -/
  | effects (body : List Byte)
  /-- GS k m data NUL (m = 0..6) -/
  | barcodeA (m : Byte) (data : List Byte)
  /-- GS k m n data (m = 65..79) -/
  | barcodeB (m : Byte) (data : List Byte)
  /-- ESC * m nL nH data; w is the number of columns -/
  | bitImage (m : Byte) (w : Nat) (data : List Byte)
  /-- GS v 0 m xL xH yL yH data; w in bytes, h in dots -/
  | raster (m : Byte) (w h : Nat) (data : List Byte)
  /-- GS ( L pL pH m fn payload -/
  | graphics (m fn : Byte) (payload : List Byte)
  /-- GS 8 L p1 p2 p3 p4 m fn payload -/
  | largeGraphics (m fn : Byte) (payload : List Byte)
  /-- GS ( k pL pH cn fn payload -/
  | code2d (cn fn : Byte) (payload : List Byte)
  /-- GS ( H pL pH m fn payload (response transmission requests) -/
  | request (m fn : Byte) (payload : List Byte)
  deriving DecidableEq

/-- number of parameter bytes of the fixed-size data kinds -/
def paramCount : DataType → Option Nat
  | .empty => some 0 | .single => some 1 | .double => some 2 | .triple => some 3 | .quad => some 4
  | .octet => some 8 | _ => none

/-- data bytes per column of ESC * mode m -/
def bytesPerColumn (m : Byte) : Nat := if m = 32 ∨ m = 33 then 3 else 1

def Item.WF : Item → Prop
  | .text t => t ≠ [] ∧ ∀ b ∈ t, opener b = false
  | .fixed c args => c ∈ escPosCommands ∧ paramCount c.dataKind = some args.length
  | .pagePrint => True
  | .cut m => m = 0 ∨ m = 1 ∨ m = 48 ∨ m = 49
  | .feedCut m _ => ¬ (m = 0 ∨ m = 1 ∨ m = 48 ∨ m = 49)
  | .effects body => body ≠ [] ∧ body.length < 65536
  | .barcodeA m data => m ≤ 6 ∧ ∀ b ∈ data, b ≠ 0
  | .barcodeB m data => 65 ≤ m ∧ m ≤ 79 ∧ data.length < 256
  | .bitImage m w data => w < 65536 ∧ data.length = w * bytesPerColumn m
  | .raster _ w h data => w < 65536 ∧ h < 65536 ∧ data.length = w * h
  | .graphics _ _ payload => payload.length + 2 < 65536
  | .largeGraphics _ _ payload => payload.length + 2 < 4294967296
  | .code2d _ _ payload => payload.length + 2 < 65536
  | .request _ _ payload => payload.length + 2 < 65536

def small (op : List Byte) (m fn : Byte) (payload : List Byte) : List Byte :=
  op ++ [lo (payload.length + 2), hi (payload.length + 2), m, fn]

def large (op : List Byte) (m fn : Byte) (payload : List Byte) : List Byte :=
  op ++ [lo (payload.length + 2), hi (payload.length + 2), hi2 (payload.length + 2), hi3 (payload.length + 2), m, fn]

/-- the wire encoding of an item -/
def Item.bytes : Item → List Byte
  | .text t => t
  | .fixed c args => c.commands ++ args
  | .pagePrint => [0x1B, 0x0C]
  | .cut m => [0x1D, 0x56, m]
  | .feedCut m n => [0x1D, 0x56, m, n]
  | .effects body => [0x1D, 0x28, 0x4E, lo body.length, hi body.length] ++ body
  | .barcodeA m data => [0x1D, 0x6B, m] ++ data ++ [0]
  | .barcodeB m data => [0x1D, 0x6B, m, UInt8.ofNat data.length] ++ data
  | .bitImage m w data => [0x1B, 0x2A, m, lo w, hi w] ++ data
  | .raster m w h data => [0x1D, 0x76, 0x30, m, lo w, hi w, lo h, hi h] ++ data
  | .graphics m fn p => small [0x1D, 0x28, 0x4C] m fn p ++ p
  | .largeGraphics m fn p => large [0x1D, 0x38, 0x4C] m fn p ++ p
  | .code2d cn fn p => small [0x1D, 0x28, 0x6B] cn fn p ++ p
  | .request m fn p => small [0x1D, 0x28, 0x48] m fn p ++ p

/-- the sub-command `f` with opcode-and-header bytes `header` and payload `p` -/
def subCommand (f : SubCmd) (header p : List Byte) : Command :=
  { name := f.name, commands := header, data := p, kind := f.kind, dataKind := .subcommand,
    handler := .subUnit f.id }

def barcodeCommand (m : Byte) (params data : List Byte) : Command :=
  { name := "Barcode", commands := [0x1D, 0x6B], data := data, kind := .graphics, dataKind := .custom
    handler := .barcode
      { kind := barcodeKind m, kindId := m
        encoding := if m ≤ 6 then .nulTerminated else .explicitSize
        capacity := params.getD 1 0, hasCapacity := params.length == 2, acceptData := true, rawParams := params } }

/-- The handler state of GS ( H after its header; the response request is emitted as such, the header bytes are
not kept by it. -/
def requestCommand (m fn : Byte) (p : List Byte) : Command :=
  { name := "Request Response Transmission", commands := [0x1D, 0x28, 0x48], data := p, kind := .control
    dataKind := .custom
    handler := .sub { table := .none, isLarge := false, m := m, subcommandId := fn, capacity := p.length
                      acceptData := true, useM := false } }

/-- What a reader must produce for the item (when more bytes follow it). -/
def Item.commands : Item → List Command
  | .text t => [{ textCmd with data := t }]
  | .fixed c args => [{ c with data := args }]
  | .pagePrint => [pageModePrintDataCmd]
  | .cut m => [{ feedAndCutCmd with data := [m] }]
  | .feedCut m n => [{ feedAndCutCmd with data := [m, n] }]
  | .effects body =>
      [{ setCharacterEffectsCmd with
         data := [lo body.length, hi body.length] ++ body
         handler := .charEffects (body.length + 2) }]
  | .barcodeA m data => [barcodeCommand m [m] data]
  | .barcodeB m data => [barcodeCommand m [m, UInt8.ofNat data.length] data]
  | .bitImage m w data =>
      [{ bitImageCmd with
         data := data
         handler := .bitImage
           { width := w, height := 8 * bytesPerColumn m, capacity := data.length, colEncoded := true
             size := data.length, acceptData := true
             stretch := if m = 0 ∨ m = 32 then (2, 3) else (1, 1), params := [m, lo w, hi w] } }]
  | .raster m w h data =>
      [{ rasterBitImageCmd with
         data := data
         handler := .raster { width := w * 8, height := h, capacity := data.length, scaling := m, acceptData := true
                              params := [m, lo w, hi w, lo h, hi h] } }]
  | .graphics m fn p => ((graphicsFunction fn).map
      (fun f => subCommand f (small [0x1D, 0x28, 0x4C] m fn p) p)).toList
  | .largeGraphics m fn p => ((graphicsFunction fn).map
      (fun f => subCommand f (large [0x1D, 0x38, 0x4C] m fn p) p)).toList
  | .code2d cn fn p => ((code2dImplemented cn fn).map
      (fun f => subCommand f (small [0x1D, 0x28, 0x6B] cn fn p) p)).toList
  | .request m fn p => [requestCommand m fn p]

/-- What the parser produces for the item when the input ends right after it: a sub-command has lost its payload
(or itself, when the payload is empty), and a function A barcode still carries its NUL. -/
def Item.commandsAtEnd : Item → List Command
  | .barcodeA m data => [barcodeCommand m [m] (data ++ [0])]
  | .graphics m fn p => if p = [] then [] else ((graphicsFunction fn).map
      (fun f => subCommand f (small [0x1D, 0x28, 0x4C] m fn p) [])).toList
  | .largeGraphics m fn p => if p = [] then [] else ((graphicsFunction fn).map
      (fun f => subCommand f (large [0x1D, 0x38, 0x4C] m fn p) [])).toList
  | .code2d cn fn p => if p = [] then [] else ((code2dImplemented cn fn).map
      (fun f => subCommand f (small [0x1D, 0x28, 0x6B] cn fn p) [])).toList
  | .request m fn p => if p = [] then
      [{ requestResponseTransmissionCmd with data := [2, 0, m, fn] }] else [requestCommand m fn p]
  | it => it.commands

def Item.isText : Item → Bool
  | .text _ => true
  | _ => false

/-- no two text runs next to each other (they would be one run) -/
def separated : List Item → Prop
  | a :: b :: rest => ¬ (a.isText = true ∧ b.isText = true) ∧ separated (b :: rest)
  | _ => True

/-- a stream that starts with text is preceded by an empty Unknown command -/
def leading : List Item → List Command
  | it :: _ => if it.isText then [unknownCmd] else []
  | [] => []

def streamBytes (items : List Item) : List Byte := items.flatMap Item.bytes

/-- commands for a whole stream: every item but the last as if followed by more, the last one at end of input -/
def streamCommands : List Item → List Command
  | [] => []
  | [it] => it.commandsAtEnd
  | it :: rest => it.commands ++ streamCommands rest

end Thermal.Spec
