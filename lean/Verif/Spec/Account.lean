import Verif.Spec.Stream
/-
Vocabulary for the statements about where every input byte goes (C07, C10, C12).
-/
namespace Thermal.Spec

/-- the four opcodes followed by a length-prefixed sub-command -/
def subOpcodes : List (List Byte) :=
  [[0x1D, 0x28, 0x6B], [0x1D, 0x28, 0x4C], [0x1D, 0x28, 0x48], [0x1D, 0x38, 0x4C]]

/-- A sub-command header whose declared length (which counts the two function bytes) is less than two. -/
inductive BadHeader : List Byte → Prop where
  | small {op} (pl ph m fn : Byte) : op ∈ [[0x1D, 0x28, 0x6B], [0x1D, 0x28, 0x4C], [0x1D, 0x28, 0x48]] →
      pl.toNat + ph.toNat * 256 < 2 → BadHeader (op ++ [pl, ph, m, fn])
  | large (p1 p2 p3 p4 m fn : Byte) :
      p1.toNat + p2.toNat * 256 + p3.toNat * 65536 + p4.toNat * 16777216 < 2 →
      BadHeader ([0x1D, 0x38, 0x4C] ++ [p1, p2, p3, p4, m, fn])

/-- the opcode and data bytes shown by a returned command; the markers (Begin/End Print, Unknown, Text) have no
opcode of their own -/
def shown (c : Command) : List Byte :=
  if c.kind = .unknown then c.data else c.commands ++ c.data

/-- `d` is `src` without its lone CANs: every byte is copied, except that a CAN (0x18) followed by a byte other
than '@' is dropped and that byte is copied. -/
inductive WithoutCan : List Byte → List Byte → Prop where
  | nil : WithoutCan [] []
  | byte {src d b} : WithoutCan src d → opener b = false → WithoutCan (src ++ [b]) (d ++ [b])
  | can {src d b} : WithoutCan src d → b ≠ 0x40 → WithoutCan (src ++ [0x18, b]) (d ++ [b])

/-- the function selected by a sub-command opcode and its two function bytes -/
def selected (op : List Byte) (m fn : Byte) : Option SubCmd :=
  if op = [0x1D, 0x28, 0x6B] then code2dImplemented m fn
  else if op = [0x1D, 0x28, 0x48] then none
  else graphicsFunction fn

/-- a complete sub-command header: opcode, length bytes, function bytes; the last argument is the number of payload
bytes it announces -/
inductive Header : List Byte → List Byte → Byte → Byte → Nat → Prop where
  | small {op} (pl ph m fn : Byte) : op ∈ [[0x1D, 0x28, 0x6B], [0x1D, 0x28, 0x4C], [0x1D, 0x28, 0x48]] →
      Header op [pl, ph, m, fn] m fn (pl.toNat + ph.toNat * 256 - 2)
  | large (p1 p2 p3 p4 m fn : Byte) :
      Header [0x1D, 0x38, 0x4C] [p1, p2, p3, p4, m, fn] m fn
        (p1.toNat + p2.toNat * 256 + p3.toNat * 65536 + p4.toNat * 16777216 - 2)

/-- A stretch of input that is finished, and what is returned for it. `wire` is `get_command_bytes`. -/
inductive Seg (wire : Command → List Byte) : List Byte → List Command → Prop where
  /-- the blank Unknown command: no input -/
  | blank : Seg wire [] [unknownCmd]
  /-- a text run: all bytes but lone CANs -/
  | text {src d} : WithoutCan src d → d ≠ [] → Seg wire src [{ textCmd with data := d }]
  /-- an unrecognised opcode (starting with DLE, ESC, FS or GS) and the bytes after it -/
  | unknown {u src d} : (∃ b ∈ u.head?, b = 16 ∨ b = 27 ∨ b = 28 ∨ b = 29) → WithoutCan src d →
      Seg wire (u ++ src) [{ unknownCmd with data := u ++ d }]
  /-- a command: all bytes -/
  | command {c} : Seg wire (wire c) [c]
  /-- GS ( H: the payload, but not the header -/
  | request {hdr m fn n c p} : Header [0x1D, 0x28, 0x48] hdr m fn n → p.length = n → wire c = [0x1D, 0x28, 0x48] ++ p →
      Seg wire ([0x1D, 0x28, 0x48] ++ hdr ++ p) [c]
  /-- a sub-command whose function is not known: nothing -/
  | dropped {op hdr m fn n p} : Header op hdr m fn n → p.length = n → op ≠ [0x1D, 0x28, 0x48] → selected op m fn = none →
      Seg wire (op ++ hdr ++ p) []

/-- finished stretches, in order -/
inductive Segs (wire : Command → List Byte) : List Byte → List Command → Prop where
  | nil : Segs wire [] []
  | snoc {src cmds s c} : Segs wire src cmds → Seg wire s c → Segs wire (src ++ s) (cmds ++ c)

/-- The stretch of input that is still open when the input ends, and what is returned for it. -/
inductive Last (wire : Command → List Byte) : List Byte → List Command → Prop where
  | nothing : Last wire [] []
  | text {src d} : WithoutCan src d → d ≠ [] → Last wire src [{ textCmd with data := d }]
  | unknown {u src d} : (∃ b ∈ u.head?, b = 16 ∨ b = 27 ∨ b = 28 ∨ b = 29) → WithoutCan src d →
      Last wire (u ++ src) [{ unknownCmd with data := u ++ d }]
  /-- a command: all bytes -/
  | command {c} : Last wire (wire c) [c]
  /-- a function A barcode is shown with a terminating NUL it did not have, or with a second one -/
  | barcodeA {c m rest} : m ≤ 6 → c.commands = [0x1D, 0x6B] → c.data = rest →
      wire c = [0x1D, 0x6B, m] ++ rest ++ [0] → Last wire ([0x1D, 0x6B, m] ++ rest) [c]
  /-- GS ( H, header complete -/
  | request {hdr m fn n c p} : Header [0x1D, 0x28, 0x48] hdr m fn n → p.length ≤ n → wire c = [0x1D, 0x28, 0x48] ++ p →
      Last wire ([0x1D, 0x28, 0x48] ++ hdr ++ p) [c]
  /-- a sub-command cut off in its header, or before the first payload byte, or with an unknown function -/
  | subCut {op src} : op ∈ subOpcodes → op ≠ [0x1D, 0x28, 0x48] → src.length ≤ (if op = [0x1D, 0x38, 0x4C] then 6 else 4) →
      Last wire (op ++ src) []
  | subDropped {op hdr m fn n p} : Header op hdr m fn n → p.length ≤ n → op ≠ [0x1D, 0x28, 0x48] →
      selected op m fn = none → Last wire (op ++ hdr ++ p) []
  /-- a sub-command cut off in (or right after) its payload: the payload is lost -/
  | subHeader {op hdr m fn n p f} : Header op hdr m fn n → p.length ≤ n → p ≠ [] → selected op m fn = some f →
      Last wire (op ++ hdr ++ p) [subCommand f (op ++ hdr) []]

end Thermal.Spec
