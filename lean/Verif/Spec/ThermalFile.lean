import Verif.Model.Str
/-
The .thermal text format, as documented: words separated by blanks.
-/
namespace Thermal.Spec

/-- a character inside quotes -/
def escapeChar (c : Char) : Str :=
  if c = '\\' then ['\\', '\\'] else if c = '"' then ['\\', '"'] else [c]

/-- a quoted text -/
def quote (t : Str) : Str := ['"'] ++ t.flatMap escapeChar ++ ['"']

/-- the symbolic names of the format and their bytes -/
def constants : List (String × Byte) :=
  [("NUL", 0x00), ("ESC", 0x1B), ("HT", 0x09), ("LF", 0x0A), ("FF", 0x0C), ("CR", 0x0D), ("GS", 0x1D), ("FS", 0x1C),
   ("DLE", 0x10), ("CAN", 0x18)]

/-- a hexadecimal digit, upper or lower case -/
def digitChar (upper : Bool) (n : Nat) : Char :=
  (if upper then "0123456789ABCDEF" else "0123456789abcdef").toList.getD n '0'

inductive Word where
  /-- "text" with backslash escapes -/
  | quoted (t : Str)
  /-- a byte in decimal -/
  | dec (b : Byte)
  /-- a byte as 0xHH, each digit in either case -/
  | hex (b : Byte) (u1 u2 : Bool)
  /-- the i-th symbolic constant -/
  | const (i : Fin 10)

def Word.src : Word → Str
  | .quoted t => quote t
  | .dec b => (toString b.toNat).toList
  | .hex b u1 u2 => ['0', 'x', digitChar u1 (b.toNat / 16), digitChar u2 (b.toNat % 16)]
  | .const i => (constants[i]).1.toList

def Word.bytes : Word → List Byte
  | .quoted t => t.flatMap String.utf8EncodeChar
  | .dec b => [b]
  | .hex b _ _ => [b]
  | .const i => [(constants[i]).2]

/-- a quoted text must not contain a line break: the format is read line by line -/
def Word.oneLine : Word → Prop
  | .quoted t => '\n' ∉ t
  | _ => True

/-- characters that separate words on a line -/
def blank (c : Char) : Prop := c = ' ' ∨ c = '\t' ∨ c = '\r' ∨ c = '\x0C'

/-- blanks only -/
def Blanks (s : Str) : Prop := ∀ c ∈ s, blank c

/-- `Line s ws`: the text `s` is the words `ws` with blanks around and at least one blank between two words. -/
inductive Line : Str → List Word → Prop where
  | empty {s} : Blanks s → Line s []
  | last {lead trail w} : Blanks lead → Blanks trail → w.oneLine → Line (lead ++ w.src ++ trail) [w]
  | more {lead sep w s ws} : Blanks lead → Blanks sep → sep ≠ [] → w.oneLine → Line s ws →
      Line (lead ++ w.src ++ sep ++ s) (w :: ws)

end Thermal.Spec
