import Verif.Model.Command
import Verif.Model.Text
/-
The style commands of ESC/POS as the command reference documents them, over (opcode, parameters), and the style that a
context has.  Written without reference to the command handlers.
-/
namespace Thermal.Spec

/-- The style settings of the printer. -/
structure Style where
  codeTable : Nat
  characterSet : Nat
  font : Font
  bold : Bool
  italic : Bool
  underline : TextUnderline
  doubleStrike : Bool
  reversed : Bool
  upsideDown : Bool
  smoothing : Bool
  widthTimes : Nat
  heightTimes : Nat
  justify : TextJustify
  lineSpacing : Nat
  color : RGBA
  background : RGBA
  shadowColor : RGBA
  shadow : Bool
  hri : Hri
  barcodeHeight : Nat
  barcodeWidth : Nat
  barcodeFont : Font
  dotsPerInch : Nat
  deriving DecidableEq, Repr

/-- The inks: 0 is the paper. -/
def inkOf (k : Nat) : RGBA :=
  match k with
  | 0 => ⟨255, 255, 255, 255⟩
  | 1 => ⟨0, 0, 0, 255⟩
  | 2 => ⟨158, 22, 22, 255⟩
  | _ => ⟨27, 57, 169, 255⟩

/-- The style a printer starts with, and that `ESC @` restores. -/
def Style.initial : Style where
  codeTable := 0
  characterSet := 0
  font := .A
  bold := false
  italic := false
  underline := .off
  doubleStrike := false
  reversed := false
  upsideDown := false
  smoothing := false
  widthTimes := 1
  heightTimes := 1
  justify := .left
  lineSpacing := 24
  color := inkOf 1
  background := inkOf 0
  shadowColor := inkOf 1
  shadow := false
  hri := .none
  barcodeHeight := 40
  barcodeWidth := 3
  barcodeFont := .A
  dotsPerInch := 203

/-- "The least significant bit of n is 1." -/
def isOn (n : Nat) : Bool := n % 2 == 1

/-- Bit `k` of `n`. -/
def bit (k n : Nat) : Bool := n / 2 ^ k % 2 == 1

/-- A parameter 0, 1, 2, ... or its digit '0', '1', '2', ... -/
def digit (n : Nat) : Nat := if 48 ≤ n then n - 48 else n

/-- Fonts of `ESC M` and `GS f`. -/
def fontOf (n : Nat) : Font :=
  if n = 97 then .specialA else if n = 98 then .specialB
  else match digit n with
    | 1 => .B
    | 2 => .C
    | 3 => .D
    | 4 => .E
    | _ => .A

/-- `ESC a` -/
def justifyOf (n : Nat) : TextJustify := match digit n with | 1 => .center | 2 => .right | _ => .left
/-- `ESC -` -/
def underlineOf (n : Nat) : TextUnderline := match digit n with | 1 => .on | 2 => .double | _ => .off
/-- `GS H` -/
def hriOf (n : Nat) : Hri := match digit n with | 1 => .above | 2 => .below | 3 => .both | _ => .none

/-- Parameter number `k`; a parameter missing because the stream ended counts as 0. -/
def param (data : List Byte) (k : Nat) : Nat := (data.getD k 0).toNat

/-- `GS ( N`: the function and its parameters follow the two length bytes. -/
def Style.effects (s : Style) (data : List Byte) : Style :=
  match data with
  | [_, _, 48, m] => { s with color := inkOf (digit m.toNat) }
  | [_, _, 49, m] => { s with background := inkOf (digit m.toNat) }
  | [_, _, 50, m, a] =>
    { s with
      shadowColor := inkOf (digit m.toNat)
      shadow := digit a.toNat ≠ 0 }
  | _ => s

/-- `GS ( L` / `GS 8 L`: function 1 or 49 sets the reference dot density, 180 or 360 dots per inch; parameters that are missing count
as 50. -/
def Style.graphics (s : Style) (fn : Byte) (data : List Byte) : Style :=
  if fn = 1 ∨ fn = 49 then
    match (data.getD 0 50).toNat, (data.getD 1 50).toNat with
    | 50, 50 => { s with dotsPerInch := 180 }
    | 51, 51 => { s with dotsPerInch := 360 }
    | _, _ => s
  else s

/-- What a command does to the style. -/
def Style.step (s : Style) (opcode data : List Byte) : Style :=
  let n := param data 0
  match opcode with
  | [27, 64] => Style.initial                                               -- ESC @
  | [27, 33] =>                                                             -- ESC ! n
    { s with
      font := if bit 0 n then .B else .A
      bold := bit 3 n
      heightTimes := if bit 4 n then 2 else 1
      widthTimes := if bit 5 n then 2 else 1
      underline := if bit 7 n then .on else .off }
  | [27, 77] => { s with font := fontOf n }                                 -- ESC M n
  | [29, 33] =>                                                             -- GS ! n
    { s with
      widthTimes := n / 16 % 8 + 1
      heightTimes := n % 8 + 1 }
  | [27, 69] => { s with bold := isOn n }                                   -- ESC E n
  | [27, 71] => { s with doubleStrike := isOn n }                           -- ESC G n
  | [27, 52] => { s with italic := isOn n }                                 -- ESC 4 n
  | [27, 45] => { s with underline := underlineOf n }                       -- ESC - n
  | [27, 123] => { s with upsideDown := isOn n }                            -- ESC { n
  | [29, 66] =>                                                             -- GS B n
    { s with
      reversed := isOn n
      color := inkOf (if isOn n then 0 else 1)
      background := inkOf (if isOn n then 1 else 0) }
  | [29, 98] => { s with smoothing := isOn n }                              -- GS b n
  | [27, 114] => { s with color := inkOf (if digit n = 1 then 2 else 1) }     -- ESC r n
  | [29, 40, 78] => s.effects data                                          -- GS ( N
  | [27, 116] => { s with codeTable := n }                                  -- ESC t n
  | [27, 82] => { s with characterSet := n }                                -- ESC R n
  | [27, 97] => { s with justify := justifyOf n }                           -- ESC a n
  | [27, 50] => { s with lineSpacing := 24 }                                -- ESC 2
  | [27, 51] => { s with lineSpacing := if data = [] then 24 else n }       -- ESC 3 n
  | [29, 104] => { s with barcodeHeight := n }                              -- GS h n
  | [29, 119] => { s with barcodeWidth := if 2 ≤ n ∧ n ≤ 6 then n else s.barcodeWidth } -- GS w n
  | [29, 102] => { s with barcodeFont := fontOf n }                         -- GS f n
  | [29, 72] => { s with hri := hriOf n }                                   -- GS H n
  | [29, 40, 76, _, _, _, fn] => s.graphics fn data                         -- GS ( L
  | [29, 56, 76, _, _, _, _, _, fn] => s.graphics fn data                   -- GS 8 L
  | _ => s

/-- The commands that this program treats differently from the reference:
`ESC !` takes the underline from bit 6 instead of bit 7, `ESC G` with an even parameter leaves a single strike-through when
double-strike is on, `GS B` compares its parameter with 1 instead of looking at its lowest bit, `GS w` with 0 or 1 sets 2
instead of being ignored, and `GS ( N` with parameters other than those of the reference. -/
def Style.deviates (s : Style) (opcode data : List Byte) : Prop :=
  let n := param data 0
  match opcode with
  | [27, 33] => bit 6 n ≠ bit 7 n
  | [27, 71] => s.doubleStrike = true ∧ isOn n = false
  | [29, 66] => isOn n = true ∧ n ≠ 1
  | [29, 119] => n < 2
  | [29, 40, 78] =>
    match data with
    | [_, _, 48, m] => ¬ (49 ≤ m.toNat ∧ m.toNat ≤ 51)
    | [_, _, 49, m] => ¬ (49 ≤ m.toNat ∧ m.toNat ≤ 51)
    | [_, _, 50, m, a] => ¬ (49 ≤ m.toNat ∧ m.toNat ≤ 51 ∧ (a.toNat = 48 ∨ a.toNat = 49))
    | _ => True
  | _ => False

instance (s : Style) (op data : List Byte) : Decidable (s.deviates op data) := by
  unfold Style.deviates
  dsimp only
  split <;> (try split) <;> infer_instance

/-- The style after a list of commands. -/
def Style.after (s : Style) (cmds : List Command) : Style := cmds.foldl (fun s c => s.step c.commands c.data) s

/-- No command of the list is treated differently from the reference. -/
def Style.conforms (s : Style) : List Command → Prop
  | [] => True
  | c :: cs => ¬ s.deviates c.commands c.data ∧ (s.step c.commands c.data).conforms cs

instance Style.decideConforms : (s : Style) → (cmds : List Command) → Decidable (s.conforms cmds)
  | _, [] => .isTrue trivial
  | s, c :: cs => @instDecidableAnd _ _ inferInstance (decideConforms (s.step c.commands c.data) cs)

/-- The style settings of a context. -/
def styleOf (c : Context) : Style where
  codeTable := c.text.codeTable.toNat
  characterSet := c.text.characterSet.toNat
  font := c.text.font
  bold := c.text.bold
  italic := c.text.italic
  underline := c.text.underline
  doubleStrike := match c.text.strikethrough with | .off => false | _ => true
  reversed := c.text.invert
  upsideDown := c.text.upsideDown
  smoothing := c.text.smoothing
  widthTimes := c.text.widthMult.toNat
  heightTimes := c.text.heightMult.toNat
  justify := c.text.justify
  lineSpacing := c.text.lineSpacing.toNat
  color := c.text.color
  background := c.text.backgroundColor
  shadowColor := c.text.shadowColor
  shadow := c.text.shadow
  hri := c.barcode.humanReadable
  barcodeHeight := c.barcode.height.toNat
  barcodeWidth := c.barcode.width.toNat
  barcodeFont := c.barcode.font
  dotsPerInch := c.graphics.dotsPerInch

end Thermal.Spec
