import Verif.Model.Apply
/-
The QR symbol that `GS ( k 49 81` prints, after any history of commands.  Written from the history, without reference to the
handlers.  The encoder is a parameter.
-/
namespace Thermal.Spec

/-- What a command means for QR codes. -/
inductive QrOp where
  /-- ESC @ -/
  | reset
  /-- function 65 -/
  | model (n : Byte)
  /-- function 67 -/
  | size (n : Byte)
  /-- function 69 -/
  | level (n : Byte)
  /-- function 80: everything after the function number -/
  | store (payload : List Byte)
  | other
  deriving DecidableEq

/-- The meaning of a command, by its opcode (for `GS ( k`: with its header `pL pH 49 fn`) and its parameters. -/
def qrOp (opcode data : List Byte) : QrOp :=
  match opcode with
  | [27, 64] => .reset
  | [29, 40, 107, _, _, 49, fn] =>
    match fn.toNat with
    | 65 => .model (data.getD 0 49)
    | 67 => .size (data.getD 0 1)
    | 69 => .level (data.getD 0 48)
    | 80 => .store data
    | _ => .other
  | _ => .other

/-- The number of bytes that the versions 1 to 40 of QR codes hold at level L (ISO/IEC 18004). -/
def qrCapacity : List Nat :=
  [17, 32, 53, 78, 106, 134, 154, 192, 230, 271, 321, 367, 425, 458, 520, 586, 644, 718, 792, 858,
   929, 1003, 1091, 1171, 1273, 1367, 1465, 1528, 1628, 1732, 1840, 1952, 2068, 2188, 2303, 2431, 2563, 2699, 2809, 2953]

/-- The number of versions of a model. -/
def qrVersions : QrModel → Nat
  | .model1 => 14
  | .model2 => 40
  | .micro => 4

/-- The smallest version of a model that holds n bytes, else the largest. -/
def qrVersion (model : QrModel) (n : Nat) : Nat :=
  (((List.range (qrVersions model)).find? fun v => n ≤ qrCapacity.getD v 0).map (· + 1)).getD (qrVersions model)

/-- The encoder's name of a version. -/
def qrKind (model : QrModel) (v : Nat) : QrVersion :=
  match model with
  | .micro => .micro v
  | _ => .normal v

/-- A symbol: its modules row by row, the number of modules of a row, the side of a module in dots. -/
structure QrSymbol where
  modules : List Bool
  width : Nat
  size : Nat

/-- The settings and the symbol. -/
structure Qr where
  model : QrModel
  size : Nat
  level : QrErrorCorrection
  symbol : Option QrSymbol

/-- After power on, or ESC @. -/
def Qr.initial : Qr := ⟨.model1, 3, .L, none⟩

/-- The effect of one command: the settings are kept for the symbols stored later; a symbol that can be encoded replaces the one
before. -/
def Qr.step (ext : Ext) (q : Qr) : QrOp → Qr
  | .reset => .initial
  | .model n => { q with model := if n = 50 then .model2 else if n = 51 then .micro else .model1 }
  | .size n => { q with size := n.toNat }
  | .level n => { q with level := if n = 1 then .M else if n = 2 then .Q else if n = 3 then .H else .L }
  | .store payload =>
    match ext.qr payload (qrKind q.model (qrVersion q.model payload.length)) q.level with
    | some (modules, width) => { q with symbol := some ⟨modules, width, q.size⟩ }
    | none => q
  | .other => q

/-- After a history of commands (oldest first). -/
def Qr.after (ext : Ext) (history : List QrOp) : Qr := history.foldl (Qr.step ext) .initial

/-- The squares of a symbol whose upper left corner is at (x, y): one for each dark module. -/
def QrSymbol.squares (s : QrSymbol) (x y : Nat) : List Rectangle :=
  (List.range s.modules.length).filterMap fun i =>
    if s.modules.getD i false then some ⟨x + i % s.width * s.size, y + i / s.width * s.size, s.size, s.size⟩ else none

end Thermal.Spec
