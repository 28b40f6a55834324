import Verif.Spec.Image
import Verif.Model.Apply
/-
The graphics memory of the printer as seen from the commands sent to it.
-/
namespace Thermal

/-- The function number of a `GS ( L` or `GS 8 L` command, read off its opcode and header. -/
def graphicsFn (opcode : List Byte) : Option Nat :=
  match opcode with
  | [29, 40, 76, _, _, _, fn] => some fn.toNat
  | [29, 56, 76, _, _, _, _, _, fn] => some fn.toNat
  | _ => none

/-- The two graphics memories. -/
inductive Memory where
  | nv | download
  deriving DecidableEq, Repr

/-- What a command does to the graphics memories. -/
inductive StoreOp where
  | define (m : Memory) (kc1 kc2 : Byte) (data : List Byte)
  | delete (m : Memory) (kc1 kc2 : Byte)
  | deleteAll (m : Memory)
  | reset
  | other
  deriving DecidableEq, Repr

/-- Parameters of "define": `a kc1 kc2 b xL xH yL yH d…`. -/
def defineOp (m : Memory) (data : List Byte) : StoreOp :=
  match data with
  | a :: kc1 :: kc2 :: b :: xl :: xh :: yl :: yh :: d => .define m kc1 kc2 (a :: kc1 :: kc2 :: b :: xl :: xh :: yl :: yh :: d)
  | _ => .other

/-- Parameters of "delete": `kc1 kc2`. -/
def deleteOp (m : Memory) (data : List Byte) : StoreOp :=
  match data with
  | kc1 :: kc2 :: _ => .delete m kc1 kc2
  | _ => .other

/-- The operation a command stands for, by its opcode and its data. -/
def storeOp (cmd : Command) : StoreOp :=
  if cmd.commands = [27, 64] then .reset
  else match graphicsFn cmd.commands with
    | some 65 => .deleteAll .nv
    | some 66 => deleteOp .nv cmd.data
    | some 67 | some 68 => defineOp .nv cmd.data
    | some 81 => .deleteAll .download
    | some 82 => deleteOp .download cmd.data
    | some 83 | some 84 => defineOp .download cmd.data
    | _ => .other

/-- The data last defined for a key of a memory, after a history of operations (oldest first). -/
def lastDefined (m : Memory) (kc1 kc2 : Byte) (history : List StoreOp) : Option (List Byte) :=
  history.foldl (fun cur op =>
    match op with
    | .define m' a b data => if m' = m ∧ a = kc1 ∧ b = kc2 then some data else cur
    | .delete m' a b => if m' = m ∧ a = kc1 ∧ b = kc2 then none else cur
    | .deleteAll m' => if m' = m then none else cur
    | .reset => none
    | .other => cur) none

/-- The graphic a definition stands for: a multi-colour raster image with the header `a kc1 kc2 b xL xH yL yH`.  (The code
decodes definitions in column format, functions 68 and 84, in the same way; see the findings in DESIGN.md.) -/
def Defines (data : List Byte) (g : GraphicsCommand) : Prop :=
  ∃ a kc1 kc2 b xl xh yl yh d, data = a :: kc1 :: kc2 :: b :: xl :: xh :: yl :: yh :: d ∧
    imageFromRasterMulti (xl.toNat + 256 * xh.toNat) (yl.toNat + 256 * yh.toNat) (1, 1) b defaultColors .block d true = .ok g

/-! ### The print buffer -/

/-- What a command does to the print buffer. -/
inductive BufferOp where
  | store (column : Bool) (data : List Byte)
  | empty
  | other
  deriving DecidableEq, Repr

/-- The operation a command stands for, by its opcode and its data. -/
def bufferOp (cmd : Command) : BufferOp :=
  if cmd.commands = [27, 64] then .empty
  else match graphicsFn cmd.commands with
    | some 112 => .store false cmd.data
    | some 113 => .store true cmd.data
    | some 2 | some 50 => .empty
    | _ => .other

/-- What is in the print buffer after a history of operations (oldest first), in the order in which it was stored. -/
def buffered (history : List BufferOp) : List (Bool × List Byte) :=
  history.foldl (fun cur op =>
    match op with
    | .store column data => cur ++ [(column, data)]
    | .empty => []
    | .other => cur) []

/-- The graphic a stored buffer entry stands for: `a bx by c xL xH yL yH d…`, in raster or in column format. -/
def Buffers (e : Bool × List Byte) (g : GraphicsCommand) : Prop :=
  (∃ a bx bY c xl xh yl yh d, e.2 = a :: bx :: bY :: c :: xl :: xh :: yl :: yh :: d ∧
    (if e.1 then imageFromColumn (xl.toNat + 256 * xh.toNat) (yl.toNat + 256 * yh.toNat) (bx, bY) (Spec.ink defaultColors c) .block d
     else imageFromRaster (xl.toNat + 256 * xh.toNat) (yl.toNat + 256 * yh.toNat) (bx, bY) (Spec.ink defaultColors c) .block d true) = .ok g) ∨
  (e.2.length < 4 ∧ ∃ msg, g = .error msg)

/-- What printing the buffer shows: its first error if there is one, nothing if it is empty, else the merged images. -/
def ShowsBuffer (gs : List GraphicsCommand) (shown : Option GraphicsCommand) : Prop :=
  (∃ before msg after, gs = before ++ .error msg :: after ∧ (∀ g ∈ before, ∀ m, g ≠ .error m) ∧ shown = some (.error msg)) ∨
  (gs = [] ∧ shown = none) ∨
  (∃ images, gs = images.map .image ∧ images ≠ [] ∧ ∃ r, mergeLayers images = .ok r ∧
    ((∃ i, r = .ok i ∧ shown = some (.image i)) ∨ ∃ m m', r = .error m ∧ shown = some (.error m')))

end Thermal
