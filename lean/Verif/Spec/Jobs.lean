import Verif.Model.Command
/-
Print jobs: how many documents a sequence of opcodes prints.
-/
namespace Thermal.Spec

/-- Is the printer in page mode after a command? `ESC L` enters it; `ESC S` and `FF` leave it. -/
def pageModeAfter (on : Bool) (opcode : List Byte) : Bool :=
  if opcode = [0x1B, 0x4C] then true
  else if opcode = [0x1B, 0x53] ∨ opcode = [0x0C] then false
  else on

/-- The number of form feeds executed in standard mode. -/
def formFeeds (on : Bool) : List (List Byte) → Nat
  | [] => 0
  | opcode :: rest => (if opcode = [0x0C] ∧ on = false then 1 else 0) + formFeeds (pageModeAfter on opcode) rest

end Thermal.Spec
