import Verif.Model.Parser
/-
Vocabulary used by the statements about the parser.
-/
namespace Thermal

/-- The parsers a user can hold: a new one, or one that has been used for any number of earlier
`parse_bytes` calls (that returned). -/
inductive UserParser : Parser → Prop where
  | new : UserParser (Parser.new escPos)
  | used {p q : Parser} {bytes : List Byte} {cmds : List Command} :
      UserParser p → p.parseBytes bytes = .ok (cmds, q) → UserParser q

/-- Is this the Begin Print marker? -/
def Command.isBegin (c : Command) : Prop := c.handler = .unit .beginPrint
/-- Is this the End Print marker? -/
def Command.isEnd (c : Command) : Prop := c.handler = .unit .endPrint

instance (c : Command) : Decidable c.isBegin := inferInstanceAs (Decidable (_ = _))
instance (c : Command) : Decidable c.isEnd := inferInstanceAs (Decidable (_ = _))

/-- The parameter count of a fixed-size data type, from the ESC/POS data kinds. -/
def fixedCount : DataType → Option Nat
  | .empty => some 0
  | .single => some 1
  | .double => some 2
  | .triple => some 3
  | .quad => some 4
  | .octet => some 8
  | .text | .custom | .subcommand | .unknown => none

end Thermal
