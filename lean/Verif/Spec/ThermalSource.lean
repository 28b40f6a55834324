import Verif.Spec.Account
import Verif.Spec.ThermalFile
import Verif.Model.Parser
/-
Which commands can be written as .thermal source and what bytes they stand for.
-/
namespace Thermal.Spec

/-- The bytes a command stands for: opcode and parameters; for an unknown byte sequence just the bytes (its
"opcode" is only a list of marker bytes). -/
def source (c : Command) : List Byte :=
  if c.kind = .unknown then c.getCommandBytes.2 else c.getCommandBytes.1 ++ c.getCommandBytes.2

/-- Commands whose .thermal form is faithful. -/
inductive Writable (c : Command) : Prop where
  /-- any command that is neither text nor unknown -/
  | command (h1 : c.kind ≠ .text) (h2 : c.kind ≠ .unknown) (h3 : '\n' ∉ c.name.toList)
  /-- a non-empty unknown byte sequence -/
  | unknown (h1 : c.kind = .unknown) (h2 : c.getCommandBytes.2 ≠ [])
  /-- line feed -/
  | lineFeed (h1 : c.kind = .text) (h2 : c.getCommandBytes = ([LF], []))
  /-- text in valid UTF-8 without quotes, backslashes and line breaks -/
  | text (t : Str) (h1 : c.kind = .text) (h2 : c.getCommandBytes = ([], t.flatMap String.utf8EncodeChar))
      (h3 : '"' ∉ t) (h4 : '\\' ∉ t) (h5 : '\n' ∉ t)

end Thermal.Spec
