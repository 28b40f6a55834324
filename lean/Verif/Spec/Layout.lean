import Verif.Spec.Trace
/-
Where laid-out text is.
-/
namespace Thermal

/-- The spans of a line have their own size, the same `y`, and lie next to one another from left to right. -/
def LineAt (line : List TextSpan) (y : Nat) : Prop :=
  (∀ s ∈ line, ∃ d, s.dimensions = some d ∧ d.y = y ∧ d.w = s.text.length * s.characterWidth ∧ d.h = s.characterHeight) ∧
  line.Pairwise (fun a b => ∀ da ∈ a.dimensions, ∀ db ∈ b.dimensions, da.x + da.w ≤ db.x)

/-- Each span of the second line is below the whole first line. -/
def Below (a b : List TextSpan) : Prop :=
  ∀ s ∈ a, ∀ d ∈ s.dimensions, ∀ t ∈ b, ∀ e ∈ t.dimensions, d.y + lineHeight a ≤ e.y

/-- A line feed or a tab. -/
def isControl (c : Char) : Bool := c == '\n' || c == '\t'

end Thermal
