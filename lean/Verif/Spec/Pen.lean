import Verif.Model.Context
/-
The pen position as a part of the context.
-/
namespace Thermal

/-- The context with other pen positions: those of standard mode and of page mode. -/
def Context.withPens (c : Context) (gx gy px py : Nat) : Context :=
  { c with
    graphics := { c.graphics with renderArea := { c.graphics.renderArea with x := gx, y := gy } }
    pageMode := { c.pageMode with renderArea := { c.pageMode.renderArea with x := px, y := py } } }

/-- The contexts differ at most in the pen position of the current mode, and the pen has not moved up. -/
def PenDown (c c' : Context) : Prop :=
  ∃ gx gy px py, c' = c.withPens gx gy px py ∧ c.graphics.renderArea.y ≤ gy ∧ c.pageMode.renderArea.y ≤ py ∧
    (if c.pageMode.enabled then gx = c.graphics.renderArea.x ∧ gy = c.graphics.renderArea.y
      else px = c.pageMode.renderArea.x ∧ py = c.pageMode.renderArea.y)

end Thermal
