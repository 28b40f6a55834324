import Verif.Model.Renderer
/-
The simplest output renderer and encoders, for concrete examples.
-/
namespace Thermal

/-- An output renderer that draws nothing. -/
def silent : OutputRenderer Unit Unit where
  beginRender _ s := .ok s
  pageBegin _ s := .ok s
  pageAreaChanged _ _ _ _ s := .ok s
  pageEnd _ s := .ok s
  renderPage _ s := .ok s
  renderGraphics _ _ s := .ok s
  renderImage _ _ s := .ok s
  renderText _ _ _ _ _ s := .ok s
  deviceCommand _ _ s := .ok s
  getRenderErrors s := (s, [])
  endRender _ s := .ok (s, ())

/-- Encoders that reject everything. -/
def noExt : Ext := ⟨fun _ _ => .error [], fun _ _ _ => none⟩

end Thermal
