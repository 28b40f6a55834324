import Verif.Model.Renderer
/-
The calls a renderer makes to its output renderer, as data.
-/
namespace Thermal

/-- One call of an output renderer method. -/
inductive Call where
  | beginRender | pageBegin | pageAreaChanged (r : Rotation) (w h : Nat) | pageEnd | renderPage
  | graphics (gs : List Rectangle) | image (i : Image)
  | text (spans : List TextSpan) (xOffset maxHeight : Nat) (justify : TextJustify)
  | device (d : DeviceCommand) | endRender
  deriving DecidableEq, Repr

/-- The output renderer that only writes down the calls, each with the context it was given. -/
def recorder : OutputRenderer (List (Context × Call)) Unit where
  beginRender c s := .ok (s ++ [(c, .beginRender)])
  pageBegin c s := .ok (s ++ [(c, .pageBegin)])
  pageAreaChanged c r w h s := .ok (s ++ [(c, .pageAreaChanged r w h)])
  pageEnd c s := .ok (s ++ [(c, .pageEnd)])
  renderPage c s := .ok (s ++ [(c, .renderPage)])
  renderGraphics c gs s := .ok (s ++ [(c, .graphics gs)])
  renderImage c i s := .ok (s ++ [(c, .image i)])
  renderText c l o m j s := .ok (s ++ [(c, .text l o m j)])
  deviceCommand c d s := .ok (s ++ [(c, .device d)])
  getRenderErrors s := (s, [])
  endRender c s := .ok (s ++ [(c, .endRender)], ())

/-- Make a recorded call to an output renderer; an output is appended to `outs`, errors are dropped. -/
def Call.perform {σ Out : Type} (R : OutputRenderer σ Out) (x : Context × Call) (s : σ × List Out) : Rs (σ × List Out) :=
  match x.2 with
  | .beginRender => do .ok (← R.beginRender x.1 s.1, s.2)
  | .pageBegin => do .ok (← R.pageBegin x.1 s.1, s.2)
  | .pageAreaChanged r w h => do .ok (← R.pageAreaChanged x.1 r w h s.1, s.2)
  | .pageEnd => do .ok (← R.pageEnd x.1 s.1, s.2)
  | .renderPage => do .ok (← R.renderPage x.1 s.1, s.2)
  | .graphics gs => do .ok (← R.renderGraphics x.1 gs s.1, s.2)
  | .image i => do .ok (← R.renderImage x.1 i s.1, s.2)
  | .text l o m j => do .ok (← R.renderText x.1 l o m j s.1, s.2)
  | .device d => do .ok (← R.deviceCommand x.1 d s.1, s.2)
  | .endRender => do
    let (s', out) ← R.endRender x.1 (R.getRenderErrors s.1).1
    .ok (s', s.2 ++ [out])

/-- Make a list of recorded calls. -/
def replay {σ Out : Type} (R : OutputRenderer σ Out) : List (Context × Call) → σ × List Out → Rs (σ × List Out)
  | [], s => .ok s
  | x :: xs, s => do replay R xs (← Call.perform R x s)

/-- The spans handed over by a call. -/
def Call.spans : Call → List TextSpan
  | .text l _ _ _ => l
  | _ => []

/-- The rectangles handed over by a call. -/
def Call.rectangles : Call → List Rectangle
  | .graphics gs => gs
  | _ => []

/-- The characters of a span, each with its style. -/
def TextSpan.styled (s : TextSpan) : List (Char × TextSpan) := s.text.map (fun c => (c, { s with text := [], dimensions := none }))

end Thermal
