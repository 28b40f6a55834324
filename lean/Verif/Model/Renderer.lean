import Verif.Model.Apply
import Verif.Model.Parser
/-
Model of thermal_renderer/src/renderer.rs.

An output renderer (`dyn OutputRenderer<Output>`) is a state `σ` with the methods of the trait.  The trait hands out
`&mut Context`, but neither of the two output renderers of the crate (image_renderer/mod.rs, html_renderer/mod.rs)
assigns to it, so the methods here only read the context.  The `log_debug*` methods only print and are left out.
-/
namespace Thermal

/-- renderer.rs:50-55 -/
inductive RenderErrorKind where
  | childRenderError | graphicsError | unknownCommand
  deriving DecidableEq, Repr

/-- renderer.rs:57-60 -/
structure RenderError where
  kind : RenderErrorKind
  description : Str
  deriving DecidableEq, Repr

/-- renderer.rs:586-644 `trait OutputRenderer` without `set_debug_profile`.  The graphics of `render_graphics` are
`VectorGraphic::Rectangle`s (graphics.rs:105-108 has no other variant). -/
structure OutputRenderer (σ Out : Type) where
  beginRender : Context → σ → Rs σ
  pageBegin : Context → σ → Rs σ
  pageAreaChanged : Context → Rotation → Nat → Nat → σ → Rs σ
  pageEnd : Context → σ → Rs σ
  renderPage : Context → σ → Rs σ
  renderGraphics : Context → List Rectangle → σ → Rs σ
  renderImage : Context → Image → σ → Rs σ
  renderText : Context → List TextSpan → Nat → Nat → TextJustify → σ → Rs σ
  deviceCommand : Context → DeviceCommand → σ → Rs σ
  getRenderErrors : σ → σ × List Str
  endRender : Context → σ → Rs (σ × Out)

/-- renderer.rs:68-75 `struct Renderer` without the debug profile. -/
structure Renderer (σ Out : Type) where
  child : σ
  outputBuffer : List Out
  errorBuffer : List RenderError
  spanBuffer : List TextSpan
  context : Context

/-- command.rs:200-205 `debug`, the default; it is used as the text of an error only for unknown commands, whose
handler does not override it. -/
def debugText (cmd : Command) : Str :=
  if cmd.data = [] then cmd.name.toList
  else cmd.name.toList ++ " [".toList ++ ((cmd.data.map hex02).intersperse ", ".toList).flatten ++ "]".toList

/-! ### Text layout -/

/-- The variables of the loop of `process_text` (renderer.rs:444-446). -/
structure Layout where
  context : Context
  lines : List (List TextSpan)
  currentLine : List TextSpan

/-- renderer.rs:474-481: the first tab stop at or after `x`, searched from `pos`. -/
def tabStop (cw x : Nat) : List Byte → Nat → Rs (Option Nat)
  | [], _ => .ok none
  | t :: rest, pos =>
    if pos ≥ x then .ok (some pos)
    else do tabStop cw x rest (← addU32 pos (← mulU32 t.toNat cw))

/-- renderer.rs:457-459, 510-515, 521-523: advance below the current line and close it. -/
def Layout.finishLine (l : Layout) : Rs Layout := do
  let c ← l.context.newlineForSpans l.currentLine
  pure ⟨c, l.lines ++ [l.currentLine], []⟩

/-- renderer.rs:499-517: the loop over the parts of a broken word. -/
def layoutBroken : List TextSpan → Layout → Rs Layout
  | [], l => .ok l
  | [b], l => do
    let b ← b.getDimensions l.context
    let c ← l.context.offsetX (← b.getWidth)
    pure { l with context := c, currentLine := l.currentLine ++ [b] }
  | b :: rest, l => do
    let b ← b.getDimensions l.context
    let l ← ({ l with currentLine := l.currentLine ++ [b] } : Layout).finishLine
    layoutBroken rest l

/-- renderer.rs:449-533: the body of the loop over the words; `maxWidth` was read before the loop. -/
def layoutWord (maxWidth : Nat) (l : Layout) (word : TextSpan) : Rs Layout := do
  let availWidth := l.context.availableWidth
  let wordWidth ← word.getWidth
  if word.text = ['\n'] then do
    let l ← l.finishLine
    pure { l with lines := l.lines ++ [[]] }
  else if word.text = ['\t'] then do
    match ← tabStop word.characterWidth l.context.getX l.context.text.tabs 0 with
    | some pos => do
      let c ← l.context.setX pos
      pure { l with context := c }
    | none => pure l
  else if wordWidth ≤ availWidth then do
    let w ← word.getDimensions l.context
    let c ← l.context.offsetX wordWidth
    pure { l with context := c, currentLine := l.currentLine ++ [w] }
  else if wordWidth > maxWidth then do
    let first ← divU availWidth word.characterWidth
    let len ← divU maxWidth word.characterWidth
    let broken ← word.breakApart first (max len word.characterWidth)
    layoutBroken broken l
  else do
    let l ← l.finishLine
    let w ← word.getDimensions l.context
    let c ← l.context.offsetX wordWidth
    pure { l with context := c, currentLine := l.currentLine ++ [w] }

/-- renderer.rs:447-533: the loop over the words. -/
def layoutWords (maxWidth : Nat) : List TextSpan → Layout → Rs Layout
  | [], l => .ok l
  | w :: ws, l => do layoutWords maxWidth ws (← layoutWord maxWidth l w)

/-- renderer.rs:435-537: the words of the spans, laid out; the lines and the context afterwards. -/
def layoutText (spans : List TextSpan) (c : Context) : Rs (Context × List (List TextSpan)) := do
  let l ← layoutWords c.getWidth (spans.flatMap TextSpan.breakIntoWords) ⟨c, [], []⟩
  pure (l.context, if l.currentLine = [] then l.lines else l.lines ++ [l.currentLine])

/-- renderer.rs:551-553: the width of a line. -/
def lineWidth : List TextSpan → Nat → Rs Nat
  | [], w => .ok w
  | s :: rest, w => do lineWidth rest (← addU32 w (← s.getWidth))

/-- renderer.rs:549, 553: the height of a line. -/
def lineHeight (line : List TextSpan) : Nat := line.foldl (fun h s => max h s.characterHeight) 0

/-- renderer.rs:546-566: the x offset that justifies a line of width `w`. -/
def lineOffset (j : TextJustify) (maxWidth w : Nat) : Rs Nat :=
  match j with
  | .right => subU maxWidth w
  | .center => .ok (if w < maxWidth then (maxWidth - w) / 2 else 0)
  | .left => .ok 0

namespace Renderer
variable {σ Out : Type} (R : OutputRenderer σ Out)

/-- renderer.rs:540-580: hand one line to the output renderer. -/
def renderLine (r : Renderer σ Out) (line : List TextSpan) : Rs (Renderer σ Out) :=
  match line with
  | [] => .ok r
  | first :: _ => do
    let w ← lineWidth line 0
    let off ← lineOffset first.justify r.context.getWidth w
    let s ← R.renderText r.context line off (lineHeight line) first.justify r.child
    pure { r with child := s }

/-- renderer.rs:540-580: the loop over the lines. -/
def renderLines : List (List TextSpan) → Renderer σ Out → Rs (Renderer σ Out)
  | [], r => .ok r
  | l :: ls, r => do renderLines ls (← renderLine R r l)

/-- renderer.rs:425-427 `collect_text` -/
def collectText (r : Renderer σ Out) (t : TextSpan) : Renderer σ Out := { r with spanBuffer := r.spanBuffer ++ [t] }

/-- renderer.rs:429-581 `process_text` -/
def processText (r : Renderer σ Out) : Rs (Renderer σ Out) :=
  if r.spanBuffer = [] then .ok r
  else do
    let (c, lines) ← layoutText r.spanBuffer r.context
    renderLines R lines { r with spanBuffer := [], context := c }

/-- renderer.rs:114-116 `log_error` -/
def logError (r : Renderer σ Out) (k : RenderErrorKind) (d : Str) : Renderer σ Out :=
  { r with errorBuffer := r.errorBuffer ++ [⟨k, d⟩] }

/-- renderer.rs:315-318: start a row before module `i` (counted from 1) where one starts. -/
def code2dRow (q : Code2D) (originX i : Nat) (c : Context) : Rs Context :=
  if i = 1 then .ok c
  else if q.width = 0 then .error .divZero
  else if i % q.width = 1 then do
    let c ← c.setX originX
    c.offsetY q.pointHeight
  else .ok c

/-- renderer.rs:314-336: the loop over the modules of a 2D code; `i` counts the modules from 1.  (`i` is a u32; a code
with 2^32 modules does not occur.) -/
def code2dLoop (q : Code2D) (originX : Nat) : List Byte → Nat → Context → List Rectangle → Rs (Context × List Rectangle)
  | [], _, c, acc => .ok (c, acc)
  | p :: rest, i, c, acc => do
    let c ← code2dRow q originX i c
    if p > 0 then
      if c.availableWidth < q.pointWidth then code2dLoop q originX rest i c acc
      else do
        let acc := acc ++ [⟨c.getX, c.getY, q.pointWidth, q.pointHeight⟩]
        let c ← c.offsetX q.pointWidth
        code2dLoop q originX rest (i + 1) c acc
    else do
      let c ← c.offsetX q.pointWidth
      code2dLoop q originX rest (i + 1) c acc

/-- renderer.rs:306-341 `process_code_2d` -/
def processCode2d (r : Renderer σ Out) (q : Code2D) : Rs (Renderer σ Out) := do
  let originX := r.context.justification (← mulU32 q.width q.pointWidth)
  let c ← r.context.setX originX
  let (c, gs) ← code2dLoop q originX q.points 1 c []
  let c := c.resetX
  let s ← R.renderGraphics c gs r.child
  pure { r with child := s, context := c }

/-- renderer.rs:360-376: the loop over the modules of a barcode. -/
def barcodeLoop (b : Barcode) : List Byte → Context → List Rectangle → Rs (Context × List Rectangle)
  | [], c, acc => .ok (c, acc)
  | p :: rest, c, acc =>
    if p > 0 ∧ c.availableWidth < b.pointWidth.toNat then barcodeLoop b rest c acc
    else do
      let acc := if p > 0 then acc ++ [⟨c.getX, c.getY, b.pointWidth.toNat, b.pointHeight.toNat⟩] else acc
      let c ← c.offsetX b.pointWidth.toNat
      barcodeLoop b rest c acc

/-- renderer.rs:347-350, 385-389: print the text of a barcode. -/
def barcodeText (r : Renderer σ Out) (b : Barcode) : Rs (Renderer σ Out) := do
  let r ← processText R (r.collectText b.text)
  let c ← r.context.newline 1
  pure { r with context := c }

/-- renderer.rs:355-381: draw the bars. -/
def barcodeBars (r : Renderer σ Out) (b : Barcode) : Rs (Renderer σ Out) := do
  let w ← mulU32 b.points.length b.pointWidth.toNat
  let c ← r.context.setX (r.context.justification w)
  let (c, gs) ← barcodeLoop b b.points c []
  let s ← R.renderGraphics c gs r.child
  let c ← c.resetX.offsetY b.pointHeight.toNat
  pure { r with child := s, context := c }

/-- renderer.rs:346-353: the text above the bars. -/
def barcodeAbove (r : Renderer σ Out) (b : Barcode) : Rs (Renderer σ Out) :=
  if r.context.barcode.humanReadable = .above ∨ r.context.barcode.humanReadable = .both then barcodeText R r b else .ok r

/-- renderer.rs:383-391: the text below the bars. -/
def barcodeBelow (r : Renderer σ Out) (b : Barcode) : Rs (Renderer σ Out) :=
  if r.context.barcode.humanReadable = .below ∨ r.context.barcode.humanReadable = .both then do
    let c ← r.context.offsetY 8
    barcodeText R { r with context := c } b
  else .ok r

/-- renderer.rs:343-393 `process_barcode` -/
def processBarcode (r : Renderer σ Out) (b : Barcode) : Rs (Renderer σ Out) := do
  let r ← barcodeAbove R r b
  let r ← barcodeBars R r b
  barcodeBelow R r b

/-- renderer.rs:398-410: where an image goes. -/
def imageBefore (c : Context) (image : Image) : Rs Context :=
  match image.flow with
  | .inline => if image.w > c.availableWidth then c.newline 1 else pure c
  | .block => if c.pageMode.enabled then pure c else c.setX (c.justification image.w)
  | .none => pure c

/-- renderer.rs:416-427: the pen after an image. -/
def imageAfter (c : Context) (image : Image) : Rs Context :=
  match image.flow with
  | .inline => c.offsetX image.w
  | .block => if c.pageMode.enabled then pure c else do
    let c ← c.offsetY image.h
    pure c.resetX
  | .none => pure c

/-- renderer.rs:395-428 `process_image` -/
def processImage (r : Renderer σ Out) (image : Image) : Rs (Renderer σ Out) := do
  let c ← imageBefore r.context image
  let image := { image with x := c.getX, y := c.getY }
  let s ← R.renderImage c image r.child
  let c ← imageAfter c image
  pure { r with child := s, context := c }

/-- `n as u32` of an i16 -/
def asU32 (n : Int) : Nat := (n % U32).toNat

/-- renderer.rs:279-292: apply the logical area and tell the output renderer. -/
def pageAreaChanged (r : Renderer σ Out) : Rs (Renderer σ Out) := do
  let (p, rotation, w, h) ← r.context.pageMode.applyLogicalArea
  let c := { r.context with pageMode := p }
  let s ← R.pageAreaChanged c rotation w h r.child
  pure { r with child := s, context := c }

/-- renderer.rs:226-301: one device command. -/
def deviceCommand (r : Renderer σ Out) (d : DeviceCommand) : Rs (Renderer σ Out) := do
  let s ← R.deviceCommand r.context d r.child
  let r := { r with child := s }
  let c := r.context
  match d with
  | .setTextWidth w => pure { r with context := c.modText fun t => { t with widthMult := w } }
  | .setTextHeight h => pure { r with context := c.modText fun t => { t with heightMult := h } }
  | .justify j => pure { r with context := c.modText fun t => { t with justify := j } }
  | .beginPrint => do
    let c ← c.newline 2
    let s ← R.beginRender c r.child
    pure { r with child := s, context := c }
  | .endPrint => do
    let (s, errors) := R.getRenderErrors r.child
    let (s, out) ← R.endRender c s
    pure { r with child := s, errorBuffer := r.errorBuffer ++ errors.map (⟨.childRenderError, ·⟩), outputBuffer := r.outputBuffer ++ [out] }
  | .feedLine n => do
    let c ← c.newline (asU32 n)
    pure { r with context := c }
  | .feed n => do
    let c ← c.feed (asU32 n)
    pure { r with context := c }
  | .fullCut | .partialCut => do
    let c ← c.newline 2
    pure { r with context := c }
  | .beginPageMode => do
    let c := c.modPage fun p => { p with enabled := true }
    let s ← R.pageBegin c r.child
    pure { r with child := s, context := c }
  | .endPageMode => do
    let s ← R.pageEnd c r.child
    pure { r with child := s, context := c.modPage fun p => { p with enabled := false } }
  | .printPageMode => do
    let s ← R.renderPage c r.child
    let y ← addU32 c.graphics.renderArea.y c.pageMode.pageArea.h
    pure { r with child := s, context := c.modGraphics fun g => { g with renderArea := { g.renderArea with y := y, x := 0 } } }
  | .changePageArea =>
    pageAreaChanged R { r with context := c.modPage fun p => { p with previousDirection := p.direction } }
  | .changePageModeDirection => pageAreaChanged R r
  | .changeTabs n k => pure { r with context := c.setTabLen n k }
  | .clearBufferGraphics => pure { r with context := c.modGraphics fun g => { g with bufferGraphics := [] } }
  | _ => pure r

/-- renderer.rs:219-304 `process_device_commands` -/
def deviceCommands : List DeviceCommand → Renderer σ Out → Rs (Renderer σ Out)
  | [], r => .ok r
  | d :: ds, r => do deviceCommands ds (← deviceCommand R r d)

/-- renderer.rs:158-174: what is done with the graphics of a command. -/
def processGraphics (r : Renderer σ Out) (g : GraphicsCommand) : Rs (Renderer σ Out) :=
  match g with
  | .error e => pure (r.logError .graphicsError e.toList)
  | .code2d q => processCode2d R r q
  | .barcode b => processBarcode R r b
  | .image i => processImage R r i
  | .rectangle _ => pure r

/-- renderer.rs:157-175: `if let Some(gfx)` -/
def processGraphicsOpt (r : Renderer σ Out) (g : Option GraphicsCommand) : Rs (Renderer σ Out) :=
  match g with
  | some g => processGraphics R r g
  | none => .ok r

/-- renderer.rs:143-217 `process_command` -/
def processCommand (ext : Ext) (r : Renderer σ Out) (cmd : Command) : Rs (Renderer σ Out) :=
  match cmd.kind with
  | .unknown => do
    let r ← processText R r
    pure (r.logError .unknownCommand (debugText cmd))
  | .text => do
    match ← getText cmd r.context with
    | some t => pure (r.collectText t)
    | none => pure r
  | .graphics => do
    let r ← processText R r
    let r ← processGraphicsOpt R r (← getGraphics ext cmd r.context)
    deviceCommands R ((← getDevice cmd r.context).getD []) r
  | .context => do
    let r ← processText R r
    let c ← applyContext ext cmd r.context
    pure { r with context := c }
  | .contextControl => do
    let r ← processText R r
    let c ← applyContext ext cmd r.context
    let r := { r with context := c }
    deviceCommands R ((← getDevice cmd r.context).getD []) r
  | .control => do
    let ds ← getDevice cmd r.context
    let r ← processText R r
    deviceCommands R (ds.getD []) r
  | .textStyle => do
    let c ← applyContext ext cmd r.context
    let r := { r with context := c }
    deviceCommands R ((← getDevice cmd r.context).getD []) r
  | .subcommand => pure r

/-- renderer.rs:124-130: the loop over the commands. -/
def processCommands (ext : Ext) : List Command → Renderer σ Out → Rs (Renderer σ Out)
  | [], r => .ok r
  | cmd :: cmds, r => do processCommands ext cmds (← processCommand R ext r cmd)

/-- renderer.rs:78-90 `Renderer::new` -/
def new (s : σ) : Renderer σ Out := ⟨s, [], [], [], Context.new⟩

/-- renderer.rs:118-140 `render`: the outputs and the errors, and the renderer afterwards. -/
def render (ext : Ext) (r : Renderer σ Out) (bytes : List Byte) : Rs (List Out × List RenderError × Renderer σ Out) := do
  let cmds ← parseEscPos bytes
  let r ← processCommands R ext cmds r
  pure (r.outputBuffer, r.errorBuffer, { r with outputBuffer := [], errorBuffer := [] })

end Renderer
end Thermal
