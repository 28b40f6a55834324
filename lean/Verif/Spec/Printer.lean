import Verif.Spec.Typeset
import Verif.Spec.Barcode
import Verif.Spec.Qr
import Verif.Spec.Grid
import Verif.Spec.Image
import Verif.Spec.Drawing
import Verif.Spec.Stored
import Verif.Spec.Stream
import Verif.Spec.Trace
/-
A reference printer: what a stream of items puts on the paper and on pages, and where.  It extends the reference typesetter
(Spec/Typeset) by barcodes, QR codes, raster images, column images, the two graphics memories and the print buffer.  It is written on items, words,
numbers and pictures, without reference to contexts, handlers or the drawing loops of the program.
-/
namespace Thermal.Spec

/-! ### Pictures -/

/-- A picture: its dots row by row; `none` is a dot that is not printed. -/
structure Picture where
  width : Nat
  height : Nat
  dots : List (Option RGBA)
  deriving DecidableEq, Repr

/-- The picture whose dot in column x, row y is `f x y`. -/
def Picture.of (w h : Nat) (f : Nat → Nat → Option RGBA) : Picture := ⟨w, h, (List.range (w * h)).map fun i => f (i % w) (i / w)⟩

/-- The dot in column x, row y. -/
def Picture.dot (p : Picture) (x y : Nat) : Option RGBA := (p.dots.getD (y * p.width + x) none)

/-- A picture of one colour, given by bits, each bit `sx` by `sy` dots large. -/
def Picture.bits (w h sx sy : Nat) (color : RGBA) (bit : Nat → Nat → Bool) : Picture :=
  .of (w * sx) (h * sy) fun x y => if bit (x / sx) (y / sy) then some color else none

/-- Pictures printed over each other: the last one that has a dot there. -/
def Picture.over (first : Picture) (later : List Picture) : Picture :=
  .of first.width first.height fun x y => ((first :: later).filterMap fun p => p.dot x y).getLast?

/-- The planes of a multi-colour definition: each a colour number and the bits of all its dots. -/
def planes (n size : Nat) (data : List Byte) : List (Byte × List Byte) :=
  (List.range n).map fun i => (data.getD (i * (size + 1)) 0, (data.drop (i * (size + 1) + 1)).take size)

/-- A multi-colour picture: of the planes that have a dot somewhere the last one counts. -/
def Picture.planes (w h : Nat) (ps : List (Byte × List Byte)) : Picture :=
  .of w h fun x y => ((ps.filter fun p => rasterBit p.2 w x y).getLast?).map fun p => ink defaultColors p.1

/-! ### Things -/

/-- What is put on the paper: a line of text, a bar or a module, a picture with its upper left corner, upright or not. -/
inductive Thing where
  | line (l : TextLine)
  | box (color : RGBA) (r : Rectangle)
  | picture (x y : Nat) (upright : Bool) (p : Picture)
  deriving DecidableEq, Repr

/-- What a printer does: something is put on the page, or on the paper; a sheet of paper begins with `y` dots of feed, or ends
after `y` dots, in page mode or not; an empty page begins; the page is turned clockwise and then made at least `w` by `h` dots large; the page is put on the paper so that the lines on it run in a direction, its
upper left corner there. -/
inductive Act where
  | put (onPage : Bool) (t : Thing)
  | newSheet (y : Nat)
  | endSheet (onPage : Bool) (y : Nat)
  | newPage
  | setPage (turn : Rotation) (w h : Nat)
  | printPage (x y : Nat) (d : PrintDirection)
  deriving DecidableEq, Repr

/-- How far down the paper printing is, also in page mode. -/
def Desk.paperY (d : Desk) : Nat := if d.onPage then d.kept.2 else d.y

/-- How many quarter turns clockwise the lines of a print direction are turned. -/
def quarters : PrintDirection → Nat
  | .topLeft2Right => 0
  | .topRight2Bottom => 1
  | .bottomRight2Left => 2
  | .bottomLeft2Top => 3

/-- How a page that is looked at so that lines of the direction `a` run from left to right is turned, so that lines of the direction `b` do. -/
def turnTo (a b : PrintDirection) : Rotation :=
  match (quarters a + 4 - quarters b) % 4 with
  | 1 => .R90
  | 2 => .R180
  | 3 => .R270
  | _ => .R0

/-- What a command does with sheets and pages; `before` and `after` it.  (`ESC L` in page mode begins a new page all the same, `FF` in
standard mode ends the document.) -/
def pageActs (before after : Desk) (opcode : List Byte) : List Act :=
  match opcode with
  | [27, 76] => [.newPage]
  | [12] => if before.onPage then [.printPage before.kept.1 before.kept.2 before.page.direction] else [.endSheet false after.y]
  | [27, 12] => if before.onPage then [.printPage before.kept.1 before.kept.2 before.page.direction] else []
  | [27, 87] => [.setPage .R0 after.page.w after.page.h]
  | [27, 84] => [.setPage (turnTo before.page.direction after.page.direction) after.page.w after.page.h]
  | _ => []

/-- The state of the printer: what a printer of text has, the QR code settings, the graphics memories, the print buffer, and all
it has done. -/
structure Press where
  desk : Desk
  qr : Qr
  memory : Memory → Byte → Byte → Option Picture
  buffer : List Picture
  acts : List Act

/-- At the start of a job. -/
def Press.initial : Press := ⟨.initial, .initial, fun _ _ _ => none, [], [.newSheet 108]⟩

/-- A command of text, styles, movements, pages: the characters it sets go on the paper, or on the page. -/
def Press.command (p : Press) (c : Command) : Press :=
  let d := { p.desk with lines := [] }.step c
  { p with
    desk := { d with lines := [] }
    acts := p.acts ++ (d.lines.map fun l => .put p.desk.onPage (.line l)) ++ pageActs p.desk d c.commands }

/-- Such commands. -/
def Press.type (p : Press) (cmds : List Command) : Press := cmds.foldl Press.command p

/-- Set what waits. -/
def Press.flush (p : Press) : Press :=
  let d := { p.desk with lines := [] }.flush
  { p with
    desk := { d with lines := [] }
    acts := p.acts ++ d.lines.map fun l => .put p.desk.onPage (.line l) }

/-- Put things on the paper, or on the page, and go on at another position. -/
def Press.put (p : Press) (ts : List Thing) (x y : Nat) : Press :=
  { p with
    desk := { p.desk with
      x := x
      y := y }
    acts := p.acts ++ ts.map (.put p.desk.onPage) }

/-- A picture on lines of its own: justified; printing goes on below it at the left edge.  In page mode it is put where the position is,
which does not move. -/
def Press.block (p : Press) (pic : Picture) : Press :=
  if p.desk.onPage then p.put [.picture (p.desk.left + p.desk.x) p.desk.y true pic] p.desk.x p.desk.y
  else p.put [.picture (indent p.desk.style.justify p.desk.width pic.width) p.desk.y true pic] 0 (p.desk.y + pic.height)

/-- A picture in the line: at the position, or on the next line if it does not fit; printing goes on at its right. -/
def Press.inline (p : Press) (pic : Picture) : Press :=
  if pic.width ≤ p.desk.width - p.desk.x then p.put [.picture (p.desk.left + p.desk.x) p.desk.y true pic] (p.desk.x + pic.width) p.desk.y
  else p.put [.picture p.desk.left (p.desk.y + p.desk.style.lineSpacing) true pic] pic.width (p.desk.y + p.desk.style.lineSpacing)

/-- The text of a barcode: in the font of `GS f`, in the cell of the text font; then a new line. -/
def Press.caption (p : Press) (text : Str) : Press :=
  let c := typeset p.desk.width p.desk.style.lineSpacing p.desk.tabs p.desk.x p.desk.y
    [(text, { p.desk.style.look with font := p.desk.style.barcodeFont })]
  p.put ((c.lines p.desk.left p.desk.width).map .line) 0 (c.y + p.desk.style.lineSpacing)

/-- The bars of a barcode: justified; printing goes on below at the left edge. -/
def Press.bars (p : Press) (modules : List Byte) : Press :=
  p.put ((Spec.bars p.desk.left (indent p.desk.style.justify p.desk.width (modules.length * p.desk.style.barcodeWidth)) p.desk.y
    p.desk.style.barcodeWidth p.desk.style.barcodeHeight p.desk.width modules).map (.box p.desk.style.color)) 0 (p.desk.y + p.desk.style.barcodeHeight)

/-- A barcode, with its text above or below (8 dots lower) or both. -/
def Press.barcode (p : Press) (modules : List Byte) (text : Str) : Press :=
  let p := if p.desk.style.hri = .above ∨ p.desk.style.hri = .both then p.caption text else p
  let p := p.bars modules
  if p.desk.style.hri = .below ∨ p.desk.style.hri = .both then (p.put [] p.desk.x (p.desk.y + 8)).caption text else p

/-- A QR code: justified.  This program goes on at the left edge beside its last row. -/
def Press.symbol (p : Press) (s : QrSymbol) : Press :=
  p.put ((s.squares (p.desk.left + indent p.desk.style.justify p.desk.width (s.width * s.size)) p.desk.y).map (.box p.desk.style.color)) 0
    (p.desk.y + (s.modules.length - 1) / s.width * s.size)

/-! ### Images -/

/-- The scale of a raster image, `GS v 0 m`. -/
def rasterScale (m : Byte) : Nat × Nat :=
  match digit m.toNat with
  | 1 => (2, 1)
  | 2 => (1, 2)
  | 3 => (2, 2)
  | _ => (1, 1)

/-- `GS v 0`: w bytes by h dots. -/
def rasterPicture (m : Byte) (w h : Nat) (data : List Byte) : Picture :=
  .bits (w * 8) h (rasterScale m).1 (rasterScale m).2 (ink defaultColors 1) (rasterBit data (w * 8))

/-- The size of a dot of `ESC * m`: horizontally single density is two dots wide, vertically 8 dot columns are three dots high. -/
def columnScale (m : Byte) : Nat × Nat :=
  match m.toNat with
  | 0 => (2, 3)
  | 1 => (1, 3)
  | 32 => (2, 1)
  | _ => (1, 1)

/-- `ESC *`: w columns of 8 or 24 dots. -/
def columnPicture (m : Byte) (w : Nat) (data : List Byte) : Picture :=
  .bits w (8 * bytesPerColumn m) (columnScale m).1 (columnScale m).2 (ink defaultColors 1) (columnBit data (8 * bytesPerColumn m))

/-- A number of two bytes. -/
def wide (l h : Byte) : Nat := l.toNat + 256 * h.toNat

/-- The picture of a definition `a kc1 kc2 b xL xH yL yH [c d…]…` in raster format. -/
def definedPicture : List Byte → Option Picture
  | _ :: _ :: _ :: b :: xl :: xh :: yl :: yh :: d =>
    some (.planes (wide xl xh) (wide yl yh) (planes b.toNat (rowBytes (wide xl xh) * wide yl yh) d))
  | _ => none

/-- The picture of buffer data `a bx by c xL xH yL yH d…`, in raster or column format. -/
def bufferPicture (column : Bool) : List Byte → Option Picture
  | _ :: bx :: bY :: c :: xl :: xh :: yl :: yh :: d =>
    some (.bits (wide xl xh) (wide yl yh) bx.toNat bY.toNat (ink defaultColors c)
      (if column then columnBit d (wide yl yh) else rasterBit d (wide xl xh)))
  | _ => none

/-- The memories after an operation. -/
def remember (mem : Memory → Byte → Byte → Option Picture) : StoreOp → Memory → Byte → Byte → Option Picture
  | .define m' a b data => fun m k1 k2 => if m' = m ∧ a = k1 ∧ b = k2 then definedPicture data else mem m k1 k2
  | .delete m' a b => fun m k1 k2 => if m' = m ∧ a = k1 ∧ b = k2 then none else mem m k1 k2
  | .deleteAll m' => fun m k1 k2 => if m' = m then none else mem m k1 k2
  | .reset => fun _ _ _ => none
  | .other => mem

/-- The print buffer after an operation. -/
def collect (buffer : List Picture) : BufferOp → List Picture
  | .store column data => buffer ++ (bufferPicture column data).toList
  | .empty => []
  | .other => buffer

/-! ### Items -/

/-- The function of `GS ( L` / `GS 8 L`, when it prints: the print buffer, or a graphic of a memory. -/
def Press.graphics (p : Press) (it : Item) (fn : Byte) (payload : List Byte) : Press :=
  match fn.toNat, payload with
  | 2, _ | 50, _ =>
    match p.buffer with
    | [] => p.flush
    | first :: later => p.flush.block (.over first later)
  | 69, k1 :: k2 :: _ => (p.memory .nv k1 k2).elim p.flush p.flush.block
  | 69, _ => p.flush
  | 85, k1 :: k2 :: _ => (p.memory .download k1 k2).elim p.flush p.flush.block
  | 85, _ => p.flush
  | _, _ => p.type it.commands

/-- What an item puts on the paper. -/
def Press.print (ext : Ext) (p : Press) (it : Item) : Press :=
  match it with
  | .barcodeA m data => (Spec.barcode ext m data).elim p.flush fun b => p.flush.barcode b.1 b.2
  | .barcodeB m data => (Spec.barcode ext m data).elim p.flush fun b => p.flush.barcode b.1 b.2
  | .raster m w h data => p.flush.block (rasterPicture m w h data)
  | .bitImage m w data => p.flush.inline (columnPicture m w data)
  | .graphics _ fn payload => p.graphics it fn payload
  | .largeGraphics _ fn payload => p.graphics it fn payload
  | .code2d cn fn _ => if cn = 49 ∧ fn = 81 then p.qr.symbol.elim p.flush p.flush.symbol else p.type it.commands
  | _ => p.type it.commands

/-- One item: what it prints, and what is remembered. -/
def Press.step (ext : Ext) (p : Press) (it : Item) : Press :=
  let ops := it.commands.map fun c => (qrOp c.commands c.data, storeOp c, bufferOp c)
  { p.print ext it with
    qr := ops.foldl (fun q o => q.step ext o.1) p.qr
    memory := ops.foldl (fun m o => remember m o.2.1) p.memory
    buffer := ops.foldl (fun b o => collect b o.2.2) p.buffer }

/-- All that the printer does for a job of these items. -/
def printedActs (ext : Ext) (items : List Item) : List Act :=
  let p := (items.foldl (Press.step ext) .initial).flush
  p.acts ++ [.endSheet p.desk.onPage p.desk.paperY]

/-! ### The streams this is about -/

/-- The colours this program prints as they are; colour 3 loses its blue. -/
def trueColor (n : Byte) : Bool := n ≠ 3 ∧ n ≠ 51

/-- A definition in raster format, complete, of whole bytes per row. -/
def completeDefinition : List Byte → Bool
  | _ :: _ :: _ :: b :: xl :: xh :: yl :: yh :: d =>
    wide xl xh % 8 = 0 ∧ 0 < b.toNat ∧ d.length = b.toNat * (rowBytes (wide xl xh) * wide yl yh + 1) ∧
      ∀ l ∈ planes b.toNat (rowBytes (wide xl xh) * wide yl yh) d, trueColor l.1
  | _ => false

/-- Buffer data, complete, at least single size. -/
def completeBuffer (column : Bool) : List Byte → Bool
  | _ :: bx :: bY :: c :: xl :: xh :: yl :: yh :: d =>
    0 < bx.toNat ∧ 0 < bY.toNat ∧ trueColor c ∧
      d.length = if column then rowBytes (wide yl yh) * wide xl xh else rowBytes (wide xl xh) * wide yl yh
  | _ => false

/-- The functions of `GS ( L` / `GS 8 L`: definitions in raster format only, and complete; pictures printed over each other have
the same size; a graphic of a memory is printed in its size. -/
def Press.graphicsFair (p : Press) (fn : Byte) (payload : List Byte) : Prop :=
  match fn.toNat with
  | 67 | 83 => completeDefinition payload
  | 68 | 84 => False
  | 112 => completeBuffer false payload
  | 113 => completeBuffer true payload
  | 2 | 50 => ∀ a ∈ p.buffer, ∀ b ∈ p.buffer, a.width = b.width ∧ a.height = b.height
  | 69 | 85 => payload.drop 2 = [1, 1]
  | _ => True

/-- The text of a barcode can be set as it should (see `Run.sets`). -/
def Press.captionFair (p : Press) (text : Str) : Prop :=
  Run.sets p.desk.left p.desk.width (text, { p.desk.style.look with font := p.desk.style.barcodeFont })

/-- The items that this program prints as documented. -/
def Press.fair (ext : Ext) (p : Press) (it : Item) : Prop :=
  (∀ c ∈ it.commands, (c.kind ≠ .graphics → p.desk.allows c.commands c.data) ∧ ¬ p.desk.style.deviates c.commands c.data ∧
    Run.sets p.desk.left p.desk.width (p.desk.style.textOf c, p.desk.style.look)) ∧
  match it with
  | .barcodeA m data => ¬ barcodeDeviates m data ∧ ∀ b, Spec.barcode ext m data = some b → p.captionFair b.2
  | .barcodeB m data => ¬ barcodeDeviates m data ∧ ∀ b, Spec.barcode ext m data = some b → p.captionFair b.2
  | .raster m _ _ _ => m ≤ 3 ∨ (48 ≤ m ∧ m ≤ 50)
  | .bitImage m _ _ => m = 0 ∨ m = 33
  | .graphics _ fn payload => p.graphicsFair fn payload
  | .largeGraphics _ fn payload => p.graphicsFair fn payload
  | .code2d cn fn payload =>
    (fn = 80 → payload.length < 32768) ∧ (fn = 81 → cn = 49 ∧ ∀ s, p.qr.symbol = some s → 2 ≤ s.width ∧ s.width * s.size ≤ p.desk.width)
  | _ => True

/-- All items of a stream are fair when they come. -/
def Press.fairs (ext : Ext) : Press → List Item → Prop
  | _, [] => True
  | p, it :: its => p.fair ext it ∧ (p.step ext it).fairs ext its

/-! ### What an output renderer is told -/

/-- The picture of an image. -/
def pictureOf (i : Image) : Picture := ⟨i.w, i.h, i.pixels.map fun c => if c.a = 0 then none else some c⟩

/-- The things of a call; bars and modules have the colour of the text. -/
def callThings (x : Context × Call) : List Thing :=
  match x.2 with
  | .text spans off height j => (callLines (.text spans off height j)).map .line
  | .graphics gs => gs.map (.box x.1.text.color)
  | .image i => [.picture i.x i.y (!i.upsideDown) (pictureOf i)]
  | _ => []

/-- What a call is about. -/
def callActs (x : Context × Call) : List Act :=
  match x.2 with
  | .beginRender => [.newSheet x.1.getY]
  | .endRender => [.endSheet x.1.pageMode.enabled x.1.graphics.renderArea.y]
  | .pageBegin => [.newPage]
  | .pageAreaChanged r w h => [.setPage r w h]
  | .renderPage => [.printPage x.1.graphics.renderArea.x x.1.graphics.renderArea.y x.1.pageMode.direction]
  | _ => (callThings x).map (.put x.1.pageMode.enabled)

end Thermal.Spec
