import Verif.Spec.Sheets
import Verif.Spec.Html
import Verif.Spec.Css
/-
What a printer does (Spec/Printer), seen in a web browser: for every document one web page.
-/
namespace Thermal.Spec

/-- Something on a document: space at its top, a thing, or a page of page mode with its upper left corner. -/
inductive Shown where
  | space (h : Nat)
  | thing (t : Thing)
  | page (x y : Nat) (p : Page)

/-- A finished document: what is on it, and where it ended: on the paper or in page mode, and how far down the paper. -/
structure WebDoc where
  shown : List Shown
  onPage : Bool
  y : Nat

/-- The state: the page of page mode, what is on the document, and the documents that are finished. -/
structure Web where
  page : Page
  sheet : List Shown
  done : List WebDoc

/-- At first. -/
def Web.none : Web := ⟨.empty, [], []⟩

/-- What an act does.  (What is printed after the end of a document goes below it, and shows if there is another end.) -/
def Web.step (gs : Canvas.Glyphs) (s : Web) (a : Act) : Web :=
  match a with
  | .newSheet y => ⟨.empty, [.space y], s.done⟩
  | .endSheet onPage y => { s with done := s.done ++ [⟨s.sheet, onPage, y⟩] }
  | .newPage => { s with page := .empty }
  | .setPage r w h => { s with page := ((s.page.turned r).widened w).lengthened h }
  | .printPage x y d =>
    let p := s.page.turned (toDirection d)
    { s with
      page := p.turned (Rotation.back (toDirection d))
      sheet := s.sheet ++ [.page x y p] }
  | .put true t => { s with page := t.paint pageMedium gs s.page }
  | .put false t => { s with sheet := s.sheet ++ [.thing t] }

/-- The documents these acts give, in order. -/
def webSheets (gs : Canvas.Glyphs) (acts : List Act) : List WebDoc := (acts.foldl (Web.step gs) .none).done

/-- A barcode, or a 2D code that is printed. -/
def Item.isSymbol : Item → Prop
  | .barcodeA _ _ | .barcodeB _ _ => True
  | .code2d _ fn _ => fn = 81
  | _ => False

/-- The text an act puts on the paper. -/
def Act.paperText : Act → Str
  | .put false (.line l) => l.pieces.flatMap (·.text)
  | _ => []

/-- A look, as the properties of CSS give it: by how many times the cell is wider and higher than usual decides whether the size is right (it
is not for text that is both stretched and upside down, or stretched by different factors of which none is 1). -/
structure LooksLike (l : CharLook) (style : String → Option Str) : Prop where
  bold : style "font-weight" = if l.bold then some "bold".toList else .none
  italic : style "font-style" = if l.italic then some "italic".toList else .none
  struck : style "text-decoration" = some "line-through".toList ↔ l.strike ≠ 0
  underlined : l.strike = 0 → (style "text-decoration" = some "underline".toList ↔ l.underlined = true)
  color : style "color" = some (rgbaColor l.color)
  background : style "background-color" =
    some (if l.background = defaultColors.paperColor then "transparent".toList else rgbaColor l.background)
  fontA : l.font = .A → style "font-size" = .none
  fontB : l.font = .B → style "font-size" = some ".8em".toList
  size : ((l.cell.1 / l.base.1 = l.cell.2 / l.base.2 ∨ l.cell.1 = l.base.1 ∨ l.cell.2 = l.base.2) ∧
      (l.upsideDown = true → l.cell = l.base)) ↔
    stretching (style "transform") = (((l.cell.1 / l.base.1 : Nat) : Int), if l.upsideDown then -((l.cell.2 / l.base.2 : Nat) : Int) else ((l.cell.2 / l.base.2 : Nat) : Int))

/-- A piece of text in a line `high` dots high: at its x, on the baseline of the line; its classes say how it looks. -/
def Piece.tag (high : Nat) (p : Piece) (classes : List Str) : Str :=
  "<span style='left: ".toList ++ inDecimal p.area.x ++ "px; top: ".toList ++
    inDecimal ((high - p.look.cell.2) * 78 / 100) ++ "px' class='".toList ++ [' '].intercalate classes ++ "'>".toList ++
    p.text ++ "</span>".toList

/-- A box: its place. -/
def Shown.box : Shown → Option Rectangle
  | .thing (.box _ r) => some r
  | _ => .none

/-- A row of a document at `y`, `h` dots high, with this html, shows these things: nothing; the space at the top; a line of text, every piece at its place
and looking as it should by the style sheet; a picture; a page; or, in black, boxes.  `png` writes a picture of a width, a height and four bytes for
each dot as text.  A row of boxes begins with the topmost one and ends with the lowest one. -/
def RowShows (png : Nat → Nat → List Byte → Str) (rules : List CssRule) (y h : Nat) (html : Str) (shown : List Shown) : Prop :=
  match shown with
  | [] => y = 0 ∧ h = 0 ∧ html = []
  | [.space y'] => y = 0 ∧ h = y' ∧ html = []
  | [.thing (.line l)] =>
    y = smallest (l.pieces.map (·.area.y)) ∧ h = largest (l.pieces.map (·.look.cell.2)) ∧
      ∃ tags, html = ['\n'].intercalate tags ∧
        List.Forall₂ (fun p tag => ∃ classes, tag = Piece.tag l.height p classes ∧ LooksLike p.look (spanStyle rules classes)) l.pieces tags
  | [.thing (.picture x y' _ p)] =>
    y = y' ∧ h = p.height ∧ ∃ px : List RGBA, p.dots = px.map (fun c => if c.a = 0 then .none else some c) ∧
      html = imgTag x p.width (png p.width p.height (rgba px))
  | [.page x y' p] =>
    y = y' ∧ h = p.h ∧ html = imgTag x p.w (png p.w p.h (rgba ((List.range (p.w * p.h)).map fun i => p.dots (i % p.w) (i / p.w))))
  | _ => ∃ left w gs rects, shown.map Shown.box = gs.map some ∧ html = svg left w h rects ∧
      List.Forall₂ (fun (g r : Rectangle) => left + r.x = g.x ∧ y + r.y = g.y ∧ r.w = g.w ∧ r.h = g.h) gs rects ∧
      (∀ r ∈ rects, r.x + r.w ≤ w ∧ r.y + r.h ≤ h) ∧
      (∃ r ∈ rects, r.x = 0) ∧ (∃ r ∈ rects, r.y = 0) ∧ (w = 0 ∨ ∃ r ∈ rects, r.x + r.w = w) ∧ (h = 0 ∨ ∃ r ∈ rects, r.y + r.h = h)

/-- A row: where it should be, its height, its html, and what it shows. -/
structure WebRow where
  y : Nat
  height : Nat
  html : Str
  shown : List Shown

/-- Where the last row ends. -/
def WebRow.lastEnd (rows : List WebRow) : Nat := (rows.getLast?.map fun r => r.y + r.height).getD 0

/-- A document that shows these things in order, row by row, each row at its `y`, shifted down by as much as the rows so far reach into
the rows before them (not at all when they come from top to bottom).  The document is as wide as the paper, 649 dots, 20 of them margin at
either side; below the last row it has space down to where it ended, if that was not in page mode.  Every row shows something, but for a symbol
without any dark parts: `blank` says that there may be one. -/
def IsWebPage (png : Nat → Nat → List Byte → Str) (blank : Prop) (head : Str) (out : Str) (doc : WebDoc) : Prop :=
  ∃ (pad : Nat) (rows : List WebRow) (blocks : List Block),
    out = head ++ "\"".toList ++ ("width: 649px; padding-left: 20px; padding-right: 20px; padding-bottom: ".toList ++ inDecimal pad ++ "px;".toList) ++
      "\"><article>".toList ++ blocks.flatMap Block.html ++ "</article></section></main>\n</body>\n</html>".toList ∧
    (doc.onPage = false → pad = doc.y - WebRow.lastEnd rows) ∧
    rows.flatMap (·.shown) = doc.shown ∧
    ((∃ r ∈ rows, r.shown = []) → blank) ∧
    (∀ r ∈ rows, RowShows png (styleSheet out) r.y r.height r.html r.shown) ∧
    blocks.map (fun b => (b.height, b.inner)) = rows.map (fun r => (r.height, r.html)) ∧
    tops 0 blocks = (rows.zip (overlaps 0 0 (rows.map fun r => (r.y, r.height)))).map (fun p => p.1.y + p.2)

end Thermal.Spec
