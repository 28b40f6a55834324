import Verif.Spec.Paint
/-
What a printer does (Spec/Printer), seen on paper: for every document one sheet, dot by dot.
-/
namespace Thermal.Spec

/-- The state of printing: the sheet in the printer, if any, the page, and the sheets that are finished. -/
structure Sheets where
  paper : Option Roll
  page : Page
  done : List Roll

/-- At first. -/
def Sheets.none : Sheets := ⟨.none, .empty, []⟩

/-- What an act does.  After the end of a sheet there is no paper to print on until the next one begins.  A page is put on the paper
instead of what is there, and remains. -/
def Sheets.step (gs : Canvas.Glyphs) (width : Nat) (s : Sheets) (a : Act) : Sheets :=
  match a with
  | .newSheet _ => ⟨some .blank, .empty, s.done⟩
  | .endSheet _ y => ⟨.none, s.page, s.done ++ [(s.paper.getD .blank).fedTo y]⟩
  | .newPage => { s with page := .empty }
  | .setPage r w h => { s with page := ((s.page.turned r).widened w).lengthened h }
  | .printPage x y d =>
    let p := s.page.turned (toDirection d)
    { s with
      paper := s.paper.map fun P => P.paste width p.dots x y p.w p.h
      page := p.turned (Rotation.back (toDirection d)) }
  | .put true t => { s with page := t.paint pageMedium gs s.page }
  | .put false t => { s with paper := s.paper.map fun P => t.paint (paperRoll width) gs P }

/-- The sheets these acts give. -/
def printedSheets (gs : Canvas.Glyphs) (width : Nat) (acts : List Act) : List Roll := (acts.foldl (Sheets.step gs width) .none).done

/-- The image shows the sheet, 609 dots wide, between margins of 20 dots, as far as it is in use; and below that it is blank. -/
def ShowsSheet (o : ReceiptImage) (R : Roll) : Prop :=
  o.width = 649 ∧ o.height = R.reach ∧
    (∀ x y, x < 609 → y < o.height →
      o.bytes[3 * (y * 649 + 20 + x)]? = some (R.dots x y).r ∧ o.bytes[3 * (y * 649 + 20 + x) + 1]? = some (R.dots x y).g ∧
        o.bytes[3 * (y * 649 + 20 + x) + 2]? = some (R.dots x y).b) ∧
    ∀ x y, x < 609 → o.height ≤ y → R.dots x y = ⟨255, 255, 255, 255⟩

end Thermal.Spec
