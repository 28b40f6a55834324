import Verif.Props.Sheets
import Verif.Props.Printer
/-
C83: from bytes to dots.
-/
namespace Thermal
open Spec Renderer ImageRenderer

variable {ext : Ext}

/-- C83. From bytes to dots: the images of a stream of items are, one for one, the sheets of paper, 609 dots wide, that the reference
printer prints for these items, dot by dot. -/
theorem C83_dots (gs : Canvas.Glyphs) {items : List Item} (hw : ∀ it ∈ items, it.WF) (hs : separated items)
    (hl : ∀ it ∈ items.getLast?, it.endSafe) (hf : Press.initial.fairs ext items) {outs errs r}
    (h : render (imageRenderer gs) ext (Renderer.new (ImageRenderer.new {})) (streamBytes items) = .ok (outs, errs, r)) :
    List.Forall₂ ShowsSheet outs (printedSheets gs 609 (printedActs ext items)) := by
  obtain ⟨units, errs', t, a1, a2⟩ := C82_sheets gs ext _ outs errs r h
  rw [C81_printer hw hs hl hf a1] at a2
  exact a2

/-- Underlined "A", a line feed, a raster image of 8 by 2 dots: the dots on the paper. -/
example : (printedSheets dotty 609 (printedActs noExt [.fixed setUnderlineCmd [1], .text [65], .fixed linefeedCmd [], .raster 0 1 2 [0xA5, 0xF0]])).map
    (fun R => (R.reach, (List.range 40).flatMap fun y => (List.range 20).filterMap fun x =>
      if R.dots x (100 + y) = ⟨255, 255, 255, 255⟩ then none else some (x, 100 + y))) =
      [(134, (3, 113) :: (4, 114) :: ((List.range 12).map fun x => (x, 126)) ++
        [(0, 132), (2, 132), (5, 132), (7, 132), (0, 133), (1, 133), (2, 133), (3, 133)])] := by
  decide +kernel

/-- A page of 44 by 32 dots: the letter "A" in the area that begins at (4, 2), then, in lines that run upwards, a raster image of 8 by 2
dots.  The page is printed 108 dots below the upper edge of the paper: both dots of the letter, and the image turned. -/
def smallPage : List Item :=
  [.fixed setPageModeCmd [], .fixed pageModePrintAreaCmd [4, 0, 2, 0, 40, 0, 30, 0], .text [65], .fixed linefeedCmd [],
   .fixed pageModePrintDirectionCmd [1], .raster 0 1 2 [0xA5, 0xF0], .fixed formfeedCmd []]

example : Press.initial.fairs noExt smallPage ∧ (printedSheets dotty 609 (printedActs noExt smallPage)).map
    (fun R => (R.reach, (List.range 40).flatMap fun y => (List.range 60).filterMap fun x =>
      if R.dots x (105 + y) = ⟨255, 255, 255, 255⟩ then none else some (x, 105 + y))) =
      [(152, [(7, 115), (8, 116), (4, 132), (4, 134), (5, 136), (4, 137), (5, 137), (5, 138), (4, 139), (5, 139)])] := by
  constructor
  · decide +kernel
  · decide +kernel

end Thermal
