import Verif.Spec.Receipt
import Verif.Spec.Web
/-
A plain receipt as a web page.
-/
namespace Thermal.Spec

/-- Words with the columns at which they begin. -/
def columns : Nat → List Str → List (Nat × Str)
  | _, [] => []
  | k, w :: ws => (k, w) :: columns (k + w.length) ws

/-- Where the lines that are not empty begin, every line being 24 dots high. -/
def lineTops : Nat → List (List Byte) → List Nat
  | _, [] => []
  | y, l :: ls => if l = [] then lineTops (y + 24) ls else y :: lineTops (y + 24) ls

/-- Upright black text on a transparent ground, neither bold nor underlined nor struck through nor stretched. -/
structure PlainStyle (style : String → Option Str) : Prop where
  weight : style "font-weight" = none
  slant : style "font-style" = none
  struck : style "text-decoration" ≠ some "line-through".toList
  underlined : style "text-decoration" ≠ some "underline".toList
  color : style "color" = some "#000000FF".toList
  background : style "background-color" = some "transparent".toList
  size : style "font-size" = none
  stretch : stretching (style "transform") = (1, 1)

/-- A line of a receipt: its words, each 12 dots right of the one before for every character of that. -/
def LineHtml (rules : List CssRule) (l : List Byte) (html : Str) : Prop :=
  ∃ tags, html = ['\n'].intercalate tags ∧
    List.Forall₂ (fun (p : Nat × Str) tag => ∃ classes, PlainStyle (spanStyle rules classes) ∧
      tag = "<span style='left: ".toList ++ inDecimal (12 * p.1) ++ "px; top: 0px' class='".toList ++ [' '].intercalate classes ++
        "'>".toList ++ p.2 ++ "</span>".toList) (columns 0 (words (l.map fun b => Char.ofNat b.toNat))) tags

/-- The page of a receipt: a block of 108 dots at the top, a block of 24 dots for every line that is not empty, and space for the lines at
the end that are. -/
def IsReceiptPage (head out : Str) (lines : List (List Byte)) : Prop :=
  ∃ (pad : Nat) (first : Block) (blocks : List Block),
    out = head ++ "\"width: 649px; padding-left: 20px; padding-right: 20px; padding-bottom: ".toList ++ inDecimal pad ++
      "px;\"><article>".toList ++ (first :: blocks).flatMap Block.html ++ "</article></section></main>\n</body>\n</html>".toList ∧
    first = ⟨0, 108, []⟩ ∧
    (∀ b ∈ blocks, b.height = 24) ∧
    tops 108 blocks = lineTops 108 lines ∧
    List.Forall₂ (LineHtml (styleSheet out)) (lines.filter (· ≠ [])) (blocks.map (·.inner)) ∧
    bottom 108 blocks + pad = 108 + 24 * lines.length

end Thermal.Spec
