import Verif.Spec.PrintedText
/-
A reference typesetter: where the characters of a stream of text belong on the paper.  It is written on words and numbers,
without reference to the layout loop of the program, to contexts, or to command handlers.
-/
namespace Thermal.Spec

/-- The printable width of the paper, in dots. -/
def paperWidth : Nat := 609

/-- Text that is to be printed in one look. -/
abbrev Run := Str × CharLook

/-- The width of a run, in dots. -/
def Run.width (r : Run) : Nat := r.1.length * r.2.cell.1

/-- The words of a text.  A word ends with the white space that follows it (so white space that follows white space is a
word, and so is a line feed or a tab that stands alone). -/
def words : Str → List Str
  | [] => []
  | c :: rest =>
    if isWhitespace c then [c] :: words rest
    else match words rest with
      | [] => [[c]]
      | w :: ws => (c :: w) :: ws

/-- A character on the paper: its look and the top left corner of its cell. -/
structure Mark where
  ch : Char
  look : CharLook
  x : Nat
  y : Nat
  deriving DecidableEq, Repr

/-- A piece of text on the paper: the rectangle its cells take, its characters, their look. -/
structure Piece where
  area : Rectangle
  text : Str
  look : CharLook
  deriving DecidableEq, Repr

/-- A line on the paper: the height of its tallest character, and its pieces. -/
structure TextLine where
  height : Nat
  pieces : List Piece
  deriving DecidableEq, Repr

/-- The characters of a line, one by one. -/
def TextLine.marks (l : TextLine) : List Mark :=
  l.pieces.flatMap fun p => p.text.mapIdx fun i ch => ⟨ch, p.look, p.area.x + i * p.look.cell.1, p.area.y⟩

/-- The carriage of a typesetter: where it is, the runs on the current line with their left edges, and the lines that are
finished, with their tops. -/
structure Carriage where
  x : Nat
  y : Nat
  line : List (Nat × Run)
  done : List (Nat × List (Nat × Run))
  deriving DecidableEq, Repr

/-- Set a run at the carriage. -/
def Carriage.put (c : Carriage) (r : Run) : Carriage :=
  { c with
    x := c.x + r.width
    line := c.line ++ [(c.x, r)] }

/-- To the left edge of the next line: down by the line spacing, or by the tallest run of the line if that is more. -/
def Carriage.down (spacing : Nat) (c : Carriage) : Carriage where
  x := 0
  y := c.y + c.line.foldl (fun h p => max h p.2.2.cell.2) spacing
  line := []
  done := c.done ++ [(c.y, c.line)]

/-- The tab stops for characters of a width: the left edge, and then one after each of the distances (in characters) but the
last. -/
def stops (tabs : List Nat) (width : Nat) : List Nat := (List.range tabs.length).map fun i => (tabs.take i).sum * width

/-- A text cut into pieces of `k` characters. -/
def pieces (k : Nat) (s : Str) : List Str := (List.range ((s.length + k - 1) / k)).map fun i => (s.drop (i * k)).take k

/-- Set one word in lines of a width.  A line feed ends the line.  A tab goes to the first tab stop that is not left of the carriage.  A word goes
on the line if it fits there, else on the next line.  A word too long for any line is cut: as many characters as fit go on the
line, the others on lines of their own. -/
def Carriage.word (width spacing : Nat) (tabs : List Nat) (c : Carriage) (r : Run) : Carriage :=
  if r.1 = ['\n'] then c.down spacing
  else if r.1 = ['\t'] then { c with x := ((stops tabs r.2.cell.1).find? (c.x ≤ ·)).getD c.x }
  else if c.x + r.width ≤ width then c.put r
  else if r.width ≤ width then (c.down spacing).put r
  else
    let room := (width - c.x) / r.2.cell.1
    (pieces (width / r.2.cell.1) (r.1.drop room)).foldl (fun c s => (c.down spacing).put (s, r.2)) (c.put (r.1.take room, r.2))

/-- How far something is moved to the right in lines of a width. -/
def indent (j : TextJustify) (lines width : Nat) : Nat :=
  match j with
  | .left => 0
  | .center => (lines - width) / 2
  | .right => lines - width

/-- A line as it goes on the paper (an empty one does not); lines have this left edge and this width.  It is justified as its first
run asks. -/
def setLine (left width top : Nat) (line : List (Nat × Run)) : List TextLine :=
  match line with
  | [] => []
  | first :: _ =>
    let off := left + indent first.2.2.justify width (line.map fun p => p.2.width).sum
    [⟨line.foldl (fun h p => max h p.2.2.cell.2) 0, line.map fun p => ⟨⟨off + p.1, top, p.2.width, p.2.2.cell.2⟩, p.2.1, p.2.2⟩⟩]

/-- Set runs, word by word, beginning at a position (`x` is counted from the left edge of the lines). -/
def typeset (width spacing : Nat) (tabs : List Nat) (x y : Nat) (runs : List Run) : Carriage :=
  (runs.flatMap fun r => (words r.1).map fun w => (w, r.2)).foldl (Carriage.word width spacing tabs) ⟨x, y, [], []⟩

/-- The lines on the paper. -/
def Carriage.lines (left width : Nat) (c : Carriage) : List TextLine :=
  c.done.flatMap (fun l => setLine left width l.1 l.2) ++ setLine left width c.y c.line

/-! ### Page mode -/

/-- The settings of page mode.  The page is looked at turned so that lines run from left to right; this is how its size and the place of
the print area are given.  Only `area` is given as it was asked for, on the upright page. -/
structure PageSetup where
  direction : PrintDirection
  area : Rectangle
  w : Nat
  h : Nat
  field : Rectangle
  deriving DecidableEq, Repr

/-- Lines run across the page, not along it. -/
def across : PrintDirection → Bool
  | .topLeft2Right | .bottomRight2Left => true
  | .bottomLeft2Top | .topRight2Bottom => false

/-- A rectangle of the upright page as it is seen on the turned page, whose size is then `w` by `h`. -/
def seen (d : PrintDirection) (w h : Nat) (a : Rectangle) : Rectangle :=
  match d with
  | .topLeft2Right => a
  | .bottomLeft2Top => ⟨w - (a.y + a.h), a.x, a.h, a.w⟩
  | .bottomRight2Left => ⟨w - (a.x + a.w), h - (a.y + a.h), a.w, a.h⟩
  | .topRight2Bottom => ⟨a.y, h - (a.x + a.w), a.h, a.w⟩

namespace PageSetup

/-- The size that the area needs, as seen. -/
def needs (p : PageSetup) : Nat × Nat :=
  if across p.direction then (p.area.x + p.area.w, p.area.y + p.area.h) else (p.area.y + p.area.h, p.area.x + p.area.w)

/-- The print area takes its place on the page; the page gets larger if need be. -/
def place (p : PageSetup) : PageSetup :=
  let w := max p.w p.needs.1
  let h := max p.h p.needs.2
  { p with
    w := w
    h := h
    field := seen p.direction w h p.area }

/-- The page is turned to another print direction. -/
def turn (p : PageSetup) (d : PrintDirection) : PageSetup :=
  if across p.direction = across d then { p with direction := d }
  else { p with
    direction := d
    w := p.h
    h := p.w }

/-- The areas this program puts in place: any one in the normal direction; otherwise those on the page, for `ESC T 2` and `ESC T 3` only
if they are in the middle of it. -/
def placeable (p : PageSetup) : Prop :=
  match p.direction with
  | .topLeft2Right => True
  | .bottomLeft2Top => p.needs.1 ≤ p.w ∧ p.needs.2 ≤ p.h
  | .bottomRight2Left => p.needs.1 ≤ p.w ∧ p.needs.2 ≤ p.h ∧ 2 * p.area.y + p.area.h = p.h
  | .topRight2Bottom => p.needs.1 ≤ p.w ∧ p.needs.2 ≤ p.h ∧ 2 * p.area.y + p.area.h = p.w

/-- At first there is no page. -/
def initial : PageSetup := ⟨.topLeft2Right, ⟨0, 0, 0, 0⟩, 0, 0, ⟨0, 0, 0, 0⟩⟩

end PageSetup

/-- The print direction of `ESC T n`. -/
def printDirection (n : Nat) : Option PrintDirection :=
  match n with
  | 0 | 48 => some .topLeft2Right
  | 1 | 49 => some .bottomLeft2Top
  | 2 | 50 => some .bottomRight2Left
  | 3 | 51 => some .topRight2Bottom
  | _ => none

/-! ### A stream of commands -/

/-- The state of a printer that prints text only: the style, the distances of the tab stops, the position, the runs that wait to
be set, the lines printed; whether it prints on the page of page mode, the position on the other medium (on the paper while it prints on
the page and the other way round), and the settings of page mode.  Positions count from the left edge of the lines. -/
structure Desk where
  style : Style
  tabs : List Nat
  x : Nat
  y : Nat
  waiting : List Run
  lines : List TextLine
  onPage : Bool
  kept : Nat × Nat
  page : PageSetup
  deriving DecidableEq, Repr

/-- A tab stop every 8 characters. -/
def initialTabs : List Nat := List.replicate 32 8

/-- A job starts at the left edge, 108 dots below the top of the paper. -/
def Desk.initial : Desk := ⟨.initial, initialTabs, 0, 108, [], [], false, (0, 0), .initial⟩

/-- The left edge of the lines. -/
def Desk.left (d : Desk) : Nat := if d.onPage then d.page.field.x else 0

/-- The width of the lines. -/
def Desk.width (d : Desk) : Nat := if d.onPage then d.page.field.w else paperWidth

/-- Set what waits. -/
def Desk.flush (d : Desk) : Desk :=
  let c := typeset d.width d.style.lineSpacing d.tabs d.x d.y d.waiting
  { d with
    x := c.x
    y := c.y
    waiting := []
    lines := d.lines ++ c.lines d.left d.width }

/-- Feed the paper; printing goes on at the left edge. -/
def Desk.feed (d : Desk) (dots : Nat) : Desk :=
  { d with
    x := 0
    y := d.y + dots }

/-- To the other medium. -/
def Desk.switch (d : Desk) : Desk :=
  { d with
    onPage := !d.onPage
    x := d.kept.1
    y := d.kept.2
    kept := (d.x, d.y) }

/-- The print area is put in place, printing on the page starts at its upper left corner. -/
def Desk.start (d : Desk) (p : PageSetup) : Desk :=
  { d with
    page := p.place
    x := if d.onPage then 0 else d.x
    y := if d.onPage then p.place.field.y else d.y
    kept := if d.onPage then d.kept else (0, p.place.field.y) }

/-- The commands that move the print position or set tab stops. -/
def Desk.move (d : Desk) (opcode data : List Byte) : Desk :=
  let n := param data 0
  match opcode with
  | [27, 36] => { d with x := n + 256 * param data 1 }                          -- ESC $ nL nH
  | [27, 74] => d.feed n                                                        -- ESC J n
  | [27, 100] => d.feed (n * d.style.lineSpacing)                               -- ESC d n
  | [29, 86] =>                                                                 -- GS V m (n)
    if n = 0 ∨ n = 48 ∨ n = 1 ∨ n = 49 then d.feed (2 * d.style.lineSpacing)
    else if n = 65 ∨ n = 97 ∨ n = 103 ∨ n = 66 ∨ n = 98 ∨ n = 104 then d.feed (2 * d.style.lineSpacing + param data 1)
    else d
  | [27, 68] =>                                                                 -- ESC D n k: this program's form
    { d with tabs := d.tabs.set (data.getD 1 24).toNat (data.getD 0 24).toNat }
  | [27, 64] =>                                                                 -- ESC @: this program goes back up on the paper
    if d.onPage then
      { d with
        tabs := initialTabs
        kept := (0, 60) }
    else
      { d with
        tabs := initialTabs
        x := 0
        y := 60 }
  | [27, 76] => if d.onPage then d else d.switch                                -- ESC L: to the page
  | [27, 83] => if d.onPage then d.switch else d                                -- ESC S: to the paper
  | [12] => if d.onPage then d.switch.feed d.page.h else d                      -- FF: print the page, to the paper
  | [27, 12] => if d.onPage then { d with kept := (0, d.kept.2 + d.page.h) } else d   -- ESC FF: print the page
  | [27, 87] =>                                                                 -- ESC W: the print area
    d.start { d.page with area := ⟨n + 256 * param data 1, param data 2 + 256 * param data 3, param data 4 + 256 * param data 5,
      param data 6 + 256 * param data 7⟩ }
  | [27, 84] => ((printDirection n).map fun t => d.start (d.page.turn t)).getD d   -- ESC T: the print direction
  | [29, 36] =>                                                                 -- GS $: down from the top of the print area
    if d.onPage then { d with y := d.page.field.y + (n + 256 * param data 1) } else d
  | [29, 92] =>                                                                 -- GS \: down, or up, but not above the page
    if d.onPage then
      { d with y := if param data 1 < 128 then d.y + (n + 256 * param data 1) else d.y - (65536 - (n + 256 * param data 1)) }
    else d
  | _ => d

/-- One command.  Text waits, and so it does when only its style changes; every other command lets it be set first. -/
def Desk.step (d : Desk) (c : Command) : Desk :=
  let d' :=
    if c.kind = .text then { d with waiting := d.waiting ++ [(d.style.textOf c, d.style.look)] }
    else if c.kind = .textStyle ∨ c.kind = .subcommand then d.move c.commands c.data
    else d.flush.move c.commands c.data
  { d' with style := d.style.step c.commands c.data }

/-- The commands this typesetter is about: no reverse feed (`ESC e`), the motion unit stays one dot (`GS P`).  Positions on the page
(`ESC $`, `GS $`) only in the normal print direction, areas that are `placeable` (`ESC W`, `ESC T`), and these only in page mode. -/
def Desk.allows (d : Desk) (opcode data : List Byte) : Prop :=
  match opcode with
  | [27, 101] | [29, 80] => False
  | [27, 36] | [29, 36] => d.onPage = true → d.page.direction = .topLeft2Right
  | [27, 87] => d.onPage = true ∧ PageSetup.placeable { d.page with
      area := ⟨param data 0 + 256 * param data 1, param data 2 + 256 * param data 3, param data 4 + 256 * param data 5,
        param data 6 + 256 * param data 7⟩ }
  | [27, 84] => d.onPage = true ∧ (printDirection (param data 0)).elim False fun t => (d.page.turn t).placeable
  | [29, 92] => d.onPage = true → d.flush.y < 2 ^ 31
  | _ => True

/-- No graphics, no page mode (`ESC L`), no reverse feed (`ESC e`), and the motion unit stays one dot (`GS P`); page mode commands have no
place there (`ESC W`, `ESC T`). -/
def textOnly (c : Command) : Bool :=
  c.kind ≠ .graphics ∧ c.commands ≠ [27, 76] ∧ c.commands ≠ [27, 101] ∧ c.commands ≠ [29, 80] ∧ c.commands ≠ [27, 87] ∧ c.commands ≠ [27, 84]

/-- The runs of a stream. -/
def runs (s : Style) : List Command → List Run
  | [] => []
  | c :: cs => (s.textOf c, s.look) :: runs (s.step c.commands c.data) cs

/-- Words can be cut as they should: as many characters fit on a line as one is dots wide (on paper, those up to 24 dots wide), or they
need not be cut. -/
def Run.cuts (width : Nat) (r : Run) : Prop := ∀ w ∈ words r.1, r.2.cell.1 * r.2.cell.1 ≤ width ∨ w.length * r.2.cell.1 ≤ width

instance (width : Nat) (r : Run) : Decidable (r.cuts width) := by unfold Run.cuts; infer_instance

/-- A run that this program sets in lines as it should: in lines that do not start at the left edge of the page tabs are not. -/
def Run.sets (left width : Nat) (r : Run) : Prop := r.cuts width ∧ (left = 0 ∨ '\t' ∉ r.1)

instance (left width : Nat) (r : Run) : Decidable (r.sets left width) := by unfold Run.sets; infer_instance

/-! ### What an output renderer is told -/

/-- A span, where an output renderer is told to put it. -/
def spanPiece (off : Nat) (t : TextSpan) : Option Piece :=
  t.dimensions.map fun d => ⟨⟨off + d.x, d.y, d.w, d.h⟩, t.text, lookOf t⟩

/-- The line of a call. -/
def callLines (call : Call) : List TextLine :=
  match call with
  | .text spans off height _ => [⟨height, spans.filterMap (spanPiece off)⟩]
  | _ => []

end Thermal.Spec
