import Verif.Spec.Trace
import Verif.Spec.Jobs
/-
What an output renderer is told about the device: begin and end of a document, of a page, cuts, feeds and settings - by the bytes of the commands alone.
-/
namespace Thermal.Spec

/-- What can be told. -/
inductive Told where
  | command (d : DeviceCommand)
  | documentBegins | documentEnds | pageBegins | pageEnds | pagePrinted | pageShaped
  deriving DecidableEq, Repr

/-- A call that tells about the device; drawing calls do not. -/
def tells : Call → Option Told
  | .device d => some (.command d)
  | .beginRender => some .documentBegins
  | .endRender => some .documentEnds
  | .pageBegin => some .pageBegins
  | .pageEnd => some .pageEnds
  | .renderPage => some .pagePrinted
  | .pageAreaChanged .. => some .pageShaped
  | .text .. | .graphics .. | .image .. => none

/-- A device command is announced, and then carried out. -/
def carried (d : DeviceCommand) : List Told :=
  .command d ::
    match d with
    | .beginPrint => [.documentBegins]
    | .endPrint => [.documentEnds]
    | .beginPageMode => [.pageBegins]
    | .endPageMode => [.pageEnds]
    | .printPageMode => [.pagePrinted]
    | .changePageArea | .changePageModeDirection => [.pageShaped]
    | _ => []

/-- GS V m n: the cut; functions B, C and D (65, 97, 103 full; 66, 98, 104 partial) also feed n. -/
def cuts (m n : UInt8) : List DeviceCommand :=
  if m ∈ [0, 48] then [.fullCut]
  else if m ∈ [1, 49] then [.partialCut]
  else if m ∈ [65, 97, 103] then [.fullCut, .feed n.toNat]
  else if m ∈ [66, 98, 104] then [.partialCut, .feed n.toNat]
  else []

/-- ESC a n: 0, 48 left, 1, 49 centre, 2, 50 right. -/
def sides (n : UInt8) : TextJustify := if n ∈ [1, 49] then .center else if n ∈ [2, 50] then .right else .left

/-- The line spacing at power on stands for missing parameters of ESC D. -/
def tabDefault : UInt8 := 24

/-- The device commands of a command, by its opcode and parameters (a missing parameter is 0), in page mode or not. -/
def deviceCommands (page : Bool) (op data : List UInt8) : List DeviceCommand :=
  let n := data.getD 0 0
  match op with
  | [24, 64] => [.cancel]                                                                       -- CAN @
  | [27, 64] => [.initialize]                                                                   -- ESC @
  | [12] => if page then [.endPageMode, .printPageMode] else [.endPrint]                        -- FF
  | [27, 12] => if page then [.printPageMode] else []                                           -- ESC FF
  | [27, 76] => [.beginPageMode]                                                                -- ESC L
  | [27, 84] => [.changePageModeDirection]                                                      -- ESC T
  | [27, 87] => [.changePageArea]                                                               -- ESC W
  | [27, 74] => [.feed n.toNat]                                                                 -- ESC J n
  | [27, 100] => [.feedLine n.toNat]                                                            -- ESC d n
  | [27, 101] => [.feedLine (-(n.toNat : Int))]                                                 -- ESC e n
  | [29, 86] => cuts n (data.getD 1 0)                                                          -- GS V m (n)
  | [27, 97] => [.justify (sides n)]                                                            -- ESC a n
  | [29, 33] => [.setTextWidth (n / 16 % 8 + 1), .setTextHeight (n % 8 + 1)]                    -- GS ! n: bits 4-6, bits 0-2
  | [27, 68] => [.changeTabs (data.getD 0 tabDefault) (data.getD 1 tabDefault)]                 -- ESC D
  | [29, 40, 76, _, _, _, fn] => if fn ∈ [2, 50] then [.clearBufferGraphics] else []            -- GS ( L, function 50
  | [29, 56, 76, _, _, _, _, _, fn] => if fn ∈ [2, 50] then [.clearBufferGraphics] else []      -- GS 8 L, function 50
  | _ => []

/-- What is told during a list of commands (opcode and parameters). -/
def told (page : Bool) : List (List UInt8 × List UInt8) → List Told
  | [] => []
  | x :: xs => (deviceCommands page x.1 x.2).flatMap carried ++ told (pageModeAfter page x.1) xs

/-- What is told during a job. -/
def toldJob (page : Bool) (commands : List (List UInt8 × List UInt8)) : List Told :=
  carried .beginPrint ++ told page commands ++ carried .endPrint

/-- The commands that only change how the text after them looks, and so leave the text before them waiting: text itself, styles, ESC a, GS !, ESC D. -/
def styles : List (List UInt8) :=
  [[], [9], [10], [13], [27, 33], [27, 45], [27, 52], [27, 68], [27, 69], [27, 71], [27, 77], [27, 82], [27, 97], [27, 114], [27, 116], [27, 123], [29, 33], [29, 66], [29, 98],
   [29, 40, 78]]

end Thermal.Spec
