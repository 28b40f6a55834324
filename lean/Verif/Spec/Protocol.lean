import Verif.Rust
/-
The commands of ESC/POS with a fixed number of parameter bytes, from the protocol's documentation: opcode and number of parameters.
-/
namespace Thermal.Spec

/-- The commands that this program knows. -/
def protocol : List (List UInt8 × Nat) :=
  [([9], 0),            -- HT    horizontal tab
   ([10], 0),           -- LF    print and feed a line
   ([12], 0),           -- FF    print and leave page mode / end of the document
   ([13], 0),           -- CR    carriage return
   ([27, 33], 1),       -- ESC ! n        print modes
   ([27, 36], 2),       -- ESC $ nL nH    absolute position
   ([27, 45], 1),       -- ESC - n        underline
   ([27, 50], 0),       -- ESC 2          default line spacing
   ([27, 51], 1),       -- ESC 3 n        line spacing
   ([27, 52], 1),       -- ESC 4 n        italic
   ([27, 61], 1),       -- ESC = n        peripheral device
   ([27, 64], 0),       -- ESC @          initialize
   ([27, 69], 1),       -- ESC E n        emphasized
   ([27, 71], 1),       -- ESC G n        double strike
   ([27, 74], 1),       -- ESC J n        print and feed
   ([27, 76], 0),       -- ESC L          page mode
   ([27, 77], 1),       -- ESC M n        font
   ([27, 82], 1),       -- ESC R n        international characters
   ([27, 83], 0),       -- ESC S          standard mode
   ([27, 84], 1),       -- ESC T n        direction in page mode
   ([27, 87], 8),       -- ESC W xL xH yL yH dxL dxH dyL dyH   area in page mode
   ([27, 97], 1),       -- ESC a n        justification
   ([27, 99, 3], 1),    -- ESC c 3 n      paper end sensors
   ([27, 99, 4], 1),    -- ESC c 4 n      print stop sensors
   ([27, 99, 5], 1),    -- ESC c 5 n      panel buttons
   ([27, 100], 1),      -- ESC d n        print and feed lines
   ([27, 101], 1),      -- ESC e n        print and reverse feed lines
   ([27, 112], 3),      -- ESC p m t1 t2  pulse
   ([27, 114], 1),      -- ESC r n        colour
   ([27, 116], 1),      -- ESC t n        code table
   ([27, 123], 1),      -- ESC { n        upside down
   ([29, 33], 1),       -- GS ! n         character size
   ([29, 36], 2),       -- GS $ nL nH     absolute vertical position in page mode
   ([29, 66], 1),       -- GS B n         white on black
   ([29, 72], 1),       -- GS H n         position of the text of a barcode
   ([29, 73], 1),       -- GS I n         transmit the printer's id
   ([29, 80], 2),       -- GS P x y       motion units
   ([29, 92], 2),       -- GS \ nL nH     relative vertical position in page mode
   ([29, 98], 1),       -- GS b n         smoothing
   ([29, 102], 1),      -- GS f n         font of the text of a barcode
   ([29, 104], 1),      -- GS h n         height of a barcode
   ([29, 119], 1)]      -- GS w n         width of a barcode

end Thermal.Spec
