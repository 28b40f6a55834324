import Verif.Rust
/-
UPC numbers, independently of the code: weighted sums and the zero-suppression rules of UPC-E.
-/
namespace Thermal

/-- Ten decimal digits. -/
def Digits (ds : List Byte) : Prop := ∀ d ∈ ds, d ≤ 9

/-- The UPC weighted sum of a number: digits in odd positions (counted from one) have weight 3, the others 1. -/
def upcSum : List Byte → Nat
  | [] => 0
  | [a] => 3 * a.toNat
  | a :: b :: rest => 3 * a.toNat + b.toNat + upcSum rest

/-- ASCII digits as typed in the barcode data. -/
def asciiDigits (ds : List Byte) : List Byte := ds.map (fun d => d + 48)

/-- The eleven digits of the UPC-A number (number system, manufacturer, product) that a UPC-E number stands for. -/
inductive ExpandsTo : List Byte → List Byte → Prop
  /-- last digit 0, 1 or 2: manufacturer `ab{0,1,2}00`, product `00cde` -/
  | low (s a b c d e l : Byte) : l ≤ 2 → ExpandsTo [s, a, b, c, d, e, l] [s, a, b, l, 0, 0, 0, 0, c, d, e]
  /-- last digit 3: manufacturer `abc00`, product `000de` -/
  | three (s a b c d e : Byte) : ExpandsTo [s, a, b, c, d, e, 3] [s, a, b, c, 0, 0, 0, 0, 0, d, e]
  /-- last digit 4: manufacturer `abcd0`, product `0000e` -/
  | four (s a b c d e : Byte) : ExpandsTo [s, a, b, c, d, e, 4] [s, a, b, c, d, 0, 0, 0, 0, 0, e]
  /-- last digit 5 to 9: manufacturer `abcde`, product `0000l` -/
  | high (s a b c d e l : Byte) : 5 ≤ l → l ≤ 9 → ExpandsTo [s, a, b, c, d, e, l] [s, a, b, c, d, e, 0, 0, 0, 0, l]

/-- The UPC-E numbers that are not a longer way of writing another one. -/
def Canonical : List Byte → Prop
  | [s, _, _, c, d, e, l] =>
    s ≤ 1 ∧ (l = 3 → 3 ≤ c) ∧ (l = 4 → d ≠ 0) ∧ (5 ≤ l → e ≠ 0)
  | _ => False

/-! ### The symbol -/

/-- The widths of the four elements (space, bar, space, bar) of a digit in odd parity, from the UPC symbol
specification. -/
def upcWidths : Nat → List Nat
  | 0 => [3, 2, 1, 1] | 1 => [2, 2, 2, 1] | 2 => [2, 1, 2, 2] | 3 => [1, 4, 1, 1] | 4 => [1, 1, 3, 2]
  | 5 => [1, 2, 3, 1] | 6 => [1, 1, 1, 4] | 7 => [1, 3, 1, 2] | 8 => [1, 2, 1, 3] | 9 => [3, 1, 1, 2]
  | _ => []

/-- Spaces (0) and bars (1) of the given widths, alternating. -/
def elements (color : Byte) : List Nat → List Byte
  | [] => []
  | w :: ws => List.replicate w color ++ elements (1 - color) ws

/-- A digit in odd parity, or in even parity (the mirrored widths). -/
def digitModules (even : Bool) (d : Nat) : List Byte := elements 0 (if even then (upcWidths d).reverse else upcWidths d)

/-- Which of the six digits have even parity for number system 0, by check digit, from the UPC-E specification. -/
def evenParities : Nat → String
  | 0 => "EEEOOO" | 1 => "EEOEOO" | 2 => "EEOOEO" | 3 => "EEOOOE" | 4 => "EOEEOO"
  | 5 => "EOOEEO" | 6 => "EOOOEE" | 7 => "EOEOEO" | 8 => "EOEOOE" | 9 => "EOOEOE"
  | _ => ""

/-- The parities of the digits of a symbol; number system 1 has them the other way round. -/
def parities (system check : Byte) : List Bool :=
  (evenParities check.toNat).toList.map (fun p => (p == 'E') != (system == 1))

/-- The modules of the UPC-E symbol of a number system digit, six digits and a check digit. -/
def upceSymbol : List Byte → List Byte
  | [s, a, b, c, d, e, l, k] =>
    [1, 0, 1] ++ (([a, b, c, d, e, l].zip (parities s k)).map (fun x => digitModules x.2 x.1.toNat)).flatten ++ [0, 1, 0, 1, 0, 1]
  | _ => []

end Thermal
