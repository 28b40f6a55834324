import Verif.Model.Apply
import Verif.Spec.Upce
import Verif.Spec.Decoder
/-
The barcodes of `GS k` as the command reference documents them: which symbology a number selects, how much data it takes, what
is encoded and what is printed as text.  The encoders of the symbologies (other than UPC-E) are parameters.  Written without
reference to the barcode handler.
-/
namespace Thermal.Spec

/-- The symbology selected by the parameter m of `GS k m`, for both forms of the command (m = 0..6 and m = 65..73). -/
def symbology (m : Byte) : Option BarcodeType :=
  match m.toNat with
  | 0 | 65 => some .upcA
  | 1 | 66 => some .upcE
  | 2 | 67 => some .ean13
  | 3 | 68 => some .ean8
  | 4 | 69 => some .code39
  | 5 | 70 => some .itf
  | 6 | 71 => some .nw7Codabar
  | 72 => some .code93
  | 73 => some .code128
  | _ => none

/-- The amounts of data a symbology takes. -/
def dataLength (k : BarcodeType) (n : Nat) : Bool :=
  n ≤ 255 && match k with
  | .upcA => n = 11 ∨ n = 12
  | .upcE => n = 6 ∨ n = 7 ∨ n = 8 ∨ n = 11 ∨ n = 12
  | .ean13 => n = 12 ∨ n = 13
  | .ean8 => n = 7 ∨ n = 8
  | .code39 | .code93 => 1 ≤ n
  | .itf | .nw7Codabar | .code128 => 2 ≤ n
  | _ => false

/-! ### UPC-E -/

/-- The zero suppression of UPC: from number system, manufacturer and product to the seven digits of UPC-E. -/
def suppress (upcA : List Byte) : Option (List Byte) :=
  match upcA with
  | [s, a, b, c, d, e, p0, p1, p2, p3, p4] =>
    if 2 ≤ s then none
    else if c ≤ 2 ∧ d = 0 ∧ e = 0 then if p0 = 0 ∧ p1 = 0 then some [s, a, b, p2, p3, p4, c] else none
    else if d = 0 ∧ e = 0 then if p0 = 0 ∧ p1 = 0 ∧ p2 = 0 then some [s, a, b, c, p3, p4, 3] else none
    else if e = 0 then if p0 = 0 ∧ p1 = 0 ∧ p2 = 0 ∧ p3 = 0 then some [s, a, b, c, d, p4, 4] else none
    else if p0 = 0 ∧ p1 = 0 ∧ p2 = 0 ∧ p3 = 0 ∧ 5 ≤ p4 then some [s, a, b, c, d, e, p4] else none
  | _ => none

/-- The UPC-A number (without its check digit) of the seven digits of UPC-E. -/
def unsuppress (upcE : List Byte) : List Byte :=
  match upcE with
  | [s, a, b, c, d, e, l] =>
    if l ≤ 2 then [s, a, b, l, 0, 0, 0, 0, c, d, e]
    else if l = 3 then [s, a, b, c, 0, 0, 0, 0, 0, d, e]
    else if l = 4 then [s, a, b, c, d, 0, 0, 0, 0, 0, e]
    else [s, a, b, c, d, e, 0, 0, 0, 0, l]
  | _ => []

/-- The check digit of UPC. -/
def upcCheck (upcA : List Byte) : Byte := UInt8.ofNat ((10 - upcSum upcA % 10) % 10)

/-- The UPC-A number that the digits of a UPC-E barcode stand for, and the check digit: as given (8 or 12 digits), else calculated.
Six digits belong to number system 0. -/
def upcNumber (digits : List Byte) : List Byte × Byte :=
  let number :=
    if digits.length = 6 then unsuppress (0 :: digits)
    else if digits.length ≤ 8 then unsuppress (digits.take 7)
    else digits.take 11
  (number, if digits.length = 8 then digits.getD 7 0 else if digits.length = 12 then digits.getD 11 0 else upcCheck number)

/-- The modules of a UPC-E barcode. -/
def upceModules (data : List Byte) : Option (List Byte) :=
  if data.all (fun b => 48 ≤ b ∧ b ≤ 57) then
    let n := upcNumber (data.map (· - 48))
    (suppress n.1).map fun u => upceSymbol (u ++ [n.2])
  else none

/-! ### CODE128 -/

/-- The selections of a code set, `{A`, `{B` and `{C`, as the encoder expects them. -/
def codeSets : Str → Str
  | '{' :: 'A' :: s => 'À' :: codeSets s
  | '{' :: 'B' :: s => 'Ɓ' :: codeSets s
  | '{' :: 'C' :: s => 'Ć' :: codeSets s
  | c :: s => c :: codeSets s
  | [] => []

/-- The text without the selections of a code set. -/
def withoutCodeSets : Str → Str
  | '{' :: 'A' :: s => withoutCodeSets s
  | '{' :: 'B' :: s => withoutCodeSets s
  | '{' :: 'C' :: s => withoutCodeSets s
  | c :: s => c :: withoutCodeSets s
  | [] => []

/-! ### All -/

/-- What is encoded, for the symbologies other than UPC-E: EAN-13 takes the twelve digits before the check digit, CODE39 adds its
start and stop characters itself. -/
def encodedText (k : BarcodeType) (text : Str) : Str :=
  match k with
  | .ean13 => text.take 12
  | .code39 => text.filter (· ≠ '*')
  | .code128 => codeSets text
  | _ => text

/-- What is printed as text. -/
def captionText (k : BarcodeType) (text : Str) : Str :=
  match k with
  | .code128 => withoutCodeSets text
  | _ => text

/-- The modules and the text of the barcode `GS k m` with some data; none if there is no such barcode. -/
def barcode (ext : Ext) (m : Byte) (data : List Byte) : Option (List Byte × Str) :=
  match symbology m with
  | none => none
  | some k =>
    if dataLength k data.length then
      if k = .upcE then (upceModules data).map fun ms => (ms, asciiText data)
      else match ext.encode k (encodedText k (asciiText data)) with
        | .ok ms => some (ms, captionText k (asciiText data))
        | .error _ => none
    else none

/-- The barcodes that this program treats differently: m = 74..79; data other than ASCII; ITF and Codabar of two characters;
UPC-A numbers that cannot be suppressed; CODE128 with a `{` that does not select a code set. -/
def barcodeDeviates (m : Byte) (data : List Byte) : Prop :=
  74 ≤ m.toNat ∨ (∃ b ∈ data, 128 ≤ b) ∨
  ((symbology m = some .itf ∨ symbology m = some .nw7Codabar) ∧ data.length = 2) ∨
  (symbology m = some .upcE ∧ 11 ≤ data.length ∧ data.all (fun b => 48 ≤ b ∧ b ≤ 57) ∧ data.getD 0 0 ≤ 49 ∧
    suppress ((data.map (· - 48)).take 11) = none) ∨
  (symbology m = some .code128 ∧ '{' ∈ withoutCodeSets (asciiText data))

instance (m : Byte) (data : List Byte) : Decidable (barcodeDeviates m data) := by unfold barcodeDeviates; infer_instance

end Thermal.Spec
