import Verif.Model.Str
/-
Model of thermal_parser/src/utils/barcodes/upce.rs.  A `UPCE(Vec<u8>)` is its list of eight digits; the data string is
given by its UTF-8 bytes (the code only looks at `data.as_bytes()`).  `Result<_, String>` is `Except String`.
-/
namespace Thermal

/-- `a + b` on `u8`. -/
def addU8 (a b : Nat) : Rs Nat := if a + b < 256 then .ok (a + b) else .error .overflow

/-- `a * b` on `u8`. -/
def mulU8 (a b : Nat) : Rs Nat := if a * b < 256 then .ok (a * b) else .error .overflow

/-- The constants `LEFT_GUARD` and `MIDDLE_GUARD` of barcoders::sym::ean13 (external crate, trusted). -/
def leftGuard : List Byte := [1, 0, 1]
/-- See `leftGuard`. -/
def middleGuard : List Byte := [0, 1, 0, 1, 0]
/-- upce.rs:3 -/
def upceRightGuard : List Byte := [1]

/-- The constant `ENCODINGS` of barcoders::sym::ean13 (external crate, trusted): the L, G and R codes of EAN. -/
def eanEncodings : List (List (List Byte)) :=
  [ [ [0,0,0,1,1,0,1], [0,0,1,1,0,0,1], [0,0,1,0,0,1,1], [0,1,1,1,1,0,1], [0,1,0,0,0,1,1],
      [0,1,1,0,0,0,1], [0,1,0,1,1,1,1], [0,1,1,1,0,1,1], [0,1,1,0,1,1,1], [0,0,0,1,0,1,1] ],
    [ [0,1,0,0,1,1,1], [0,1,1,0,0,1,1], [0,0,1,1,0,1,1], [0,1,0,0,0,0,1], [0,0,1,1,1,0,1],
      [0,1,1,1,0,0,1], [0,0,0,0,1,0,1], [0,0,1,0,0,0,1], [0,0,0,1,0,0,1], [0,0,1,0,1,1,1] ],
    [ [1,1,1,0,0,1,0], [1,1,0,0,1,1,0], [1,1,0,1,1,0,0], [1,0,0,0,0,1,0], [1,0,1,1,1,0,0],
      [1,0,0,1,1,1,0], [1,0,1,0,0,0,0], [1,0,0,0,1,0,0], [1,0,0,1,0,0,0], [1,1,1,0,1,0,0] ] ]

/-- upce.rs:8-35 -/
def upceParityTable : List (List (List Nat)) :=
  [ [ [1,1,1,0,0,0], [1,1,0,1,0,0], [1,1,0,0,1,0], [1,1,0,0,0,1], [1,0,1,1,0,0],
      [1,0,0,1,1,0], [1,0,0,0,1,1], [1,0,1,0,1,0], [1,0,1,0,0,1], [1,0,0,1,0,1] ],
    [ [0,0,0,1,1,1], [0,0,1,0,1,1], [0,0,1,1,0,1], [0,0,1,1,1,0], [0,1,0,0,1,1],
      [0,1,1,0,0,1], [0,1,1,1,0,0], [0,1,0,1,0,1], [0,1,0,1,1,0], [0,1,1,0,1,0] ] ]

/-- upce.rs:312-324: the loop of `calculate_checkdigit`; `odd` tells whether the index plus one is odd. -/
def checkSums : List Byte → Bool → Nat × Nat → Rs (Nat × Nat)
  | [], _, acc => pure acc
  | d :: ds, true, (odds, evens) => do checkSums ds false (← addU8 odds d.toNat, evens)
  | d :: ds, false, (odds, evens) => do checkSums ds true (odds, ← addU8 evens d.toNat)

/-- upce.rs:312-330 `calculate_checkdigit` (u8 arithmetic) -/
def calculateCheckdigit (data : List Byte) : Rs Byte := do
  let (odds, evens) ← checkSums data true (0, 0)
  let odds ← mulU8 odds 3
  let s ← addU8 odds evens
  pure (UInt8.ofNat (if 10 - s % 10 = 10 then 0 else 10 - s % 10))

/-- upce.rs:151-253 `from_upc_a` -/
def fromUpcA (upcA : List Byte) : Except String (List Byte) :=
  match upcA with
  | [nsys, m0, m1, m2, m3, m4, p0, p1, p2, p3, p4, chck] =>
    if nsys ≠ 1 ∧ nsys ≠ 0 then .error "Invalid UPCA: The number system (first digit) should be 0 or 1."
    else if [m2, m3, m4] = [0, 0, 0] ∨ [m2, m3, m4] = [1, 0, 0] ∨ [m2, m3, m4] = [2, 0, 0] then
      if p0 ≠ 0 ∧ p1 ≠ 0 then .error "Invalid UPCA: Product code can not be greater than 00999."
      else .ok [nsys, m0, m1, p2, p3, p4, m2, chck]
    else if [m3, m4] = [0, 0] then
      if p0 ≠ 0 ∧ p1 ≠ 0 then .error "Invalid UPCA: Product code can not be greater than 00999."
      else .ok [nsys, m0, m1, m2, p3, p4, 3, chck]
    else if [m4] = [0] then
      if p0 ≠ 0 ∧ p1 ≠ 0 ∧ p2 ≠ 0 ∧ p3 ≠ 0 then .error "Invalid UPCA: Product code can not be greater than 00009."
      else .ok [nsys, m0, m1, m2, m3, p4, 4, chck]
    else if m4 ≠ 0 then
      if p0 ≠ 0 ∨ p1 ≠ 0 ∨ p2 ≠ 0 ∨ p3 ≠ 0 ∨ p4 < 5 ∨ p4 > 9 then
        .error "Invalid UPCA: Product code can not be greater than 00005 and less than 00009."
      else .ok [nsys, m0, m1, m2, m3, m4, p4, chck]
    else .error "Invalid UPCA: Unable to compress into UPCE, manufacturer code does not end in zero."
  | _ => .error "Invalid UPCA: The UPCA length is not correct, should be 12 digits."

/-- upce.rs:107-136: the expansion of the seven digits, by the last one. -/
def expandUpce : List Byte → Except String (List Byte)
  | [b0, b1, b2, b3, b4, b5, b6] =>
    if b6 = 0 ∨ b6 = 1 ∨ b6 = 2 then .ok [b0, b1, b2, b6, 0, 0, 0, 0, b3, b4, b5]
    else if b6 = 3 then .ok [b0, b1, b2, b3, 0, 0, 0, 0, 0, b4, b5]
    else if b6 = 4 then .ok [b0, b1, b2, b3, b4, 0, 0, 0, 0, 0, b5]
    else if 5 ≤ b6 ∧ b6 ≤ 9 then .ok [b0, b1, b2, b3, b4, b5, 0, 0, 0, 0, b6]
    else .error "Invalid UPCE: The last digit should be a 3,4,5,6,7,8 or 9"
  | _ => .error "unreachable"

/-- upce.rs:94-146 `from_upc_e` -/
def fromUpcE (upcE : List Byte) : Rs (Except String (List Byte)) :=
  if upcE.length < 7 ∨ upcE.length > 8 then
    pure (.error "Invalid UPCE: The UPCE length is not correct, should be 7 or 8 digits.")
  else
    match expandUpce (upcE.take 7) with
    | .error m => pure (.error m)
    | .ok upcA =>
      match upcE[7]? with
      | some checksum => pure (fromUpcA (upcA ++ [checksum]))
      | none => do
        let c ← calculateCheckdigit upcA
        pure (fromUpcA (upcA ++ [c]))

/-- `u8::is_ascii_digit` -/
def isDigitByte (b : Byte) : Bool := 48 ≤ b && b ≤ 57

/-- upce.rs:47-88 `UPCE::new` -/
def upceNew (data : List Byte) : Rs (Except String (List Byte)) :=
  if data.any (fun b => !isDigitByte b) then pure (.error "Invalid UPCA: Only digits 1 - 9 are valid.")
  else
    let digits := data.map (fun b => b - 48)
    if digits.length = 6 then fromUpcE (0 :: digits)
    else if digits.length = 7 then fromUpcE digits
    else if digits.length = 8 then fromUpcE digits
    else if digits.length = 11 then do
      let c ← calculateCheckdigit digits
      pure (fromUpcA (digits ++ [c]))
    else if digits.length = 12 then pure (fromUpcA digits)
    else pure (.error "Invalid UPCA: Data length is not correct. Valid lengths are 6,7,8,11 and 12")

/-- upce.rs:255-258 `get_parity_encoding` -/
def upceParity (u : List Byte) : Rs (List Nat) := do
  let s ← idx u 0
  let t ← idx upceParityTable s.toNat
  let c ← idx u 7
  idx t c.toNat

/-- upce.rs:261-263 `char_encoding` -/
def charEncoding (side : Nat) (d : Byte) : Rs (List Byte) := do
  let t ← idx eanEncodings side
  idx t d.toNat

/-- upce.rs:284-287: encode the zipped digits and parities. -/
def encodeDigits : List (Byte × Nat) → Rs (List Byte)
  | [] => pure []
  | (d, s) :: rest => do
    let e ← charEncoding s d
    let r ← encodeDigits rest
    pure (e ++ r)

/-- upce.rs:282-291 `upce_payload` -/
def upcePayload (u : List Byte) : Rs (List Byte) := do
  let ds ← slice u 1 7
  let p ← upceParity u
  encodeDigits (ds.zip p)

/-- upce.rs:296-305 `encode` -/
def upceEncode (u : List Byte) : Rs (List Byte) := do
  let p ← upcePayload u
  pure (leftGuard ++ p ++ middleGuard ++ upceRightGuard)

end Thermal
