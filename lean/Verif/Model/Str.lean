import Verif.Rust
/-
Rust strings.  A `&str`/`String` is modelled as its list of characters (Unicode scalar values); byte offsets, as
used by slicing, are computed with the UTF-8 length of each character.
-/
namespace Thermal

/-- A Rust `&str` / `String`. -/
abbrev Str := List Char

/-- `str::len` : number of UTF-8 bytes. -/
def Str.byteLen (s : Str) : Nat := (s.map Char.utf8Size).sum

/-- `str::as_bytes`. -/
def Str.bytes (s : Str) : List Byte := s.flatMap String.utf8EncodeChar

/-- Split at a byte offset; `none` when the offset is not on a character boundary (or beyond the end). -/
def Str.splitAtByte : Str → Nat → Option (Str × Str)
  | s, 0 => some ([], s)
  | [], _ + 1 => none
  | c :: s, n + 1 =>
    if n + 1 < c.utf8Size then none
    else (Str.splitAtByte s (n + 1 - c.utf8Size)).map (fun (a, b) => (c :: a, b))

/-- `&s[a..b]`: panics unless `a ≤ b` and both are character boundaries. -/
def Str.slice (s : Str) (a b : Nat) : Rs Str :=
  match s.splitAtByte b with
  | none => .error .slice
  | some (front, _) =>
    match Str.splitAtByte front a with
    | none => .error .slice
    | some (_, r) => .ok r

/-- `&s[a..]`. -/
def Str.sliceFrom (s : Str) (a : Nat) : Rs Str :=
  match s.splitAtByte a with
  | none => .error .slice
  | some (_, r) => .ok r

/-- `str::starts_with(&str)`. -/
def Str.startsWith (s p : Str) : Bool := p.isPrefixOf s

/-- `str::replace(from, to)` for a pattern of exactly two characters: leftmost, non-overlapping. -/
def Str.replace2 (x y : Char) (to : Str) : Str → Str
  | a :: b :: s => if a = x ∧ b = y then to ++ Str.replace2 x y to s else a :: Str.replace2 x y to (b :: s)
  | [a] => [a]
  | [] => []

/-- `char::is_ascii_whitespace`. -/
def isAsciiWhitespace (c : Char) : Bool :=
  c.toNat = 0x20 || c.toNat = 0x09 || c.toNat = 0x0A || c.toNat = 0x0C || c.toNat = 0x0D

/-- `char::is_whitespace`: the Unicode property White_Space. -/
def isWhitespace (c : Char) : Bool :=
  let n := c.toNat
  (9 ≤ n && n ≤ 13) || n = 0x20 || n = 0x85 || n = 0xA0 || n = 0x1680 || (0x2000 ≤ n && n ≤ 0x200A) ||
  n = 0x2028 || n = 0x2029 || n = 0x202F || n = 0x205F || n = 0x3000

/-- `s.trim().is_empty()`. -/
def Str.isBlank (s : Str) : Bool := s.all isWhitespace

/-- `str::trim`. -/
def Str.trim (s : Str) : Str := ((s.dropWhile isWhitespace).reverse.dropWhile isWhitespace).reverse

/-- one line of `str::lines` without its terminator: a trailing `\r` is removed too when a `\n` ended the line -/
def stripCr (s : Str) : Str := if s.getLast? = some '\r' then s.dropLast else s

/-- `str::lines`: split after every `\n`; strip `\n` or `\r\n` from each piece; no empty piece at the end. -/
def Str.linesAux : Str → Str → List Str
  | [], acc => if acc = [] then [] else [acc]
  | c :: s, acc => if c = '\n' then stripCr acc :: Str.linesAux s [] else Str.linesAux s (acc ++ [c])

/-- `str::lines`. -/
def Str.lines (s : Str) : List Str := Str.linesAux s []

/-- `char::to_digit(radix)` for radix 10 or 16. -/
def toDigit (radix : Nat) (c : Char) : Option Nat :=
  let n := c.toNat
  let d := if 0x30 ≤ n ∧ n ≤ 0x39 then some (n - 0x30)
    else if 0x61 ≤ n ∧ n ≤ 0x7A then some (n - 0x61 + 10)
    else if 0x41 ≤ n ∧ n ≤ 0x5A then some (n - 0x41 + 10)
    else none
  match d with
  | some d => if d < radix then some d else none
  | none => none

/-- accumulate digits into a u8; `none` on an invalid digit or overflow -/
def accU8 (radix : Nat) : Str → Nat → Option Nat
  | [], acc => some acc
  | c :: s, acc =>
    match toDigit radix c with
    | none => none
    | some d => if acc * radix + d < 256 then accU8 radix s (acc * radix + d) else none

/-- `u8::from_str_radix(s, radix).ok()` (also `s.parse::<u8>().ok()` with radix 10): one leading '+' is allowed. -/
def u8FromStrRadix (radix : Nat) (s : Str) : Option Byte :=
  match s with
  | [] => none
  | ['+'] => none
  | '+' :: rest => (accU8 radix rest 0).map UInt8.ofNat
  | s => (accU8 radix s 0).map UInt8.ofNat

/-- `format!("{}", byte)`. -/
def decimal (b : Byte) : Str := Nat.toDigits 10 b.toNat

/-- an upper-case hexadecimal digit -/
def hexDigit (n : Nat) : Char := "0123456789ABCDEF".toList.getD n '0'

/-- `format!("{:02X}", byte)`. -/
def hex02 (b : Byte) : Str := [hexDigit (b.toNat / 16), hexDigit (b.toNat % 16)]

/-- a UTF-8 continuation byte -/
def isCont (b : Byte) : Bool := 0x80 ≤ b && b ≤ 0xBF

/-- Decode one character from the front of a byte string; returns it with the remaining bytes. -/
def utf8DecodeFirst : List Byte → Option (Char × List Byte)
  | [] => none
  | b0 :: rest =>
    let v0 := b0.toNat
    if v0 < 0x80 then some (Char.ofNat v0, rest)
    else if 0xC2 ≤ v0 ∧ v0 ≤ 0xDF then
      match rest with
      | b1 :: rest => if isCont b1 then some (Char.ofNat ((v0 - 0xC0) * 64 + (b1.toNat - 0x80)), rest) else none
      | _ => none
    else if 0xE0 ≤ v0 ∧ v0 ≤ 0xEF then
      match rest with
      | b1 :: b2 :: rest =>
        let v := ((v0 - 0xE0) * 64 + (b1.toNat - 0x80)) * 64 + (b2.toNat - 0x80)
        if isCont b1 && isCont b2 && decide (0x800 ≤ v) && !(decide (0xD800 ≤ v) && decide (v ≤ 0xDFFF)) then
          some (Char.ofNat v, rest) else none
      | _ => none
    else if 0xF0 ≤ v0 ∧ v0 ≤ 0xF4 then
      match rest with
      | b1 :: b2 :: b3 :: rest =>
        let v := (((v0 - 0xF0) * 64 + (b1.toNat - 0x80)) * 64 + (b2.toNat - 0x80)) * 64 + (b3.toNat - 0x80)
        if isCont b1 && isCont b2 && isCont b3 && decide (0x10000 ≤ v) && decide (v ≤ 0x10FFFF) then
          some (Char.ofNat v, rest) else none
      | _ => none
    else none

/-- Number of bytes replaced by one U+FFFD when the front of the string is not a character (the maximal valid
subpart of a sequence, at least one byte). -/
def utf8BadLen : List Byte → Nat
  | b0 :: b1 :: rest =>
    let ok2 : Bool :=
      if b0 = 0xE0 then 0xA0 ≤ b1 && b1 ≤ 0xBF else if b0 = 0xED then 0x80 ≤ b1 && b1 ≤ 0x9F
      else if 0xE1 ≤ b0 ∧ b0 ≤ 0xEF then isCont b1
      else if b0 = 0xF0 then 0x90 ≤ b1 && b1 ≤ 0xBF else if b0 = 0xF4 then 0x80 ≤ b1 && b1 ≤ 0x8F
      else if 0xF1 ≤ b0 ∧ b0 ≤ 0xF3 then isCont b1 else false
    if !ok2 then 1
    else if b0 ≥ 0xF0 then (match rest with | b2 :: _ => if isCont b2 then 3 else 2 | [] => 2)
    else 2
  | _ => 1

/-- `String::from_utf8_lossy` (the first argument bounds the number of steps; the length is enough). -/
def fromUtf8LossyAux : Nat → List Byte → Str
  | 0, _ => []
  | _, [] => []
  | n + 1, bs =>
    match utf8DecodeFirst bs with
    | some (c, rest) => c :: fromUtf8LossyAux n rest
    | none => '\uFFFD' :: fromUtf8LossyAux n (bs.drop (utf8BadLen bs))

/-- `String::from_utf8_lossy`. -/
def fromUtf8Lossy (bs : List Byte) : Str := fromUtf8LossyAux bs.length bs

end Thermal
