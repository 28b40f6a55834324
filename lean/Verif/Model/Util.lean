import Verif.Rust
/-
Model of thermal_parser/src/util.rs and thermal_parser/src/constants.rs
-/
namespace Thermal

/-- constants.rs:1-11 -/
def NUL : Byte := 0x00
/-- constants.rs:2 -/
def ESC : Byte := 0x1B
/-- constants.rs:3 -/
def HT : Byte := 0x09
/-- constants.rs:4 -/
def LF : Byte := 0x0A
/-- constants.rs:5 -/
def FF : Byte := 0x0C
/-- constants.rs:6 -/
def CR : Byte := 0x0D
/-- constants.rs:7 -/
def GS : Byte := 0x1D
/-- constants.rs:8 -/
def FS : Byte := 0x1C
/-- constants.rs:9 -/
def DLE : Byte := 0x10
/-- constants.rs:10 -/
def CAN : Byte := 0x18

/-- A Rust `'c' as u8` literal for an ASCII character. -/
def ch (c : Char) : Byte := c.toNat.toUInt8

/-- util.rs:1-6 `parse_u16`: `(high << 8) | low` with missing bytes read as 0 (as a `u16` value). -/
def parseU16 (bytes : List Byte) (index : Nat) : Nat :=
  let low := getOr bytes index 0
  let high := getOr bytes (index + 1) 0
  (high.toNat <<< 8) ||| low.toNat

/-- util.rs:8-16 `parse_u32`: `(b3 << 24) | b2 << 16 | b1 << 8 | b0`. -/
def parseU32 (bytes : List Byte) (index : Nat) : Nat :=
  let b0 := (getOr bytes index 0).toNat
  let b1 := (getOr bytes (index + 1) 0).toNat
  let b2 := (getOr bytes (index + 2) 0).toNat
  let b3 := (getOr bytes (index + 3) 0).toNat
  (((b3 <<< 24) ||| (b2 <<< 16)) ||| (b1 <<< 8)) ||| b0

/-- util.rs:20-31 `bitflags_lsb`; the Rust 8-tuple is a list of 8 booleans. -/
def bitflagsLsb (byte : Byte) : List Bool :=
  [ (byte &&& ((1 : Byte) <<< 0)) != 0, (byte &&& ((1 : Byte) <<< 1)) != 0, (byte &&& ((1 : Byte) <<< 2)) != 0,
    (byte &&& ((1 : Byte) <<< 3)) != 0, (byte &&& ((1 : Byte) <<< 4)) != 0, (byte &&& ((1 : Byte) <<< 5)) != 0,
    (byte &&& ((1 : Byte) <<< 6)) != 0, (byte &&& ((1 : Byte) <<< 7)) != 0 ]

/-- util.rs:33-44 `bitflags_msb`. -/
def bitflagsMsb (byte : Byte) : List Bool :=
  [ (byte &&& ((1 : Byte) <<< 7)) != 0, (byte &&& ((1 : Byte) <<< 6)) != 0, (byte &&& ((1 : Byte) <<< 5)) != 0,
    (byte &&& ((1 : Byte) <<< 4)) != 0, (byte &&& ((1 : Byte) <<< 3)) != 0, (byte &&& ((1 : Byte) <<< 2)) != 0,
    (byte &&& ((1 : Byte) <<< 1)) != 0, (byte &&& ((1 : Byte) <<< 0)) != 0 ]

end Thermal
