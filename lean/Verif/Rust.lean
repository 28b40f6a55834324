/-
Rust.lean — the fragment of Rust's run-time behaviour the model needs.

A Rust function that can panic is modelled as a function into `Rs α := Except Panic α`.
The checked operations below follow the debug profile of rustc (overflow checks on):
they return a panic exactly where the compiled code would panic.  When they return `ok`
no wrap-around took place, so a release build computes the same value.
-/
namespace Thermal

/-- The reasons for which the modelled Rust code can panic. -/
inductive Panic where
  /-- arithmetic overflow or underflow (debug profile) -/
  | overflow
  /-- division or remainder by zero -/
  | divZero
  /-- index out of bounds -/
  | index
  /-- slice range out of bounds or not on a UTF-8 boundary -/
  | slice
  /-- `unwrap` on `None` -/
  | unwrapNone
  /-- an explicit `panic!` -/
  | explicit
  /-- a panic inside an external crate -/
  | external
  deriving DecidableEq, Repr

/-- Result of a Rust computation that may panic. -/
abbrev Rs (α : Type) := Except Panic α

instance decEqExcept {ε α : Type} [DecidableEq ε] [DecidableEq α] : DecidableEq (Except ε α)
  | .ok a, .ok b => if h : a = b then isTrue (by rw [h]) else isFalse (by intro h'; cases h'; exact h rfl)
  | .error a, .error b => if h : a = b then isTrue (by rw [h]) else isFalse (by intro h'; cases h'; exact h rfl)
  | .ok _, .error _ => isFalse (by intro h; cases h)
  | .error _, .ok _ => isFalse (by intro h; cases h)

/-- A Rust byte (`u8`). -/
abbrev Byte := UInt8

/-- `u32::MAX + 1`. -/
abbrev U32 : Nat := 4294967296

/-- `a + b` on `u32`. -/
def addU32 (a b : Nat) : Rs Nat := if a + b < U32 then .ok (a + b) else .error .overflow

/-- `a - b` on any unsigned type. -/
def subU (a b : Nat) : Rs Nat := if b ≤ a then .ok (a - b) else .error .overflow

/-- `a * b` on `u32`. -/
def mulU32 (a b : Nat) : Rs Nat := if a * b < U32 then .ok (a * b) else .error .overflow

/-- `a / b` on any unsigned type (also `saturating_div`). -/
def divU (a b : Nat) : Rs Nat := if b = 0 then .error .divZero else .ok (a / b)

/-- `v[i]`. -/
def idx {α} (l : List α) (i : Nat) : Rs α :=
  match l[i]? with
  | some x => .ok x
  | none => .error .index

/-- `&v[a..b]`. -/
def slice {α} (l : List α) (a b : Nat) : Rs (List α) :=
  if a ≤ b ∧ b ≤ l.length then .ok ((l.take b).drop a) else .error .slice

/-- `*v.get(i).unwrap()`. -/
def getUnwrap {α} (l : List α) (i : Nat) : Rs α :=
  match l[i]? with
  | some x => .ok x
  | none => .error .unwrapNone

/-- `*v.get(i).unwrap_or(&d)`. -/
def getOr {α} (l : List α) (i : Nat) (d : α) : α := (l[i]?).getD d

end Thermal
