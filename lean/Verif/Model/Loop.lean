import Verif.Rust
/-
Loops over index ranges that write into vectors.
-/
namespace Thermal

/-- `for i in 0..n { body }` where the body may panic. -/
def forRange {σ : Type} (n : Nat) (s : σ) (body : σ → Nat → Rs σ) : Rs σ := (List.range n).foldlM body s

/-- `v[i] = x` -/
def setIdx {α : Type} (l : List α) (i : Nat) (x : α) : Rs (List α) :=
  if i < l.length then .ok (l.set i x) else .error .index

end Thermal
