import Verif.Model.Str
/-
Facts about the string model.
-/
namespace Thermal

theorem splitAtByte_append (a b : Str) : Str.splitAtByte (a ++ b) a.byteLen = some (a, b) := by
  induction a with
  | nil => cases b <;> simp [Str.splitAtByte, Str.byteLen]
  | cons c a ih =>
    have hp := Char.utf8Size_pos c
    have he : Str.byteLen (c :: a) = c.utf8Size + Str.byteLen a := by simp [Str.byteLen]
    rw [he]
    obtain ⟨n, hn⟩ : ∃ n, c.utf8Size + Str.byteLen a = n + 1 := ⟨c.utf8Size + Str.byteLen a - 1, by omega⟩
    rw [hn, List.cons_append, Str.splitAtByte, if_neg (by omega)]
    have : n + 1 - c.utf8Size = Str.byteLen a := by omega
    rw [this, ih]; rfl

theorem byteLen_append (a b : Str) : Str.byteLen (a ++ b) = a.byteLen + b.byteLen := by simp [Str.byteLen]

theorem byteLen_pos {a : Str} : 0 < a.byteLen ↔ a ≠ [] := by
  rcases a with _ | ⟨c, a⟩
  · simp [Str.byteLen]
  · have := Char.utf8Size_pos c
    simp [Str.byteLen]; omega

/-- slicing at the ends of a part returns the part -/
theorem slice_mid (a b c : Str) : Str.slice (a ++ b ++ c) a.byteLen (a.byteLen + b.byteLen) = .ok b := by
  unfold Str.slice
  rw [← byteLen_append, splitAtByte_append]
  simp only [splitAtByte_append]

theorem sliceFrom_mid (a b : Str) : Str.sliceFrom (a ++ b) a.byteLen = .ok b := by
  unfold Str.sliceFrom
  rw [splitAtByte_append]

theorem byteLen_ascii {s : Str} (h : ∀ c ∈ s, c.utf8Size = 1) : s.byteLen = s.length := by
  induction s with
  | nil => rfl
  | cons c s ih =>
    have h1 := h c (by simp)
    have h2 := ih (fun d hd => h d (by simp [hd]))
    simp only [Str.byteLen, List.map_cons, List.sum_cons, List.length_cons] at *
    omega

/-- the byte length is the number of bytes -/
theorem bytes_length (s : Str) : s.bytes.length = s.byteLen := by
  induction s with
  | nil => rfl
  | cons c s ih => simp [Str.bytes, Str.byteLen] at *

end Thermal
