import Verif.Proofs.Outfit
import Verif.Proofs.F32Places
import Verif.Spec.Picture
/-
The heights of characters and lines; with them the `f32` places are exact.
-/
namespace Thermal
open Spec

theorem Call.Wears.spans {P : TextSpan → Prop} {x : Call} (h : x.Wears P) : ∀ t ∈ x.spans, P t := by
  cases x <;> try (intro t ht; exact absurd ht List.not_mem_nil)
  exact h.1

theorem Outfit.Span.mem {s : TextSpan} (h : Outfit.Span s) : s.characterHeight ∈ F32.heights := by
  have key : ∀ n ∈ sizes, ∀ k ∈ cells, k.2 * n ∈ F32.heights := by decide
  rw [h.high]
  exact key _ h.height _ h.cell

theorem F32.heights_le {h : Nat} (hh : h ∈ heights) : h ≤ 192 := by
  have : ∀ h ∈ heights, h ≤ 192 := by decide
  exact this h hh

theorem Outfit.Span.le {s : TextSpan} (h : Outfit.Span s) : s.characterHeight ≤ 192 := F32.heights_le h.mem

/-- The height of a line: the height of one of its pieces. -/
theorem lineHeight_mem {l : List TextSpan} (h : ∀ t ∈ l, Outfit.Span t) : l = [] ∧ lineHeight l = 0 ∨ lineHeight l ∈ F32.heights := by
  have key : ∀ (l : List TextSpan) (n : Nat), (∀ t ∈ l, Outfit.Span t) → n ∈ F32.heights → l.foldl (fun h s => max h s.characterHeight) n ∈ F32.heights := by
    intro l
    induction l with
    | nil => intro n _ hn; exact hn
    | cons a l ih =>
      intro n hl hn
      refine ih _ (fun t ht => hl t (by simp [ht])) ?_
      have := (hl a (by simp)).mem
      dsimp only
      rcases Nat.le_total n a.characterHeight with hle | hle
      · rw [Nat.max_eq_right hle]; exact this
      · rw [Nat.max_eq_left hle]; exact hn
  cases l with
  | nil => exact .inl ⟨rfl, rfl⟩
  | cons a l =>
    right
    have := key l (max 0 a.characterHeight) (fun t ht => h t (by simp [ht])) (by rw [Nat.zero_max]; exact (h a (by simp)).mem)
    exact this

theorem lineHeight_le {l : List TextSpan} (h : ∀ t ∈ l, Outfit.Span t) : lineHeight l ≤ 192 := by
  rcases lineHeight_mem h with ⟨_, e⟩ | e
  · omega
  · exact F32.heights_le e

namespace Canvas

theorem ratio_baselineOf (font : Font) (h : Nat) : h * (F32.ratioOf font).1 / (F32.ratioOf font).2 = baselineOf font h := by
  have key : ∀ a b c d : Nat, 0 < b → 0 < d → a * d = c * b → h * a / b = h * c / d := by
    intro a b c d hb hd e
    rw [← Nat.mul_div_mul_right (h * a) b hd, ← Nat.mul_div_mul_right (h * c) d hb, Nat.mul_assoc h a, Nat.mul_assoc h c, e, Nat.mul_comm b d]
  cases font <;> exact key _ _ _ _ (by decide) (by decide) (by decide)

theorem baseline_eq {font : Font} {h : Nat} (hh : h ≤ 255) : baseline font h = baselineOf font h :=
  (F32.baseline_exact font hh).trans (ratio_baselineOf font h)

theorem spanOffset_eq {font : Font} {g h off : Nat} (hg : g ≤ 255) (e : spanOffset font g h = .ok off) : h ≤ g ∧ off = baselineOf font (g - h) := by
  simp only [spanOffset, bind_ok, subU_ok, pure_ok] at e
  obtain ⟨_, ⟨hle, rfl⟩, e⟩ := e
  refine ⟨hle, ?_⟩
  rw [← e]
  split
  · rw [F32.shift_exact font hg (by omega)]; exact ratio_baselineOf font _
  · rename_i h0
    rw [show g - h = 0 by omega]
    cases font <;> rfl

theorem spanOffset_ok {font : Font} {g h : Nat} (hg : g ≤ 255) (hh : h ≤ g) : spanOffset font g h = .ok (baselineOf font (g - h)) := by
  have : ∃ off, spanOffset font g h = .ok off := by
    unfold spanOffset
    rw [show subU g h = .ok (g - h) from subU_ok.2 ⟨hh, rfl⟩]
    exact ⟨_, rfl⟩
  obtain ⟨off, e⟩ := this
  rw [e, (spanOffset_eq hg e).2]

end Canvas
end Thermal
