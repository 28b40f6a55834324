import Verif.Proofs.ParserAuto
import Verif.Spec.SubCommands
/-
The lookup loops of subcommands/mod.rs compute the function tables.
-/
namespace Thermal

theorem byte_all {P : Byte → Prop} (h : ∀ n < 256, P (UInt8.ofNat n)) (b : Byte) : P b := by
  have := h b.toNat (UInt8.toNat_lt b)
  rwa [UInt8.ofNat_toNat] at this

theorem detectKind_graphics (fn : Byte) :
    detectKind gsGraphicsAll fn none = Spec.graphicsFunction fn := by
  refine byte_all (P := fun fn => detectKind gsGraphicsAll fn none = Spec.graphicsFunction fn) ?_ fn
  decide +kernel

theorem detectKind_none (fn : Byte) : detectKind [] fn none = none := rfl

theorem foldl_skip (m id : Byte) (prev : Option SubCmd) (t : List SubCmd)
    (h : ∀ c ∈ t, ∃ f, c.commands[0]? = some f ∧ f ≠ m) : detectKindUseM t m id prev = prev := by
  induction t generalizing prev with
  | nil => rfl
  | cons c t ih =>
    obtain ⟨f, hf, hne⟩ := h c (by simp)
    unfold detectKindUseM
    simp only [List.foldl_cons, hf]
    rw [if_pos (by simpa using hne)]
    exact ih prev (fun d hd => h d (by simp [hd]))

theorem code2d_first : ∀ c ∈ gsCode2dAll, ∃ f, c.commands[0]? = some f ∧ 48 ≤ f ∧ f ≤ 54 := by
  have : ∀ c ∈ gsCode2dAll, (48 : Byte) ≤ c.commands.getD 0 0 ∧ c.commands.getD 0 0 ≤ (54 : Byte) ∧ c.commands ≠ [] := by
    decide +kernel
  intro c hc
  obtain ⟨h1, h2, h3⟩ := this c hc
  rcases hcc : c.commands with _ | ⟨f, l⟩
  · exact absurd hcc h3
  · rw [hcc] at h1 h2
    exact ⟨f, rfl, by simpa using h1, by simpa using h2⟩

theorem detectKind_code2d (m fn : Byte) :
    detectKindUseM gsCode2dAll m fn none = Spec.code2dImplemented m fn := by
  by_cases hm : 48 ≤ m ∧ m ≤ 54
  · have key : ∀ d < 7, ∀ n < 256, detectKindUseM gsCode2dAll (UInt8.ofNat (48 + d)) (UInt8.ofNat n) none =
        Spec.code2dImplemented (UInt8.ofNat (48 + d)) (UInt8.ofNat n) := by decide +kernel
    have h1 : 48 ≤ m.toNat := UInt8.le_iff_toNat_le.1 hm.1
    have h2 : m.toNat ≤ 54 := UInt8.le_iff_toNat_le.1 hm.2
    have := key (m.toNat - 48) (by omega) fn.toNat (UInt8.toNat_lt fn)
    rw [show 48 + (m.toNat - 48) = m.toNat by omega, UInt8.ofNat_toNat, UInt8.ofNat_toNat] at this
    exact this
  · rw [foldl_skip]
    · have h1 : m.toNat < 48 ∨ 54 < m.toNat := by
        simp only [UInt8.le_iff_toNat_le] at hm
        have : (48 : UInt8).toNat = 48 := rfl
        have : (54 : UInt8).toNat = 54 := rfl
        omega
      have hne : m ≠ 52 ∧ m ≠ 54 := by
        constructor <;> (rintro rfl; revert h1; decide)
      unfold Spec.code2dImplemented
      rw [if_neg (by simp [hne.1]), if_neg (by simp [hne.2])]
      unfold Spec.code2dFunction
      split <;> first | rfl | (rename_i h _; omega)
    · intro c hc
      obtain ⟨f, hf, h1, h2⟩ := code2d_first c hc
      refine ⟨f, hf, ?_⟩
      rintro rfl; exact hm ⟨h1, h2⟩

end Thermal
