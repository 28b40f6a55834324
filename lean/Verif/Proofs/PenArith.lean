import Verif.Proofs.Layout
/-
The pen of a context: where it is, where lines begin and how wide they are.
-/
namespace Thermal

/-! ### Pen arithmetic -/

theorem setX_ok {c c' : Context} {x : Nat} (h : c.setX x = .ok c') : c' = c.putX (c.baseX + x) := by
  unfold Context.setX at h
  split at h
  · rename_i hp
    simp only [PageModeContext.setX, bind_ok, addU32_ok, pure_ok] at h
    obtain ⟨_, ⟨_, ⟨_, rfl⟩, rfl⟩, rfl⟩ := h
    unfold Context.putX Context.baseX
    rw [if_pos hp, if_pos hp]
  · rename_i hp
    rw [pure_ok] at h; subst h
    unfold Context.baseX
    rw [if_neg hp, Nat.zero_add]

theorem putX_putX (c : Context) (x y : Nat) : (c.putX x).putX y = c.putX y := by
  unfold Context.putX
  by_cases h : c.pageMode.enabled = true
  · simp only [h, if_true]
  · simp only [h, Bool.false_eq_true, if_false]

theorem baseX_putX (c : Context) (x : Nat) : (c.putX x).baseX = c.baseX := by
  unfold Context.putX Context.baseX; split <;> simp_all

theorem baseX_putY (c : Context) (x : Nat) : (c.putY x).baseX = c.baseX := by
  unfold Context.putY Context.baseX; split <;> simp_all

theorem getWidth_putX (c : Context) (x : Nat) : (c.putX x).getWidth = c.getWidth := by
  unfold Context.putX Context.getWidth; split <;> simp_all

theorem getWidth_putY (c : Context) (x : Nat) : (c.putY x).getWidth = c.getWidth := by
  unfold Context.putY Context.getWidth; split <;> simp_all

theorem available_putX (c : Context) (u : Nat) : (c.putX (c.baseX + u)).availableWidth = c.getWidth - u := by
  unfold Context.putX Context.baseX Context.getWidth Context.availableWidth
  by_cases h : c.pageMode.enabled = true
  · simp only [h, if_true, Nat.add_sub_cancel_left]
  · simp only [h, Bool.false_eq_true, if_false, Nat.zero_add]
    split <;> omega

theorem available_eq (c : Context) : c.availableWidth = c.getWidth - (c.getX - c.baseX) := by
  unfold Context.baseX Context.getWidth Context.availableWidth Context.getX
  by_cases h : c.pageMode.enabled = true
  · simp only [h, if_true]
  · simp only [h, Bool.false_eq_true, if_false]
    split <;> omega

end Thermal
