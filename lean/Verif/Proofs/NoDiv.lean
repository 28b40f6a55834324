import Verif.Proofs.Pen
/-
Text layout divides only by the width of a character.
-/
namespace Thermal

/-- The computation does not panic by dividing by zero. -/
def NoDiv {α : Type} (x : Rs α) : Prop := x ≠ .error .divZero

namespace NoDiv
variable {α β : Type}

theorem ok (a : α) : NoDiv (.ok a : Rs α) := by intro h; cases h
theorem pure (a : α) : NoDiv (Pure.pure a : Rs α) := by intro h; cases h

theorem bind {x : Rs α} {f : α → Rs β} (hx : NoDiv x) (hf : ∀ a, x = .ok a → NoDiv (f a)) : NoDiv (x >>= f) := by
  cases x with
  | error e => intro h; exact hx (by simpa [Bind.bind, Except.bind] using h)
  | ok a => exact hf a rfl

theorem addU32 (a b) : NoDiv (Thermal.addU32 a b) := by unfold Thermal.addU32; split <;> (intro h; cases h)
theorem mulU32 (a b) : NoDiv (Thermal.mulU32 a b) := by unfold Thermal.mulU32; split <;> (intro h; cases h)
theorem subU (a b) : NoDiv (Thermal.subU a b) := by unfold Thermal.subU; split <;> (intro h; cases h)
theorem divU (a) {b} (h : b ≠ 0) : NoDiv (Thermal.divU a b) := by unfold Thermal.divU; rw [if_neg h]; exact ok _

theorem offsetX (c : Context) (x) : NoDiv (c.offsetX x) := bind (addU32 _ _) fun _ _ => pure _
theorem offsetY (c : Context) (x) : NoDiv (c.offsetY x) := bind (addU32 _ _) fun _ _ => pure _
theorem setX (c : Context) (x) : NoDiv (c.setX x) := by
  unfold Context.setX
  split
  · exact bind (bind (addU32 _ _) fun _ _ => pure _) fun _ _ => pure _
  · exact pure _
theorem getDimensions (s : TextSpan) (c) : NoDiv (s.getDimensions c) := bind (mulU32 _ _) fun _ _ => pure _

theorem tabStop (cw x) (ts : List Byte) (pos) : NoDiv (Thermal.tabStop cw x ts pos) := by
  induction ts generalizing pos with
  | nil => exact ok _
  | cons t ts ih =>
    unfold Thermal.tabStop
    split
    · exact ok _
    · exact bind (mulU32 _ _) fun _ _ => bind (addU32 _ _) fun _ _ => ih _

theorem finishLine (l : Layout) : NoDiv l.finishLine := bind (offsetY _ _) fun _ _ => pure _

theorem layoutBroken (bs : List TextSpan) (l) : NoDiv (Thermal.layoutBroken bs l) := by
  induction bs generalizing l with
  | nil => exact ok _
  | cons b bs ih =>
    cases bs with
    | nil =>
      unfold Thermal.layoutBroken
      exact bind (getDimensions _ _) fun _ _ => bind (mulU32 _ _) fun _ _ => bind (offsetX _ _) fun _ _ => pure _
    | cons b2 bs =>
      unfold Thermal.layoutBroken
      exact bind (getDimensions _ _) fun _ _ => bind (finishLine _) fun _ _ => ih _

theorem layoutWord (m l) {w : TextSpan} (h : w.characterWidth ≠ 0) : NoDiv (Thermal.layoutWord m l w) := by
  unfold Thermal.layoutWord
  refine bind (mulU32 _ _) fun _ _ => ?_
  split
  · exact bind (finishLine _) fun _ _ => pure _
  · split
    · refine bind (tabStop _ _ _ _) fun _ _ => ?_
      split
      · exact bind (setX _ _) fun _ _ => pure _
      · exact pure _
    · split
      · exact bind (getDimensions _ _) fun _ _ => bind (offsetX _ _) fun _ _ => pure _
      · split
        · refine bind (divU _ h) fun _ _ => bind (divU _ h) fun _ _ => bind ?_ fun _ _ => layoutBroken _ _
          unfold TextSpan.breakApart
          split
          · intro h; cases h
          · split <;> exact ok _
        · exact bind (finishLine _) fun _ _ => bind (getDimensions _ _) fun _ _ => bind (offsetX _ _) fun _ _ => pure _

theorem layoutWords (m) {ws : List TextSpan} (h : ∀ w ∈ ws, w.characterWidth ≠ 0) (l) : NoDiv (Thermal.layoutWords m ws l) := by
  induction ws generalizing l with
  | nil => exact ok _
  | cons w ws ih =>
    unfold Thermal.layoutWords
    exact bind (layoutWord m l (h w (by simp))) fun _ _ => ih (fun w hw => h w (List.mem_cons_of_mem _ hw)) _

theorem layoutText {ss : List TextSpan} (h : ∀ s ∈ ss, s.characterWidth ≠ 0) (c) : NoDiv (Thermal.layoutText ss c) := by
  unfold Thermal.layoutText
  refine bind (layoutWords _ ?_ _) fun _ _ => pure _
  intro w hw
  simp only [List.mem_flatMap, TextSpan.breakIntoWords, List.mem_map] at hw
  obtain ⟨s, hs, t, _, rfl⟩ := hw
  exact h s hs

end NoDiv
end Thermal
