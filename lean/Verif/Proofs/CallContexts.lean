import Verif.Proofs.Trace
import Verif.Proofs.History
/-
A condition on contexts that every step keeps holds in every call the output renderer gets.
-/
namespace Thermal
namespace Renderer
variable {ext : Ext}

/-- The condition holds now and held in every recorded call. -/
def Always (J : Context → Prop) (r : Recording) : Prop := J r.context ∧ ∀ x ∈ r.child, J x.1

variable {J : Context → Prop}

theorem Always.snoc {r : Recording} (h : Always J r) {c c' : Context} (hc : J c) (hc' : J c') (x : Call) :
    Always J { r with
      child := r.child ++ [(c, x)]
      context := c' } := by
  refine ⟨hc', fun y hy => ?_⟩
  rcases List.mem_append.1 hy with hy | hy
  · exact h.2 y hy
  · rw [List.mem_singleton.1 hy]; exact hc

theorem renderLines_always {ls} {r r' : Recording} (hr : Always J r) (h : renderLines recorder ls r = .ok r') : Always J r' := by
  induction ls generalizing r with
  | nil => simp only [renderLines, ok_ok] at h; subst h; exact hr
  | cons l ls ih =>
    simp only [renderLines, bind_ok] at h
    obtain ⟨r1, h1, h2⟩ := h
    refine ih ?_ h2
    unfold renderLine at h1
    split at h1
    · rw [ok_ok] at h1; subst h1; exact hr
    · simp only [bind_ok, pure_ok, recorder, ok_ok] at h1
      obtain ⟨_, _, _, _, s, rfl, rfl⟩ := h1
      exact hr.snoc hr.1 hr.1 _

variable (hpen : ∀ {c c' : Context}, PenDown c c' → J c → J c')
include hpen

theorem processText_always {r r' : Recording} (hr : Always J r) (h : processText recorder r = .ok r') : Always J r' := by
  unfold processText at h
  split at h
  · rw [ok_ok] at h; subst h; exact hr
  · simp only [bind_ok] at h
    obtain ⟨⟨c, ls⟩, h1, h⟩ := h
    exact renderLines_always (r := { r with
      spanBuffer := []
      context := c }) ⟨hpen (PenDown.layoutText h1) hr.1, hr.2⟩ h

theorem barcodeText_always {r r' : Recording} {b} (hr : Always J r) (h : barcodeText recorder r b = .ok r') : Always J r' := by
  simp only [barcodeText, bind_ok, pure_ok] at h
  obtain ⟨r1, h1, c, h2, rfl⟩ := h
  have := processText_always hpen (r := r.collectText b.text) hr h1
  exact ⟨hpen (PenDown.newline h2) this.1, this.2⟩

theorem processGraphicsOpt_always {r r' : Recording} {g} (hr : Always J r) (h : processGraphicsOpt recorder r g = .ok r') :
    Always J r' := by
  unfold processGraphicsOpt at h
  split at h
  · unfold processGraphics at h
    split at h
    · rw [pure_ok] at h; subst h; exact hr
    · simp only [processCode2d, bind_ok, pure_ok, recorder, ok_ok] at h
      obtain ⟨_, _, c1, h1, ⟨c2, gs⟩, h2, _, rfl, rfl⟩ := h
      have j := hpen ((PenDown.setX h1).trans ((PenDown.code2dLoop h2).trans (PenDown.resetX _))) hr.1
      exact hr.snoc j j _
    · simp only [processBarcode, bind_ok] at h
      obtain ⟨r1, h1, r2, h2, h3⟩ := h
      have a : Always J r1 := by
        unfold barcodeAbove at h1
        split at h1
        · exact barcodeText_always hpen hr h1
        · rw [ok_ok] at h1; subst h1; exact hr
      have b : Always J r2 := by
        simp only [barcodeBars, bind_ok, pure_ok, recorder, ok_ok] at h2
        obtain ⟨_, _, c1, e1, ⟨c2, gs⟩, e2, _, rfl, c3, e3, rfl⟩ := h2
        have j := hpen ((PenDown.setX e1).trans (PenDown.barcodeLoop e2)) a.1
        exact a.snoc j (hpen ((PenDown.resetX _).trans (PenDown.offsetY e3)) j) _
      unfold barcodeBelow at h3
      split at h3
      · simp only [bind_ok] at h3
        obtain ⟨c, e1, h3⟩ := h3
        exact barcodeText_always hpen (r := { r2 with context := c }) ⟨hpen (PenDown.offsetY e1) b.1, b.2⟩ h3
      · rw [ok_ok] at h3; subst h3; exact b
    · simp only [processImage, bind_ok, pure_ok, recorder, ok_ok] at h
      obtain ⟨c1, h1, _, rfl, c2, h2, rfl⟩ := h
      have j := hpen (PenDown.imageBefore h1) hr.1
      exact hr.snoc j (hpen (PenDown.imageAfter h2) j) _
    · rw [pure_ok] at h; subst h; exact hr
  · rw [ok_ok] at h; subst h; exact hr

omit hpen in
theorem deviceCommand_always (hdev : ∀ {d c c'}, deviceContext d c = .ok c' → J c → J c') {d} {r r' : Recording} (hr : Always J r)
    (h : deviceCommand recorder r d = .ok r') : Always J r' := by
  have hc := hdev (deviceCommand_context h).1 hr.1
  simp only [deviceCommand, bind_ok, recorder, ok_ok] at h
  obtain ⟨s, rfl, h⟩ := h
  have h0 := hr.snoc hr.1 hr.1 (.device d)
  cases d <;> simp only [bind_ok, pure_ok, ok_ok] at h
  case beginPrint => obtain ⟨c, h1, s, rfl, rfl⟩ := h; exact h0.snoc hc hc _
  case endPrint => obtain ⟨_, rfl, rfl⟩ := h; exact h0.snoc hr.1 hc _
  case feedLine => obtain ⟨c, h1, rfl⟩ := h; exact ⟨hc, h0.2⟩
  case feed => obtain ⟨c, h1, rfl⟩ := h; exact ⟨hc, h0.2⟩
  case fullCut => obtain ⟨c, h1, rfl⟩ := h; exact ⟨hc, h0.2⟩
  case partialCut => obtain ⟨c, h1, rfl⟩ := h; exact ⟨hc, h0.2⟩
  case beginPageMode => obtain ⟨c, rfl, rfl⟩ := h; exact h0.snoc hc hc _
  case endPageMode => obtain ⟨c, rfl, rfl⟩ := h; exact h0.snoc hr.1 hc _
  case printPageMode => obtain ⟨s, rfl, y, h1, rfl⟩ := h; exact h0.snoc hr.1 hc _
  case changePageArea =>
    simp only [pageAreaChanged, bind_ok, pure_ok, ok_ok] at h
    obtain ⟨⟨p, rot, w, hh⟩, h1, s, rfl, rfl⟩ := h
    exact h0.snoc hc hc _
  case changePageModeDirection =>
    simp only [pageAreaChanged, bind_ok, pure_ok, ok_ok] at h
    obtain ⟨⟨p, rot, w, hh⟩, h1, s, rfl, rfl⟩ := h
    exact h0.snoc hc hc _
  all_goals (subst h; exact ⟨hc, h0.2⟩)

omit hpen in
theorem deviceCommands_always (hdev : ∀ {d c c'}, deviceContext d c = .ok c' → J c → J c') {ds} {r r' : Recording} (hr : Always J r)
    (h : deviceCommands recorder ds r = .ok r') : Always J r' := by
  induction ds generalizing r with
  | nil => simp only [deviceCommands, ok_ok] at h; subst h; exact hr
  | cons d ds ih =>
    simp only [deviceCommands, bind_ok] at h
    obtain ⟨r1, h1, h2⟩ := h
    exact ih (deviceCommand_always hdev hr h1) h2

theorem processCommand_always (hdev : ∀ {d c c'}, deviceContext d c = .ok c' → J c → J c') {cmd : Command}
    (happ : ∀ {c c'}, applyContext ext cmd c = .ok c' → J c → J c') {r r' : Recording} (hr : Always J r)
    (h : processCommand recorder ext r cmd = .ok r') : Always J r' := by
  unfold processCommand at h
  split at h
  · simp only [bind_ok, pure_ok] at h
    obtain ⟨r1, h1, rfl⟩ := h
    have := processText_always hpen hr h1
    exact this
  · simp only [bind_ok] at h
    obtain ⟨o, h1, h⟩ := h
    split at h
    · rw [pure_ok] at h; subst h; exact hr
    · rw [pure_ok] at h; subst h; exact hr
  · simp only [bind_ok] at h
    obtain ⟨r1, h1, g, h2, r2, h3, o, h4, h5⟩ := h
    exact deviceCommands_always hdev (processGraphicsOpt_always hpen (processText_always hpen hr h1) h3) h5
  · simp only [bind_ok, pure_ok] at h
    obtain ⟨r1, h1, c, h2, rfl⟩ := h
    have a := processText_always hpen hr h1
    exact ⟨happ h2 a.1, a.2⟩
  · simp only [bind_ok] at h
    obtain ⟨r1, h1, c, h2, o, h3, h4⟩ := h
    have a := processText_always hpen hr h1
    exact deviceCommands_always hdev (r := { r1 with context := c }) ⟨happ h2 a.1, a.2⟩ h4
  · simp only [bind_ok] at h
    obtain ⟨o, h3, r1, h1, h4⟩ := h
    exact deviceCommands_always hdev (processText_always hpen hr h1) h4
  · simp only [bind_ok] at h
    obtain ⟨c, h2, o, h3, h4⟩ := h
    exact deviceCommands_always hdev (r := { r with context := c }) ⟨happ h2 hr.1, hr.2⟩ h4
  · rw [pure_ok] at h; subst h; exact hr

theorem processCommands_always (hdev : ∀ {d c c'}, deviceContext d c = .ok c' → J c → J c') {cmds : List Command}
    (happ : ∀ {cmd c c'}, applyContext ext cmd c = .ok c' → J c → J c') {r r' : Recording} (hr : Always J r)
    (h : processCommands recorder ext cmds r = .ok r') : Always J r' := by
  induction cmds generalizing r with
  | nil => simp only [processCommands, ok_ok] at h; subst h; exact hr
  | cons d ds ih =>
    simp only [processCommands, bind_ok] at h
    obtain ⟨r1, h1, h2⟩ := h
    exact ih (processCommand_always hpen hdev happ hr h1) h2

end Renderer
end Thermal
