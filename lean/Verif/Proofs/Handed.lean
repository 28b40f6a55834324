import Verif.Proofs.Fits
import Verif.Proofs.CallContexts
/-
What is handed to the output renderer: calls at `u32` positions, in contexts with a property that the commands keep.
-/
namespace Thermal
namespace Renderer
variable {ext : Ext}

/-- Text and graphics are at `u32` positions. -/
def Positioned : Call → Prop
  | .text l _ _ _ => ∀ s ∈ l, InU32.Span s
  | .graphics gs => InU32.Rects gs
  | _ => True

/-- One call: positions, the property of the context, and a document is only begun or ended by a device command that may occur. -/
structure Fair (K : Context → Prop) (D : DeviceCommand → Prop) (x : Context × Call) : Prop where
  context : K x.1
  positioned : Positioned x.2
  begins : x.2 = .beginRender → D .beginPrint
  ends : x.2 = .endRender → D .endPrint
  pages : x.2 = .renderPage → D .printPageMode

/-- All calls after `base`. -/
structure Handed (K : Context → Prop) (D : DeviceCommand → Prop) (base : List (Context × Call)) (r : Recording) : Prop where
  fits : InU32 r.context
  context : K r.context
  calls : ∃ calls, r.child = base ++ calls ∧ ∀ x ∈ calls, Fair K D x

variable {K : Context → Prop} {D : DeviceCommand → Prop} {base : List (Context × Call)}

theorem Handed.snoc {r : Recording} (h : Handed K D base r) {c c' : Context} (hf : InU32 c') (hc' : K c') {x : Call} (hx : Fair K D (c, x)) :
    Handed K D base { r with
      child := r.child ++ [(c, x)]
      context := c' } := by
  obtain ⟨calls, e, hcs⟩ := h.calls
  refine ⟨hf, hc', calls ++ [(c, x)], by simp [e], fun y hy => ?_⟩
  rcases List.mem_append.1 hy with hy | hy
  · exact hcs y hy
  · rw [List.mem_singleton.1 hy]; exact hx

theorem Handed.move {r : Recording} (h : Handed K D base r) {c : Context} (hf : InU32 c) (hc : K c) : Handed K D base { r with context := c } :=
  ⟨hf, hc, h.calls⟩

theorem renderLines_handed {ls} {r r' : Recording} (hl : ∀ line ∈ ls, ∀ s ∈ line, InU32.Span s) (hr : Handed K D base r)
    (h : renderLines recorder ls r = .ok r') : Handed K D base r' := by
  induction ls generalizing r with
  | nil => simp only [renderLines, ok_ok] at h; subst h; exact hr
  | cons l ls ih =>
    simp only [renderLines, bind_ok] at h
    obtain ⟨r1, h1, h2⟩ := h
    refine ih (fun line hm => hl line (by simp [hm])) ?_ h2
    unfold renderLine at h1
    split at h1
    · rw [ok_ok] at h1; subst h1; exact hr
    · simp only [bind_ok, pure_ok, recorder, ok_ok] at h1
      obtain ⟨_, _, _, _, s, rfl, rfl⟩ := h1
      exact hr.snoc hr.fits hr.context ⟨hr.context, hl _ (by simp), by simp, by simp, by simp⟩

variable (hpen : ∀ {c c' : Context}, PenDown c c' → K c → K c')
include hpen

theorem processText_handed {r r' : Recording} (hr : Handed K D base r) (h : processText recorder r = .ok r') : Handed K D base r' := by
  unfold processText at h
  split at h
  · rw [ok_ok] at h; subst h; exact hr
  · simp only [bind_ok] at h
    obtain ⟨⟨c, ls⟩, h1, h⟩ := h
    obtain ⟨a, b⟩ := InU32.layoutText hr.fits h1
    exact renderLines_handed (r := { r with
      spanBuffer := []
      context := c }) b ⟨a, hpen (PenDown.layoutText h1) hr.context, hr.calls⟩ h

theorem barcodeText_handed {r r' : Recording} {b} (hr : Handed K D base r) (h : barcodeText recorder r b = .ok r') : Handed K D base r' := by
  simp only [barcodeText, bind_ok, pure_ok] at h
  obtain ⟨r1, h1, c, h2, rfl⟩ := h
  have := processText_handed hpen (r := r.collectText b.text) ⟨hr.fits, hr.context, hr.calls⟩ h1
  exact this.move (this.fits.newline h2) (hpen (PenDown.newline h2) this.context)

theorem processGraphicsOpt_handed {r r' : Recording} {g} (hr : Handed K D base r) (h : processGraphicsOpt recorder r g = .ok r') :
    Handed K D base r' := by
  unfold processGraphicsOpt at h
  split at h
  · unfold processGraphics at h
    split at h
    · rw [pure_ok] at h; subst h; exact ⟨hr.fits, hr.context, hr.calls⟩
    · simp only [processCode2d, bind_ok, pure_ok, recorder, ok_ok] at h
      obtain ⟨_, _, c1, h1, ⟨c2, gs⟩, h2, _, rfl, rfl⟩ := h
      have j := hpen ((PenDown.setX h1).trans ((PenDown.code2dLoop h2).trans (PenDown.resetX _))) hr.context
      have f := InU32.code2dLoop (hr.fits.setX (hr.fits.justification _) h1) (hr.fits.justification _) (by intro g hg; cases hg) h2
      exact hr.snoc f.1.resetX j ⟨j, f.2, by simp, by simp, by simp⟩
    · simp only [processBarcode, bind_ok] at h
      obtain ⟨r1, h1, r2, h2, h3⟩ := h
      have a : Handed K D base r1 := by
        unfold barcodeAbove at h1
        split at h1
        · exact barcodeText_handed hpen hr h1
        · rw [ok_ok] at h1; subst h1; exact hr
      have b : Handed K D base r2 := by
        simp only [barcodeBars, bind_ok, pure_ok, recorder, ok_ok] at h2
        obtain ⟨_, _, c1, e1, ⟨c2, gs⟩, e2, _, rfl, c3, e3, rfl⟩ := h2
        have j := hpen ((PenDown.setX e1).trans (PenDown.barcodeLoop e2)) a.context
        have f := InU32.barcodeLoop (a.fits.setX (a.fits.justification _) e1) (by intro g hg; cases hg) e2
        exact a.snoc (f.1.resetX.offsetY e3) (hpen ((PenDown.resetX _).trans (PenDown.offsetY e3)) j) ⟨j, f.2, by simp, by simp, by simp⟩
      unfold barcodeBelow at h3
      split at h3
      · simp only [bind_ok] at h3
        obtain ⟨c, e1, h3⟩ := h3
        exact barcodeText_handed hpen (b.move (b.fits.offsetY e1) (hpen (PenDown.offsetY e1) b.context)) h3
      · rw [ok_ok] at h3; subst h3; exact b
    · simp only [processImage, bind_ok, pure_ok, recorder, ok_ok] at h
      obtain ⟨c1, h1, _, rfl, c2, h2, rfl⟩ := h
      have j := hpen (PenDown.imageBefore h1) hr.context
      exact hr.snoc ((hr.fits.imageBefore h1).imageAfter h2) (hpen (PenDown.imageAfter h2) j) ⟨j, trivial, by simp, by simp, by simp⟩
    · rw [pure_ok] at h; subst h; exact hr
  · rw [ok_ok] at h; subst h; exact hr

omit hpen in
theorem deviceCommand_handed (hdev : ∀ {d c c'}, D d → deviceContext d c = .ok c' → K c → K c') {d} (hd : D d) {r r' : Recording}
    (hr : Handed K D base r) (h : deviceCommand recorder r d = .ok r') : Handed K D base r' := by
  have hf := InU32.device (deviceCommand_context h).1 hr.fits
  have hc := hdev hd (deviceCommand_context h).1 hr.context
  simp only [deviceCommand, bind_ok, recorder, ok_ok] at h
  obtain ⟨s, rfl, h⟩ := h
  have h0 := hr.snoc hr.fits hr.context (x := .device d) (c := r.context) ⟨hr.context, trivial, by simp, by simp, by simp⟩
  cases d <;> simp only [bind_ok, pure_ok, ok_ok] at h
  case beginPrint => obtain ⟨c, h1, s, rfl, rfl⟩ := h; exact h0.snoc hf hc ⟨hc, trivial, fun _ => hd, by simp, by simp⟩
  case endPrint => obtain ⟨_, rfl, rfl⟩ := h; exact ⟨hf, hc, (h0.snoc (x := .endRender) (c := r.context) hf hc ⟨hr.context, trivial, by simp, fun _ => hd, by simp⟩).calls⟩
  case feedLine => obtain ⟨c, h1, rfl⟩ := h; exact h0.move hf hc
  case feed => obtain ⟨c, h1, rfl⟩ := h; exact h0.move hf hc
  case fullCut => obtain ⟨c, h1, rfl⟩ := h; exact h0.move hf hc
  case partialCut => obtain ⟨c, h1, rfl⟩ := h; exact h0.move hf hc
  case beginPageMode => obtain ⟨c, rfl, rfl⟩ := h; exact h0.snoc hf hc ⟨hc, trivial, by simp, by simp, by simp⟩
  case endPageMode => obtain ⟨c, rfl, rfl⟩ := h; exact h0.snoc hf hc ⟨hr.context, trivial, by simp, by simp, by simp⟩
  case printPageMode => obtain ⟨s, rfl, y, h1, rfl⟩ := h; exact h0.snoc hf hc ⟨hr.context, trivial, by simp, by simp, fun _ => hd⟩
  case changePageArea =>
    simp only [pageAreaChanged, bind_ok, pure_ok, ok_ok] at h
    obtain ⟨⟨p, rot, w, hh⟩, h1, s, rfl, rfl⟩ := h
    exact h0.snoc hf hc ⟨hc, trivial, by simp, by simp, by simp⟩
  case changePageModeDirection =>
    simp only [pageAreaChanged, bind_ok, pure_ok, ok_ok] at h
    obtain ⟨⟨p, rot, w, hh⟩, h1, s, rfl, rfl⟩ := h
    exact h0.snoc hf hc ⟨hc, trivial, by simp, by simp, by simp⟩
  all_goals (subst h; exact h0.move hf hc)

omit hpen in
theorem deviceCommands_handed (hdev : ∀ {d c c'}, D d → deviceContext d c = .ok c' → K c → K c') {ds : List DeviceCommand} (hd : ∀ d ∈ ds, D d)
    {r r' : Recording} (hr : Handed K D base r) (h : deviceCommands recorder ds r = .ok r') : Handed K D base r' := by
  induction ds generalizing r with
  | nil => simp only [deviceCommands, ok_ok] at h; subst h; exact hr
  | cons d ds ih =>
    simp only [deviceCommands, bind_ok] at h
    obtain ⟨r1, h1, h2⟩ := h
    exact ih (fun x hx => hd x (by simp [hx])) (deviceCommand_handed hdev (hd d (by simp)) hr h1) h2

theorem processCommand_handed (hdev : ∀ {d c c'}, D d → deviceContext d c = .ok c' → K c → K c') {cmd : Command}
    (hget : ∀ {c o}, K c → getDevice cmd c = .ok o → ∀ d ∈ o.getD [], D d)
    (happ : ∀ {c c'}, applyContext ext cmd c = .ok c' → K c → K c') {r r' : Recording} (hr : Handed K D base r)
    (h : processCommand recorder ext r cmd = .ok r') : Handed K D base r' := by
  unfold processCommand at h
  split at h
  · simp only [bind_ok, pure_ok] at h
    obtain ⟨r1, h1, rfl⟩ := h
    have := processText_handed hpen hr h1
    exact ⟨this.fits, this.context, this.calls⟩
  · simp only [bind_ok] at h
    obtain ⟨o, h1, h⟩ := h
    split at h
    · rw [pure_ok] at h; subst h; exact ⟨hr.fits, hr.context, hr.calls⟩
    · rw [pure_ok] at h; subst h; exact hr
  · simp only [bind_ok] at h
    obtain ⟨r1, h1, g, h2, r2, h3, o, h4, h5⟩ := h
    have a := processGraphicsOpt_handed hpen (processText_handed hpen hr h1) h3
    exact deviceCommands_handed hdev (hget a.context h4) a h5
  · simp only [bind_ok, pure_ok] at h
    obtain ⟨r1, h1, c, h2, rfl⟩ := h
    have a := processText_handed hpen hr h1
    exact a.move (InU32.apply h2 a.fits) (happ h2 a.context)
  · simp only [bind_ok] at h
    obtain ⟨r1, h1, c, h2, o, h3, h4⟩ := h
    have a := processText_handed hpen hr h1
    exact deviceCommands_handed hdev (hget (happ h2 a.context) h3) (a.move (InU32.apply h2 a.fits) (happ h2 a.context)) h4
  · simp only [bind_ok] at h
    obtain ⟨o, h3, r1, h1, h4⟩ := h
    exact deviceCommands_handed hdev (hget hr.context h3) (processText_handed hpen hr h1) h4
  · simp only [bind_ok] at h
    obtain ⟨c, h2, o, h3, h4⟩ := h
    exact deviceCommands_handed hdev (hget (happ h2 hr.context) h3) (hr.move (InU32.apply h2 hr.fits) (happ h2 hr.context)) h4
  · rw [pure_ok] at h; subst h; exact hr

theorem processCommands_handed (hdev : ∀ {d c c'}, D d → deviceContext d c = .ok c' → K c → K c') {cmds : List Command}
    (hget : ∀ cmd ∈ cmds, ∀ {c o}, K c → getDevice cmd c = .ok o → ∀ d ∈ o.getD [], D d)
    (happ : ∀ {cmd c c'}, applyContext ext cmd c = .ok c' → K c → K c') {r r' : Recording} (hr : Handed K D base r)
    (h : processCommands recorder ext cmds r = .ok r') : Handed K D base r' := by
  induction cmds generalizing r with
  | nil => simp only [processCommands, ok_ok] at h; subst h; exact hr
  | cons d ds ih =>
    simp only [processCommands, bind_ok] at h
    obtain ⟨r1, h1, h2⟩ := h
    exact ih (fun cmd hm => hget cmd (by simp [hm])) (processCommand_handed hpen hdev (hget d (by simp)) happ hr h1) h2

omit hpen in
/-- Everything handed over while rendering a stream is at `u32` positions. -/
theorem render_positioned {bytes : List Byte} {outs errs} {t : Recording} (h : render recorder ext (Renderer.new []) bytes = .ok (outs, errs, t)) :
    ∀ x ∈ t.child, Positioned x.2 := by
  simp only [render, bind_ok, pure_ok] at h
  obtain ⟨cmds, h1, r1, h2, h3⟩ := h
  simp only [Prod.mk.injEq] at h3
  obtain ⟨rfl, rfl, rfl⟩ := h3
  have := processCommands_handed (K := fun _ => True) (D := fun _ => True) (base := []) (fun _ _ => trivial) (fun _ _ _ => trivial)
    (fun _ _ _ _ _ _ _ _ => trivial) (fun _ _ => trivial) (r := Renderer.new []) ⟨InU32.start, trivial, [], rfl, by simp⟩ h2
  obtain ⟨calls, e, hc⟩ := this.calls
  intro x hx
  rw [show r1.child = _ from e, List.nil_append] at hx
  exact (hc x hx).positioned

end Renderer
end Thermal
