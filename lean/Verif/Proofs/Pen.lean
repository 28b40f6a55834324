import Verif.Model.Renderer
import Verif.Spec.Pen
/-
Layout and drawing only move the pen.
-/
namespace Thermal

theorem bind_ok {α β : Type} {x : Rs α} {f : α → Rs β} {b : β} : (x >>= f) = .ok b ↔ ∃ a, x = .ok a ∧ f a = .ok b := by
  cases x <;> simp [bind, Except.bind]

theorem pure_ok {α : Type} {a b : α} : (pure a : Rs α) = .ok b ↔ a = b := by simp [pure, Except.pure]

theorem ok_ok {α : Type} {a b : α} : (.ok a : Rs α) = .ok b ↔ a = b := by simp

theorem addU32_ok {a b n : Nat} : addU32 a b = .ok n ↔ a + b < U32 ∧ n = a + b := by
  unfold addU32; split <;> simp only [ok_ok, reduceCtorEq, false_iff] <;> omega

theorem mulU32_ok {a b n : Nat} : mulU32 a b = .ok n ↔ a * b < U32 ∧ n = a * b := by
  unfold mulU32; split <;> simp only [ok_ok, reduceCtorEq, false_iff] <;> omega

theorem subU_ok {a b n : Nat} : subU a b = .ok n ↔ b ≤ a ∧ n = a - b := by
  unfold subU; split <;> simp only [ok_ok, reduceCtorEq, false_iff] <;> omega

theorem divU_ok {a b n : Nat} : divU a b = .ok n ↔ b ≠ 0 ∧ n = a / b := by
  unfold divU; split <;> simp_all [eq_comm]

namespace PenDown

theorem refl (c : Context) : PenDown c c := ⟨_, _, _, _, rfl, Nat.le_refl _, Nat.le_refl _, by split <;> exact ⟨rfl, rfl⟩⟩

theorem trans {a b c : Context} (h1 : PenDown a b) (h2 : PenDown b c) : PenDown a c := by
  obtain ⟨_, _, _, _, rfl, h3, h4, h7⟩ := h1
  obtain ⟨_, _, _, _, rfl, h5, h6, h8⟩ := h2
  refine ⟨_, _, _, _, rfl, Nat.le_trans h3 h5, Nat.le_trans h4 h6, ?_⟩
  split
  · next he => rw [if_pos he] at h7; rw [if_pos (by exact he)] at h8; exact ⟨h8.1.trans h7.1, h8.2.trans h7.2⟩
  · next he => rw [if_neg he] at h7; rw [if_neg (by exact he)] at h8; exact ⟨h8.1.trans h7.1, h8.2.trans h7.2⟩

theorem putX (c : Context) (x : Nat) : PenDown c (c.putX x) := by
  unfold Context.putX
  split
  · next he =>
    exact ⟨c.graphics.renderArea.x, c.graphics.renderArea.y, x, c.pageMode.renderArea.y, rfl, Nat.le_refl _, Nat.le_refl _,
      by rw [if_pos he]; exact ⟨rfl, rfl⟩⟩
  · next he =>
    exact ⟨x, c.graphics.renderArea.y, c.pageMode.renderArea.x, c.pageMode.renderArea.y, rfl, Nat.le_refl _, Nat.le_refl _,
      by rw [if_neg he]; exact ⟨rfl, rfl⟩⟩

theorem putY (c : Context) (y : Nat) (h : c.getY ≤ y) : PenDown c (c.putY y) := by
  unfold Context.putY
  unfold Context.getY at h
  split
  · rename_i he
    rw [if_pos he] at h
    exact ⟨c.graphics.renderArea.x, c.graphics.renderArea.y, c.pageMode.renderArea.x, y, rfl, Nat.le_refl _, h,
      by rw [if_pos he]; exact ⟨rfl, rfl⟩⟩
  · rename_i he
    rw [if_neg he] at h
    exact ⟨c.graphics.renderArea.x, y, c.pageMode.renderArea.x, c.pageMode.renderArea.y, rfl, h, Nat.le_refl _,
      by rw [if_neg he]; exact ⟨rfl, rfl⟩⟩

theorem resetX (c : Context) : PenDown c c.resetX := putX _ _

theorem offsetX {c c' : Context} {x : Nat} (h : c.offsetX x = .ok c') : PenDown c c' := by
  simp only [Context.offsetX, bind_ok, pure_ok] at h
  obtain ⟨v, _, rfl⟩ := h
  exact putX _ _

theorem offsetY {c c' : Context} {y : Nat} (h : c.offsetY y = .ok c') : PenDown c c' := by
  simp only [Context.offsetY, bind_ok, pure_ok, addU32_ok] at h
  obtain ⟨v, ⟨_, rfl⟩, rfl⟩ := h
  exact putY _ _ (by omega)

theorem feed {c c' : Context} {n : Nat} (h : c.feed n = .ok c') : PenDown c c' := by
  simp only [Context.feed, bind_ok, pure_ok] at h
  obtain ⟨v, h1, rfl⟩ := h
  exact (offsetY h1).trans (resetX _)

theorem newline {c c' : Context} {n : Nat} (h : c.newline n = .ok c') : PenDown c c' := by
  simp only [Context.newline, bind_ok] at h
  obtain ⟨v, _, h1⟩ := h
  exact (resetX _).trans (offsetY h1)

theorem newlineForSpans {c c' : Context} {l : List TextSpan} (h : c.newlineForSpans l = .ok c') : PenDown c c' :=
  (resetX _).trans (offsetY h)

theorem setX {c c' : Context} {x : Nat} (h : c.setX x = .ok c') : PenDown c c' := by
  unfold Context.setX at h
  split at h
  · next he =>
    simp only [bind_ok, pure_ok, PageModeContext.setX] at h
    obtain ⟨_, ⟨v, _, rfl⟩, rfl⟩ := h
    exact ⟨c.graphics.renderArea.x, c.graphics.renderArea.y, v, c.pageMode.renderArea.y, rfl, Nat.le_refl _, Nat.le_refl _,
      by rw [if_pos he]; exact ⟨rfl, rfl⟩⟩
  · rw [pure_ok] at h; subst h; exact putX _ _

theorem finishLine {l l' : Layout} (h : l.finishLine = .ok l') : PenDown l.context l'.context := by
  simp only [Layout.finishLine, bind_ok, pure_ok] at h
  obtain ⟨c, h1, rfl⟩ := h
  exact newlineForSpans h1

theorem layoutBroken {bs : List TextSpan} {l l' : Layout} (h : layoutBroken bs l = .ok l') : PenDown l.context l'.context := by
  induction bs generalizing l with
  | nil => simp only [Thermal.layoutBroken, ok_ok] at h; subst h; exact refl _
  | cons b rest ih =>
    cases rest with
    | nil =>
      simp only [Thermal.layoutBroken, bind_ok, pure_ok] at h
      obtain ⟨_, _, w, _, c, h1, rfl⟩ := h
      exact offsetX h1
    | cons b2 rest =>
      simp only [Thermal.layoutBroken, bind_ok] at h
      obtain ⟨_, _, l1, h1, h2⟩ := h
      have h3 := finishLine h1
      exact h3.trans (ih h2)

theorem layoutWord {m : Nat} {l l' : Layout} {w : TextSpan} (h : layoutWord m l w = .ok l') :
    PenDown l.context l'.context := by
  simp only [Thermal.layoutWord, bind_ok] at h
  obtain ⟨ww, _, h⟩ := h
  split at h
  · simp only [bind_ok, pure_ok] at h
    obtain ⟨l1, h1, rfl⟩ := h
    have h2 := finishLine h1
    exact h2
  split at h
  · simp only [bind_ok] at h
    obtain ⟨o, _, h⟩ := h
    split at h
    · simp only [bind_ok, pure_ok] at h
      obtain ⟨c, h1, rfl⟩ := h
      exact setX h1
    · rw [pure_ok] at h; subst h; exact refl _
  split at h
  · simp only [bind_ok, pure_ok] at h
    obtain ⟨_, _, c, h1, rfl⟩ := h
    exact offsetX h1
  split at h
  · simp only [bind_ok] at h
    obtain ⟨_, _, _, _, _, _, h⟩ := h
    exact layoutBroken h
  · simp only [bind_ok, pure_ok] at h
    obtain ⟨l1, h1, _, _, c, h2, rfl⟩ := h
    exact (finishLine h1).trans (offsetX h2)

theorem layoutWords {m : Nat} {ws : List TextSpan} {l l' : Layout} (h : layoutWords m ws l = .ok l') :
    PenDown l.context l'.context := by
  induction ws generalizing l with
  | nil => simp only [Thermal.layoutWords, ok_ok] at h; subst h; exact refl _
  | cons w ws ih =>
    simp only [Thermal.layoutWords, bind_ok] at h
    obtain ⟨l1, h1, h2⟩ := h
    exact (layoutWord h1).trans (ih h2)

theorem layoutText {ss : List TextSpan} {c : Context} {r} (h : layoutText ss c = .ok r) : PenDown c r.1 := by
  simp only [Thermal.layoutText, bind_ok, pure_ok] at h
  obtain ⟨l, h1, rfl⟩ := h
  exact layoutWords h1

theorem code2dRow {q : Code2D} {o i : Nat} {c c' : Context} (h : Renderer.code2dRow q o i c = .ok c') : PenDown c c' := by
  unfold Renderer.code2dRow at h
  split at h
  · rw [ok_ok] at h; subst h; exact refl _
  split at h
  · cases h
  split at h
  · simp only [bind_ok] at h
    obtain ⟨c2, h2, h3⟩ := h
    exact (setX h2).trans (offsetY h3)
  · rw [ok_ok] at h; subst h; exact refl _

theorem imageBefore {c c' : Context} {i : Image} (h : Renderer.imageBefore c i = .ok c') : PenDown c c' := by
  unfold Renderer.imageBefore at h
  split at h
  · split at h
    · exact newline h
    · rw [pure_ok] at h; subst h; exact refl _
  · split at h
    · rw [pure_ok] at h; subst h; exact refl _
    · exact setX h
  · rw [pure_ok] at h; subst h; exact refl _

theorem imageAfter {c c' : Context} {i : Image} (h : Renderer.imageAfter c i = .ok c') : PenDown c c' := by
  unfold Renderer.imageAfter at h
  split at h
  · exact offsetX h
  · split at h
    · rw [pure_ok] at h; subst h; exact refl _
    · simp only [bind_ok, pure_ok] at h
      obtain ⟨c3, h3, rfl⟩ := h
      exact (offsetY h3).trans (resetX _)
  · rw [pure_ok] at h; subst h; exact refl _

theorem code2dLoop {q : Code2D} {o : Nat} {ps : List Byte} {i : Nat} {c : Context} {acc : List Rectangle} {r}
    (h : Renderer.code2dLoop q o ps i c acc = .ok r) : PenDown c r.1 := by
  induction ps generalizing i c acc with
  | nil => simp only [Renderer.code2dLoop, ok_ok] at h; subst h; exact refl _
  | cons p ps ih =>
    simp only [Renderer.code2dLoop, bind_ok] at h
    obtain ⟨c1, h1, h⟩ := h
    have h2 := code2dRow h1
    refine h2.trans ?_
    split at h
    · split at h
      · exact ih h
      · simp only [bind_ok] at h
        obtain ⟨c3, h3, h⟩ := h
        exact (offsetX h3).trans (ih h)
    · simp only [bind_ok] at h
      obtain ⟨c3, h3, h⟩ := h
      exact (offsetX h3).trans (ih h)

theorem barcodeLoop {b : Barcode} {ps : List Byte} {c : Context} {acc : List Rectangle} {r}
    (h : Renderer.barcodeLoop b ps c acc = .ok r) : PenDown c r.1 := by
  induction ps generalizing c acc with
  | nil => simp only [Renderer.barcodeLoop, ok_ok] at h; subst h; exact refl _
  | cons p ps ih =>
    simp only [Renderer.barcodeLoop] at h
    split at h
    · exact ih h
    · simp only [bind_ok] at h
      obtain ⟨c3, h3, h⟩ := h
      exact (offsetX h3).trans (ih h)

end PenDown

/-! ### The renderer -/

namespace Renderer
variable {σ Out : Type} {R : OutputRenderer σ Out}

/-- Everything but the output renderer and the pen positions is unchanged. -/
structure Quiet (r r' : Renderer σ Out) : Prop where
  outputs : r'.outputBuffer = r.outputBuffer
  errors : r'.errorBuffer = r.errorBuffer
  spans : r'.spanBuffer = r.spanBuffer
  context : PenDown r.context r'.context

theorem Quiet.refl (r : Renderer σ Out) : Quiet r r := ⟨rfl, rfl, rfl, PenDown.refl _⟩

theorem Quiet.trans {a b c : Renderer σ Out} (h1 : Quiet a b) (h2 : Quiet b c) : Quiet a c :=
  ⟨h2.1.trans h1.1, h2.2.trans h1.2, h2.3.trans h1.3, h1.4.trans h2.4⟩

theorem renderLine_quiet {r r' : Renderer σ Out} {l} (h : renderLine R r l = .ok r') :
    Quiet r r' ∧ r'.context = r.context := by
  unfold renderLine at h
  split at h
  · rw [ok_ok] at h; subst h; exact ⟨Quiet.refl _, rfl⟩
  · simp only [bind_ok, pure_ok] at h
    obtain ⟨_, _, _, _, s, _, rfl⟩ := h
    exact ⟨⟨rfl, rfl, rfl, PenDown.refl _⟩, rfl⟩

theorem renderLines_quiet {ls} {r r' : Renderer σ Out} (h : renderLines R ls r = .ok r') :
    Quiet r r' ∧ r'.context = r.context := by
  induction ls generalizing r with
  | nil => simp only [renderLines, ok_ok] at h; subst h; exact ⟨Quiet.refl _, rfl⟩
  | cons l ls ih =>
    simp only [renderLines, bind_ok] at h
    obtain ⟨r1, h1, h2⟩ := h
    have a := renderLine_quiet h1
    have b := ih h2
    exact ⟨a.1.trans b.1, b.2.trans a.2⟩

/-- The text is gone from the buffer, nothing else than the pen has changed. -/
theorem processText_quiet {r r' : Renderer σ Out} (h : processText R r = .ok r') :
    Quiet { r with spanBuffer := [] } r' := by
  unfold processText at h
  split at h
  · rename_i hs
    rw [ok_ok] at h; subst h
    exact ⟨rfl, rfl, hs, PenDown.refl _⟩
  · simp only [bind_ok] at h
    obtain ⟨⟨c, lines⟩, h1, h2⟩ := h
    have a := (renderLines_quiet h2).1
    have b := PenDown.layoutText h1
    exact ⟨a.1, a.2, a.3, b.trans a.4⟩

theorem processCode2d_quiet {r r' : Renderer σ Out} {q} (h : processCode2d R r q = .ok r') : Quiet r r' := by
  simp only [processCode2d, bind_ok, pure_ok] at h
  obtain ⟨_, _, c1, h1, ⟨c2, gs⟩, h2, s, _, rfl⟩ := h
  exact ⟨rfl, rfl, rfl, (PenDown.setX h1).trans ((PenDown.code2dLoop h2).trans (PenDown.resetX _))⟩

theorem barcodeText_quiet {r r' : Renderer σ Out} {b} (h : barcodeText R r b = .ok r') :
    Quiet { r with spanBuffer := [] } r' := by
  simp only [barcodeText, bind_ok, pure_ok] at h
  obtain ⟨r1, h1, c, h2, rfl⟩ := h
  have a := processText_quiet h1
  exact ⟨a.1, a.2, a.3, PenDown.trans a.4 (PenDown.newline h2)⟩

theorem barcodeBars_quiet {r r' : Renderer σ Out} {b} (h : barcodeBars R r b = .ok r') : Quiet r r' := by
  simp only [barcodeBars, bind_ok, pure_ok] at h
  obtain ⟨_, _, c1, h1, ⟨c2, gs⟩, h2, s, _, c3, h3, rfl⟩ := h
  exact ⟨rfl, rfl, rfl, (PenDown.setX h1).trans ((PenDown.barcodeLoop h2).trans
    ((PenDown.resetX _).trans (PenDown.offsetY h3)))⟩

theorem barcodeAbove_quiet {r r' : Renderer σ Out} {b} (hs : r.spanBuffer = []) (h : barcodeAbove R r b = .ok r') : Quiet r r' := by
  have hr : { r with spanBuffer := [] } = r := by cases r; simp at hs; subst hs; rfl
  unfold barcodeAbove at h
  split at h
  · have := barcodeText_quiet h; rwa [hr] at this
  · rw [ok_ok] at h; subst h; exact Quiet.refl _

theorem barcodeBelow_quiet {r r' : Renderer σ Out} {b} (hs : r.spanBuffer = []) (h : barcodeBelow R r b = .ok r') : Quiet r r' := by
  unfold barcodeBelow at h
  split at h
  · simp only [bind_ok] at h
    obtain ⟨c, hc, hb⟩ := h
    have a := barcodeText_quiet hb
    exact ⟨a.1, a.2, a.3.trans hs.symm, (PenDown.offsetY hc).trans a.4⟩
  · rw [ok_ok] at h; subst h; exact Quiet.refl _

theorem processBarcode_quiet {r r' : Renderer σ Out} {b} (hs : r.spanBuffer = []) (h : processBarcode R r b = .ok r') : Quiet r r' := by
  simp only [processBarcode, bind_ok] at h
  obtain ⟨r1, h1, r2, h2, h3⟩ := h
  have q1 := (barcodeAbove_quiet hs h1).trans (barcodeBars_quiet h2)
  exact q1.trans (barcodeBelow_quiet (q1.3.trans hs) h3)

theorem processImage_quiet {r r' : Renderer σ Out} {i} (h : processImage R r i = .ok r') : Quiet r r' := by
  simp only [processImage, bind_ok, pure_ok] at h
  obtain ⟨c1, h1, s, _, c2, h2, rfl⟩ := h
  exact ⟨rfl, rfl, rfl, (PenDown.imageBefore h1).trans (PenDown.imageAfter h2)⟩

/-- Graphics change at most the pen and the errors. -/
theorem processGraphics_context {r r' : Renderer σ Out} {g} (hs : r.spanBuffer = []) (h : processGraphics R r g = .ok r') :
    PenDown r.context r'.context ∧ r'.spanBuffer = [] ∧ r'.outputBuffer = r.outputBuffer := by
  unfold processGraphics at h
  split at h
  · rw [pure_ok] at h; subst h; exact ⟨PenDown.refl _, hs, rfl⟩
  · have a := processCode2d_quiet h; exact ⟨a.4, a.3.trans hs, a.1⟩
  · have a := processBarcode_quiet hs h; exact ⟨a.4, a.3.trans hs, a.1⟩
  · have a := processImage_quiet h; exact ⟨a.4, a.3.trans hs, a.1⟩
  · rw [pure_ok] at h; subst h; exact ⟨PenDown.refl _, hs, rfl⟩

end Renderer
end Thermal
