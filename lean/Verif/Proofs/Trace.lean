import Verif.Proofs.Spans
import Verif.Spec.Trace
/-
Every output renderer gets the same calls.
-/
namespace Thermal
namespace Renderer
variable {σ Out : Type} {R : OutputRenderer σ Out} {ext : Ext}

/-- The type of the recording renderer. -/
abbrev Recording := Renderer (List (Context × Call)) Unit

/-- The errors other than those reported by the output renderer. -/
def ownErrors (es : List RenderError) : List RenderError := es.filter (fun e => e.kind ≠ .childRenderError)

/-- A renderer and a recording of its calls, starting from state and outputs `s0`. -/
structure Rec (R : OutputRenderer σ Out) (s0 : σ × List Out) (r : Renderer σ Out) (t : Recording) : Prop where
  context : t.context = r.context
  spans : t.spanBuffer = r.spanBuffer
  calls : replay R t.child s0 = .ok (r.child, r.outputBuffer)
  errors : ownErrors t.errorBuffer = ownErrors r.errorBuffer
  outputs : ∃ k, r.outputBuffer.length = k + t.outputBuffer.length ∧ s0.2.length = k

theorem replay_append {xs ys : List (Context × Call)} {s} : replay R (xs ++ ys) s = (do replay R ys (← replay R xs s)) := by
  induction xs generalizing s with
  | nil => rfl
  | cons x xs ih =>
    show (do replay R (xs ++ ys) (← Call.perform R x s)) = (do replay R ys (← (do replay R xs (← Call.perform R x s))))
    cases Call.perform R x s with
    | error e => rfl
    | ok s1 => exact ih

theorem replay_snoc {xs : List (Context × Call)} {x s} : replay R (xs ++ [x]) s = (do Call.perform R x (← replay R xs s)) := by
  induction xs generalizing s with
  | nil =>
    simp only [List.nil_append, replay]
    show _ = Call.perform R x s
    cases Call.perform R x s <;> rfl
  | cons y ys ih =>
    simp only [List.cons_append, replay]
    cases Call.perform R y s with
    | error e => rfl
    | ok s1 => simp only [bind, Except.bind]; exact ih

variable {s0 : σ × List Out}

/-- One more call that gives a new state. -/
theorem Rec.call {r : Renderer σ Out} {t : Recording} (h : Rec R s0 r t) {c : Context} {x : Call} {s : σ}
    (hs : Call.perform R (c, x) (r.child, r.outputBuffer) = .ok (s, r.outputBuffer)) :
    Rec R s0 { r with child := s } { t with child := t.child ++ [(c, x)] } := by
  refine ⟨h.context, h.spans, ?_, h.errors, h.outputs⟩
  simp only [replay_snoc, h.calls, bind, Except.bind]
  exact hs

theorem Rec.withContext {r : Renderer σ Out} {t : Recording} (h : Rec R s0 r t) (c : Context) :
    Rec R s0 { r with context := c } { t with context := c } := ⟨rfl, h.spans, h.calls, h.errors, h.outputs⟩

theorem Rec.withSpans {r : Renderer σ Out} {t : Recording} (h : Rec R s0 r t) (c : List TextSpan) :
    Rec R s0 { r with spanBuffer := c } { t with spanBuffer := c } := ⟨h.context, rfl, h.calls, h.errors, h.outputs⟩

theorem perform_of {f : Context → σ → Rs σ} {c : Context} {s s' : σ} {o : List Out} (h : f c s = .ok s') :
    (do .ok (← f c s, o) : Rs (σ × List Out)) = .ok (s', o) := by rw [h]; rfl

theorem renderLine_rec {r r' : Renderer σ Out} {t : Recording} {l} (hr : Rec R s0 r t) (h : renderLine R r l = .ok r') :
    ∃ t', renderLine recorder t l = .ok t' ∧ Rec R s0 r' t' := by
  unfold renderLine at h ⊢
  split at h
  · rw [ok_ok] at h; subst h; exact ⟨t, rfl, hr⟩
  · simp only [bind_ok, pure_ok] at h
    obtain ⟨w, h1, off, h2, s, h3, rfl⟩ := h
    refine ⟨_, ?_, hr.call (c := r.context) (x := .text _ off _ _) (s := s) (perform_of (f := fun c s => R.renderText c _ _ _ _ s) h3)⟩
    simp only [bind_ok, pure_ok, hr.context]
    exact ⟨w, h1, off, h2, _, rfl, by simp⟩

theorem renderLines_rec {ls} {r r' : Renderer σ Out} {t : Recording} (hr : Rec R s0 r t) (h : renderLines R ls r = .ok r') :
    ∃ t', renderLines recorder ls t = .ok t' ∧ Rec R s0 r' t' := by
  induction ls generalizing r t with
  | nil => simp only [renderLines, ok_ok] at h; subst h; exact ⟨t, rfl, hr⟩
  | cons l ls ih =>
    simp only [renderLines, bind_ok] at h ⊢
    obtain ⟨r1, h1, h2⟩ := h
    obtain ⟨t1, h3, h4⟩ := renderLine_rec hr h1
    obtain ⟨t2, h5, h6⟩ := ih h4 h2
    exact ⟨t2, ⟨t1, h3, h5⟩, h6⟩

theorem processText_rec {r r' : Renderer σ Out} {t : Recording} (hr : Rec R s0 r t) (h : processText R r = .ok r') :
    ∃ t', processText recorder t = .ok t' ∧ Rec R s0 r' t' := by
  unfold processText at h ⊢
  rw [hr.spans, hr.context]
  split at h
  · rw [ok_ok] at h; subst h; rename_i hs; rw [if_pos hs]; exact ⟨t, rfl, hr⟩
  · rename_i hs
    rw [if_neg hs]
    simp only [bind_ok] at h ⊢
    obtain ⟨⟨c, lines⟩, h1, h2⟩ := h
    obtain ⟨t', h3, h4⟩ := renderLines_rec ((hr.withSpans []).withContext c) h2
    exact ⟨t', ⟨(c, lines), h1, h3⟩, h4⟩

theorem processCode2d_rec {r r' : Renderer σ Out} {t : Recording} {q} (hr : Rec R s0 r t) (h : processCode2d R r q = .ok r') :
    ∃ t', processCode2d recorder t q = .ok t' ∧ Rec R s0 r' t' := by
  simp only [processCode2d, bind_ok, pure_ok] at h ⊢
  obtain ⟨w, h0, c1, h1, ⟨c2, gs⟩, h2, s, h3, rfl⟩ := h
  rw [hr.context]
  refine ⟨_, ⟨w, h0, c1, h1, (c2, gs), h2, _, rfl, rfl⟩, ?_⟩
  exact (hr.call (c := c2.resetX) (x := .graphics gs) (perform_of (f := fun c s => R.renderGraphics c _ s) h3)).withContext _

theorem barcodeText_rec {r r' : Renderer σ Out} {t : Recording} {b} (hr : Rec R s0 r t) (h : barcodeText R r b = .ok r') :
    ∃ t', barcodeText recorder t b = .ok t' ∧ Rec R s0 r' t' := by
  simp only [barcodeText, bind_ok, pure_ok] at h ⊢
  obtain ⟨r1, h1, c, h2, rfl⟩ := h
  have hc : Rec R s0 (r.collectText b.text) (t.collectText b.text) := by
    unfold collectText; rw [← hr.spans]; exact hr.withSpans _
  obtain ⟨t1, h3, h4⟩ := processText_rec hc h1
  exact ⟨_, ⟨t1, h3, c, by rw [h4.context]; exact h2, rfl⟩, h4.withContext c⟩

theorem barcodeBars_rec {r r' : Renderer σ Out} {t : Recording} {b} (hr : Rec R s0 r t) (h : barcodeBars R r b = .ok r') :
    ∃ t', barcodeBars recorder t b = .ok t' ∧ Rec R s0 r' t' := by
  simp only [barcodeBars, bind_ok, pure_ok] at h ⊢
  obtain ⟨w, h0, c1, h1, ⟨c2, gs⟩, h2, s, h3, c3, h4, rfl⟩ := h
  rw [hr.context]
  refine ⟨_, ⟨w, h0, c1, h1, (c2, gs), h2, _, rfl, c3, h4, rfl⟩, ?_⟩
  exact (hr.call (c := c2) (x := .graphics gs) (perform_of (f := fun c s => R.renderGraphics c _ s) h3)).withContext _

theorem barcodeAbove_rec {r r' : Renderer σ Out} {t : Recording} {b} (hr : Rec R s0 r t) (h : barcodeAbove R r b = .ok r') :
    ∃ t', barcodeAbove recorder t b = .ok t' ∧ Rec R s0 r' t' := by
  unfold barcodeAbove at h ⊢
  rw [hr.context]
  split at h
  · rename_i hs; rw [if_pos hs]; exact barcodeText_rec hr h
  · rename_i hs; rw [if_neg hs]; rw [ok_ok] at h; subst h; exact ⟨t, rfl, hr⟩

theorem barcodeBelow_rec {r r' : Renderer σ Out} {t : Recording} {b} (hr : Rec R s0 r t) (h : barcodeBelow R r b = .ok r') :
    ∃ t', barcodeBelow recorder t b = .ok t' ∧ Rec R s0 r' t' := by
  unfold barcodeBelow at h ⊢
  rw [hr.context]
  split at h
  · rename_i hs; rw [if_pos hs]
    simp only [bind_ok] at h ⊢
    obtain ⟨c, hc, hb⟩ := h
    obtain ⟨t', h1, h2⟩ := barcodeText_rec (hr.withContext c) hb
    exact ⟨t', ⟨c, hc, h1⟩, h2⟩
  · rename_i hs; rw [if_neg hs]; rw [ok_ok] at h; subst h; exact ⟨t, rfl, hr⟩

theorem processBarcode_rec {r r' : Renderer σ Out} {t : Recording} {b} (hr : Rec R s0 r t) (h : processBarcode R r b = .ok r') :
    ∃ t', processBarcode recorder t b = .ok t' ∧ Rec R s0 r' t' := by
  simp only [processBarcode, bind_ok] at h ⊢
  obtain ⟨r1, h1, r2, h2, h3⟩ := h
  obtain ⟨t1, a1, b1⟩ := barcodeAbove_rec hr h1
  obtain ⟨t2, a2, b2⟩ := barcodeBars_rec b1 h2
  obtain ⟨t3, a3, b3⟩ := barcodeBelow_rec b2 h3
  exact ⟨t3, ⟨t1, a1, t2, a2, a3⟩, b3⟩

theorem processImage_rec {r r' : Renderer σ Out} {t : Recording} {i} (hr : Rec R s0 r t) (h : processImage R r i = .ok r') :
    ∃ t', processImage recorder t i = .ok t' ∧ Rec R s0 r' t' := by
  simp only [processImage, bind_ok, pure_ok] at h ⊢
  obtain ⟨c1, h1, s, h2, c2, h3, rfl⟩ := h
  rw [hr.context]
  refine ⟨_, ⟨c1, h1, _, rfl, c2, h3, rfl⟩, ?_⟩
  exact (hr.call (c := c1) (x := .image _) (perform_of (f := fun c s => R.renderImage c _ s) h2)).withContext _

theorem logError_rec {r : Renderer σ Out} {t : Recording} {k d} (hr : Rec R s0 r t) : Rec R s0 (r.logError k d) (t.logError k d) := by
  refine ⟨hr.context, hr.spans, hr.calls, ?_, hr.outputs⟩
  have := hr.errors
  unfold ownErrors at this ⊢
  simp only [logError, List.filter_append, this]

theorem processGraphics_rec {r r' : Renderer σ Out} {t : Recording} {g} (hr : Rec R s0 r t) (h : processGraphics R r g = .ok r') :
    ∃ t', processGraphics recorder t g = .ok t' ∧ Rec R s0 r' t' := by
  cases g with
  | error e => simp only [processGraphics, pure_ok] at h; subst h; exact ⟨_, rfl, logError_rec hr⟩
  | code2d q => exact processCode2d_rec hr h
  | barcode b => exact processBarcode_rec hr h
  | image i => exact processImage_rec hr h
  | rectangle _ => simp only [processGraphics, pure_ok] at h; subst h; exact ⟨_, rfl, hr⟩

theorem processGraphicsOpt_rec {r r' : Renderer σ Out} {t : Recording} {g} (hr : Rec R s0 r t) (h : processGraphicsOpt R r g = .ok r') :
    ∃ t', processGraphicsOpt recorder t g = .ok t' ∧ Rec R s0 r' t' := by
  cases g with
  | none => simp only [processGraphicsOpt, ok_ok] at h; subst h; exact ⟨_, rfl, hr⟩
  | some g => exact processGraphics_rec hr h

theorem pageAreaChanged_rec {r r' : Renderer σ Out} {t : Recording} (hr : Rec R s0 r t) (h : pageAreaChanged R r = .ok r') :
    ∃ t', pageAreaChanged recorder t = .ok t' ∧ Rec R s0 r' t' := by
  simp only [pageAreaChanged, bind_ok, pure_ok] at h ⊢
  obtain ⟨⟨p, rot, w, hh⟩, h1, s, h2, rfl⟩ := h
  rw [hr.context]
  refine ⟨_, ⟨(p, rot, w, hh), h1, _, rfl, rfl⟩, ?_⟩
  exact (hr.call (x := .pageAreaChanged rot w hh) (perform_of (f := fun c s => R.pageAreaChanged c rot w hh s) h2)).withContext _

theorem deviceCommand_rec {r r' : Renderer σ Out} {t : Recording} {d} (hr : Rec R s0 r t) (h : deviceCommand R r d = .ok r') :
    ∃ t', deviceCommand recorder t d = .ok t' ∧ Rec R s0 r' t' := by
  simp only [deviceCommand, bind_ok] at h ⊢
  obtain ⟨s, h0, h⟩ := h
  rw [hr.context]
  have hd := hr.call (c := r.context) (x := .device d) (perform_of (f := fun c s => R.deviceCommand c d s) h0)
  cases d <;> simp only [bind_ok, pure_ok] at h ⊢
  case beginPrint =>
    obtain ⟨c, h1, s', h2, rfl⟩ := h
    exact ⟨_, ⟨_, rfl, c, h1, _, rfl, rfl⟩, (hd.call (x := .beginRender) (perform_of (f := R.beginRender) h2)).withContext c⟩
  case endPrint =>
    obtain ⟨⟨s', out⟩, h2, rfl⟩ := h
    refine ⟨_, ⟨_, rfl, _, rfl, rfl⟩, rfl, hd.spans, ?_, ?_, ?_⟩
    · simp only [recorder, replay_snoc, hd.calls, bind, Except.bind]
      simp only [Call.perform, h2, bind, Except.bind]
    · have := hd.errors
      unfold ownErrors at this ⊢
      simp only [recorder, List.filter_append, this, List.map_nil, List.append_nil]
      simp
    · obtain ⟨k, h4, h5⟩ := hd.outputs
      exact ⟨k, by simp only [List.length_append, List.length_cons, List.length_nil] at h4 ⊢; omega, h5⟩
  case feedLine => obtain ⟨c, h1, rfl⟩ := h; exact ⟨_, ⟨_, rfl, c, h1, rfl⟩, hd.withContext c⟩
  case feed => obtain ⟨c, h1, rfl⟩ := h; exact ⟨_, ⟨_, rfl, c, h1, rfl⟩, hd.withContext c⟩
  case fullCut => obtain ⟨c, h1, rfl⟩ := h; exact ⟨_, ⟨_, rfl, c, h1, rfl⟩, hd.withContext c⟩
  case partialCut => obtain ⟨c, h1, rfl⟩ := h; exact ⟨_, ⟨_, rfl, c, h1, rfl⟩, hd.withContext c⟩
  case beginPageMode =>
    obtain ⟨s', h1, rfl⟩ := h
    exact ⟨_, ⟨_, rfl, _, rfl, rfl⟩, (hd.call (x := .pageBegin) (perform_of (f := R.pageBegin) h1)).withContext _⟩
  case endPageMode =>
    obtain ⟨s', h1, rfl⟩ := h
    exact ⟨_, ⟨_, rfl, _, rfl, rfl⟩, (hd.call (x := .pageEnd) (perform_of (f := R.pageEnd) h1)).withContext _⟩
  case printPageMode =>
    obtain ⟨s', h1, y, h2, rfl⟩ := h
    exact ⟨_, ⟨_, rfl, _, rfl, y, h2, rfl⟩, (hd.call (x := .renderPage) (perform_of (f := R.renderPage) h1)).withContext _⟩
  case changePageArea =>
    obtain ⟨t', h1, h2⟩ := pageAreaChanged_rec (hd.withContext _) h
    exact ⟨t', ⟨_, rfl, h1⟩, h2⟩
  case changePageModeDirection =>
    obtain ⟨t', h1, h2⟩ := pageAreaChanged_rec (hd.withContext r.context) h
    refine ⟨t', ⟨_, rfl, ?_⟩, h2⟩
    exact h1
  case setTextWidth => subst h; exact ⟨_, ⟨_, rfl, rfl⟩, hd.withContext _⟩
  case setTextHeight => subst h; exact ⟨_, ⟨_, rfl, rfl⟩, hd.withContext _⟩
  case justify => subst h; exact ⟨_, ⟨_, rfl, rfl⟩, hd.withContext _⟩
  case changeTabs => subst h; exact ⟨_, ⟨_, rfl, rfl⟩, hd.withContext _⟩
  case clearBufferGraphics => subst h; exact ⟨_, ⟨_, rfl, rfl⟩, hd.withContext _⟩
  all_goals (subst h; exact ⟨_, ⟨_, rfl, rfl⟩, hd.withContext r.context⟩)

theorem deviceCommands_rec {ds} {r r' : Renderer σ Out} {t : Recording} (hr : Rec R s0 r t) (h : deviceCommands R ds r = .ok r') :
    ∃ t', deviceCommands recorder ds t = .ok t' ∧ Rec R s0 r' t' := by
  induction ds generalizing r t with
  | nil => simp only [deviceCommands, ok_ok] at h; subst h; exact ⟨t, rfl, hr⟩
  | cons l ls ih =>
    simp only [deviceCommands, bind_ok] at h ⊢
    obtain ⟨r1, h1, h2⟩ := h
    obtain ⟨t1, h3, h4⟩ := deviceCommand_rec hr h1
    obtain ⟨t2, h5, h6⟩ := ih h4 h2
    exact ⟨t2, ⟨t1, h3, h5⟩, h6⟩

theorem processCommand_rec {cmd} {r r' : Renderer σ Out} {t : Recording} (hr : Rec R s0 r t) (h : processCommand R ext r cmd = .ok r') :
    ∃ t', processCommand recorder ext t cmd = .ok t' ∧ Rec R s0 r' t' := by
  unfold processCommand at h ⊢
  split at h
  · simp only [bind_ok, pure_ok] at h ⊢
    obtain ⟨r1, h1, rfl⟩ := h
    obtain ⟨t1, h2, h3⟩ := processText_rec hr h1
    exact ⟨_, ⟨t1, h2, rfl⟩, logError_rec h3⟩
  · simp only [bind_ok] at h ⊢
    obtain ⟨o, h1, h⟩ := h
    rw [hr.context]
    cases o with
    | none => simp only [pure_ok] at h; subst h; exact ⟨t, ⟨none, h1, rfl⟩, hr⟩
    | some x =>
      simp only [pure_ok] at h; subst h
      refine ⟨t.collectText x, ⟨some x, h1, rfl⟩, ?_⟩
      unfold collectText; rw [← hr.spans]; exact hr.withSpans _
  · simp only [bind_ok] at h ⊢
    obtain ⟨r1, h1, g, h2, r2, h3, o, h4, h5⟩ := h
    obtain ⟨t1, a1, b1⟩ := processText_rec hr h1
    obtain ⟨t2, a2, b2⟩ := processGraphicsOpt_rec b1 h3
    obtain ⟨t3, a3, b3⟩ := deviceCommands_rec b2 h5
    exact ⟨t3, ⟨t1, a1, g, by rw [b1.context]; exact h2, t2, a2, o, by rw [b2.context]; exact h4, a3⟩, b3⟩
  · simp only [bind_ok, pure_ok] at h ⊢
    obtain ⟨r1, h1, c, h2, rfl⟩ := h
    obtain ⟨t1, a1, b1⟩ := processText_rec hr h1
    exact ⟨_, ⟨t1, a1, c, by rw [b1.context]; exact h2, rfl⟩, b1.withContext c⟩
  · simp only [bind_ok] at h ⊢
    obtain ⟨r1, h1, c, h2, o, h3, h4⟩ := h
    obtain ⟨t1, a1, b1⟩ := processText_rec hr h1
    obtain ⟨t3, a3, b3⟩ := deviceCommands_rec (b1.withContext c) h4
    exact ⟨t3, ⟨t1, a1, c, by rw [b1.context]; exact h2, o, h3, a3⟩, b3⟩
  · simp only [bind_ok] at h ⊢
    obtain ⟨o, h3, r1, h1, h4⟩ := h
    obtain ⟨t1, a1, b1⟩ := processText_rec hr h1
    obtain ⟨t3, a3, b3⟩ := deviceCommands_rec b1 h4
    exact ⟨t3, ⟨o, by rw [hr.context]; exact h3, t1, a1, a3⟩, b3⟩
  · simp only [bind_ok] at h ⊢
    obtain ⟨c, h2, o, h3, h4⟩ := h
    obtain ⟨t3, a3, b3⟩ := deviceCommands_rec (hr.withContext c) h4
    exact ⟨t3, ⟨c, by rw [hr.context]; exact h2, o, h3, a3⟩, b3⟩
  · rw [pure_ok] at h; subst h; exact ⟨t, rfl, hr⟩

theorem processCommands_rec {cmds} {r r' : Renderer σ Out} {t : Recording} (hr : Rec R s0 r t) (h : processCommands R ext cmds r = .ok r') :
    ∃ t', processCommands recorder ext cmds t = .ok t' ∧ Rec R s0 r' t' := by
  induction cmds generalizing r t with
  | nil => simp only [processCommands, ok_ok] at h; subst h; exact ⟨t, rfl, hr⟩
  | cons l ls ih =>
    simp only [processCommands, bind_ok] at h ⊢
    obtain ⟨r1, h1, h2⟩ := h
    obtain ⟨t1, h3, h4⟩ := processCommand_rec hr h1
    obtain ⟨t2, h5, h6⟩ := ih h4 h2
    exact ⟨t2, ⟨t1, h3, h5⟩, h6⟩

theorem Rec.start {r : Renderer σ Out} :
    Rec R (r.child, r.outputBuffer) r ⟨[], [], r.errorBuffer, r.spanBuffer, r.context⟩ :=
  ⟨rfl, rfl, rfl, rfl, r.outputBuffer.length, by simp, rfl⟩

end Renderer
end Thermal
