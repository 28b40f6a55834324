import Verif.Proofs.Trace
import Verif.Props.Jobs
/-
If the recorded calls can be made, the renderer gets to the end.  (The converse of Proofs/Trace.)
-/
namespace Thermal
namespace Renderer
variable {σ Out : Type} {R : OutputRenderer σ Out} {ext : Ext} {s0 : σ × List Out}

/-- The calls can be made one after the other. -/
def Plays (R : OutputRenderer σ Out) (s0 : σ × List Out) (calls : List (Context × Call)) : Prop := ∃ s, replay R calls s0 = .ok s

theorem Plays.pre {xs ys : List (Context × Call)} (h : Plays R s0 ys) (hp : xs <+: ys) : Plays R s0 xs := by
  obtain ⟨zs, rfl⟩ := hp
  obtain ⟨s, h⟩ := h
  rw [replay_append, bind_ok] at h
  obtain ⟨s1, h1, _⟩ := h
  exact ⟨s1, h1⟩

/-- The call that was recorded next can be made. -/
theorem Rec.plays {r : Renderer σ Out} {t : Recording} (h : Rec R s0 r t) {x : Context × Call} (hp : Plays R s0 (t.child ++ [x])) :
    ∃ s, Call.perform R x (r.child, r.outputBuffer) = .ok s := by
  obtain ⟨s, hp⟩ := hp
  rw [replay_snoc, h.calls] at hp
  exact ⟨s, hp⟩

theorem ok_of_perform {f : Context → σ → Rs σ} {c : Context} {s : σ} {o : List Out} (h : ∃ s', (do .ok (← f c s, o) : Rs (σ × List Out)) = .ok s') :
    ∃ s', f c s = .ok s' := by
  obtain ⟨s', h⟩ := h
  rw [bind_ok] at h
  obtain ⟨v, h, _⟩ := h
  exact ⟨v, h⟩

/-- It is enough to get to the end: what is reached is then related. -/
theorem Rec.done {f : Rs (Renderer σ Out)} {g : Rs Recording} {t' : Recording}
    (hrec : ∀ r', f = .ok r' → ∃ t', g = .ok t' ∧ Rec R s0 r' t') (hg : g = .ok t') (hf : ∃ r', f = .ok r') :
    ∃ r', f = .ok r' ∧ Rec R s0 r' t' := by
  obtain ⟨r', hf⟩ := hf
  obtain ⟨t2, h1, h2⟩ := hrec r' hf
  rw [hg, ok_ok] at h1
  subst h1
  exact ⟨r', hf, h2⟩

theorem renderLine_plays {r : Renderer σ Out} {t t' : Recording} {l} (hr : Rec R s0 r t) (h : renderLine recorder t l = .ok t')
    (hp : Plays R s0 t'.child) : ∃ r', renderLine R r l = .ok r' ∧ Rec R s0 r' t' := by
  refine Rec.done (fun _ => renderLine_rec hr) h ?_
  unfold renderLine at h ⊢
  split at h
  · exact ⟨r, rfl⟩
  · simp only [bind_ok, pure_ok, recorder, ok_ok] at h
    obtain ⟨w, h1, off, h2, s, rfl, rfl⟩ := h
    rw [hr.context] at h2 hp
    obtain ⟨s, h3⟩ := ok_of_perform (f := fun c s => R.renderText c _ _ _ _ s) (hr.plays hp)
    exact ⟨_, by simp only [bind_ok, pure_ok]; exact ⟨w, h1, off, h2, s, h3, rfl⟩⟩

theorem renderLines_plays {ls} {r : Renderer σ Out} {t t' : Recording} (hr : Rec R s0 r t) (h : renderLines recorder ls t = .ok t')
    (hp : Plays R s0 t'.child) : ∃ r', renderLines R ls r = .ok r' ∧ Rec R s0 r' t' := by
  induction ls generalizing r t with
  | nil => simp only [renderLines, ok_ok] at h; subst h; exact ⟨r, rfl, hr⟩
  | cons l ls ih =>
    simp only [renderLines, bind_ok] at h ⊢
    obtain ⟨t1, h1, h2⟩ := h
    obtain ⟨r1, h3, h4⟩ := renderLine_plays hr h1 (hp.pre (renderLines_prefix h2))
    obtain ⟨r2, h5, h6⟩ := ih h4 h2
    exact ⟨r2, ⟨r1, h3, h5⟩, h6⟩

theorem processText_plays {r : Renderer σ Out} {t t' : Recording} (hr : Rec R s0 r t) (h : processText recorder t = .ok t')
    (hp : Plays R s0 t'.child) : ∃ r', processText R r = .ok r' ∧ Rec R s0 r' t' := by
  unfold processText at h ⊢
  rw [hr.spans, hr.context] at h
  split at h
  · rw [ok_ok] at h; subst h; rename_i hs; rw [if_pos hs]; exact ⟨r, rfl, hr⟩
  · rename_i hs
    rw [if_neg hs]
    simp only [bind_ok] at h ⊢
    obtain ⟨⟨c, lines⟩, h1, h2⟩ := h
    obtain ⟨r', h3, h4⟩ := renderLines_plays ((hr.withSpans []).withContext c) h2 hp
    exact ⟨r', ⟨(c, lines), h1, h3⟩, h4⟩

theorem processCode2d_plays {r : Renderer σ Out} {t t' : Recording} {q} (hr : Rec R s0 r t) (h : processCode2d recorder t q = .ok t')
    (hp : Plays R s0 t'.child) : ∃ r', processCode2d R r q = .ok r' ∧ Rec R s0 r' t' := by
  refine Rec.done (fun _ => processCode2d_rec hr) h ?_
  simp only [processCode2d, bind_ok, pure_ok, recorder, ok_ok] at h ⊢
  obtain ⟨w, h0, c1, h1, ⟨c2, gs⟩, h2, s, rfl, rfl⟩ := h
  rw [hr.context] at h1 h2
  obtain ⟨s, h3⟩ := ok_of_perform (f := fun c s => R.renderGraphics c _ s) (hr.plays hp)
  exact ⟨_, w, h0, c1, h1, (c2, gs), h2, s, h3, rfl⟩

theorem barcodeText_plays {r : Renderer σ Out} {t t' : Recording} {b} (hr : Rec R s0 r t) (h : barcodeText recorder t b = .ok t')
    (hp : Plays R s0 t'.child) : ∃ r', barcodeText R r b = .ok r' ∧ Rec R s0 r' t' := by
  simp only [barcodeText, bind_ok, pure_ok] at h ⊢
  obtain ⟨t1, h1, c, h2, rfl⟩ := h
  have hc : Rec R s0 (r.collectText b.text) (t.collectText b.text) := by
    unfold collectText; rw [← hr.spans]; exact hr.withSpans _
  obtain ⟨r1, h3, h4⟩ := processText_plays hc h1 hp
  exact ⟨_, ⟨r1, h3, c, by rw [← h4.context]; exact h2, rfl⟩, h4.withContext c⟩

theorem barcodeBars_plays {r : Renderer σ Out} {t t' : Recording} {b} (hr : Rec R s0 r t) (h : barcodeBars recorder t b = .ok t')
    (hp : Plays R s0 t'.child) : ∃ r', barcodeBars R r b = .ok r' ∧ Rec R s0 r' t' := by
  refine Rec.done (fun _ => barcodeBars_rec hr) h ?_
  simp only [barcodeBars, bind_ok, pure_ok, recorder, ok_ok] at h ⊢
  obtain ⟨w, h0, c1, h1, ⟨c2, gs⟩, h2, s, rfl, c3, h4, rfl⟩ := h
  rw [hr.context] at h1
  obtain ⟨s, h3⟩ := ok_of_perform (f := fun c s => R.renderGraphics c _ s) (hr.plays hp)
  exact ⟨_, w, h0, c1, h1, (c2, gs), h2, s, h3, c3, h4, rfl⟩

theorem barcodeAbove_plays {r : Renderer σ Out} {t t' : Recording} {b} (hr : Rec R s0 r t) (h : barcodeAbove recorder t b = .ok t')
    (hp : Plays R s0 t'.child) : ∃ r', barcodeAbove R r b = .ok r' ∧ Rec R s0 r' t' := by
  unfold barcodeAbove at h ⊢
  rw [hr.context] at h
  split at h
  · rename_i hs; rw [if_pos hs]; exact barcodeText_plays hr h hp
  · rename_i hs; rw [if_neg hs]; rw [ok_ok] at h; subst h; exact ⟨r, rfl, hr⟩

theorem barcodeBelow_plays {r : Renderer σ Out} {t t' : Recording} {b} (hr : Rec R s0 r t) (h : barcodeBelow recorder t b = .ok t')
    (hp : Plays R s0 t'.child) : ∃ r', barcodeBelow R r b = .ok r' ∧ Rec R s0 r' t' := by
  unfold barcodeBelow at h ⊢
  rw [hr.context] at h
  split at h
  · rename_i hs; rw [if_pos hs]
    simp only [bind_ok] at h ⊢
    obtain ⟨c, hc, hb⟩ := h
    obtain ⟨r', h1, h2⟩ := barcodeText_plays (hr.withContext c) hb hp
    exact ⟨r', ⟨c, hc, h1⟩, h2⟩
  · rename_i hs; rw [if_neg hs]; rw [ok_ok] at h; subst h; exact ⟨r, rfl, hr⟩

theorem barcodeBars_prefix {r r' : Recording} {b} (h : barcodeBars recorder r b = .ok r') : r.child <+: r'.child := by
  simp only [barcodeBars, bind_ok, pure_ok, recorder, ok_ok] at h
  obtain ⟨_, _, _, _, ⟨_, _⟩, _, _, rfl, _, _, rfl⟩ := h; simp

theorem barcodeBelow_prefix {r r' : Recording} {b} (h : barcodeBelow recorder r b = .ok r') : r.child <+: r'.child := by
  unfold barcodeBelow at h
  split at h
  · simp only [bind_ok] at h
    obtain ⟨_, _, h⟩ := h
    have := barcodeText_prefix h
    exact this
  · rw [ok_ok] at h; subst h; exact List.prefix_refl _

theorem processBarcode_plays {r : Renderer σ Out} {t t' : Recording} {b} (hr : Rec R s0 r t) (h : processBarcode recorder t b = .ok t')
    (hp : Plays R s0 t'.child) : ∃ r', processBarcode R r b = .ok r' ∧ Rec R s0 r' t' := by
  simp only [processBarcode, bind_ok] at h ⊢
  obtain ⟨t1, h1, t2, h2, h3⟩ := h
  have p2 := hp.pre (barcodeBelow_prefix h3)
  obtain ⟨r1, a1, b1⟩ := barcodeAbove_plays hr h1 (p2.pre (barcodeBars_prefix h2))
  obtain ⟨r2, a2, b2⟩ := barcodeBars_plays b1 h2 p2
  obtain ⟨r3, a3, b3⟩ := barcodeBelow_plays b2 h3 hp
  exact ⟨r3, ⟨r1, a1, r2, a2, a3⟩, b3⟩

theorem processImage_plays {r : Renderer σ Out} {t t' : Recording} {i} (hr : Rec R s0 r t) (h : processImage recorder t i = .ok t')
    (hp : Plays R s0 t'.child) : ∃ r', processImage R r i = .ok r' ∧ Rec R s0 r' t' := by
  refine Rec.done (fun _ => processImage_rec hr) h ?_
  simp only [processImage, bind_ok, pure_ok, recorder, ok_ok] at h ⊢
  obtain ⟨c1, h1, s, rfl, c2, h3, rfl⟩ := h
  rw [hr.context] at h1
  obtain ⟨s, h2⟩ := ok_of_perform (f := fun c s => R.renderImage c _ s) (hr.plays hp)
  exact ⟨_, c1, h1, s, h2, c2, h3, rfl⟩

theorem processGraphicsOpt_plays {r : Renderer σ Out} {t t' : Recording} {g} (hr : Rec R s0 r t) (h : processGraphicsOpt recorder t g = .ok t')
    (hp : Plays R s0 t'.child) : ∃ r', processGraphicsOpt R r g = .ok r' ∧ Rec R s0 r' t' := by
  cases g with
  | none => simp only [processGraphicsOpt, ok_ok] at h; subst h; exact ⟨_, rfl, hr⟩
  | some g =>
    cases g with
    | error e => simp only [processGraphicsOpt, processGraphics, pure_ok] at h; subst h; exact ⟨_, rfl, logError_rec hr⟩
    | code2d q => exact processCode2d_plays hr h hp
    | barcode b => exact processBarcode_plays hr h hp
    | image i => exact processImage_plays hr h hp
    | rectangle _ => simp only [processGraphicsOpt, processGraphics, pure_ok] at h; subst h; exact ⟨_, rfl, hr⟩

theorem pageAreaChanged_plays {r : Renderer σ Out} {t t' : Recording} (hr : Rec R s0 r t) (h : pageAreaChanged recorder t = .ok t')
    (hp : Plays R s0 t'.child) : ∃ r', pageAreaChanged R r = .ok r' := by
  simp only [pageAreaChanged, bind_ok, pure_ok, recorder, ok_ok] at h ⊢
  obtain ⟨⟨p, rot, w, hh⟩, h1, s, rfl, rfl⟩ := h
  rw [hr.context] at h1 hp
  obtain ⟨s, h2⟩ := ok_of_perform (f := fun c s => R.pageAreaChanged c rot w hh s) (hr.plays hp)
  exact ⟨_, (p, rot, w, hh), h1, s, h2, rfl⟩

theorem deviceCommand_plays {r : Renderer σ Out} {t t' : Recording} {d} (hr : Rec R s0 r t) (h : deviceCommand recorder t d = .ok t')
    (hp : Plays R s0 t'.child) : ∃ r', deviceCommand R r d = .ok r' ∧ Rec R s0 r' t' := by
  refine Rec.done (fun _ => deviceCommand_rec hr) h ?_
  have hpre := deviceCommand_calls h
  simp only [deviceCommand, bind_ok] at h ⊢
  obtain ⟨s, h0, h⟩ := h
  simp only [recorder, ok_ok] at h0
  subst h0
  have pre1 : Plays R s0 (t.child ++ [(r.context, .device d)]) := by
    rw [hr.context] at h
    refine hp.pre ?_
    cases d <;> simp only [bind_ok, pure_ok, recorder, ok_ok] at h
    case beginPrint => obtain ⟨c, h1, s, rfl, rfl⟩ := h; simp
    case endPrint => obtain ⟨_, rfl, rfl⟩ := h; simp
    case feedLine => obtain ⟨c, h1, rfl⟩ := h; simp
    case feed => obtain ⟨c, h1, rfl⟩ := h; simp
    case fullCut => obtain ⟨c, h1, rfl⟩ := h; simp
    case partialCut => obtain ⟨c, h1, rfl⟩ := h; simp
    case beginPageMode => obtain ⟨c, rfl, rfl⟩ := h; simp
    case endPageMode => obtain ⟨c, rfl, rfl⟩ := h; simp
    case printPageMode => obtain ⟨s, rfl, y, h1, rfl⟩ := h; simp
    case changePageArea =>
      simp only [pageAreaChanged, bind_ok, pure_ok, ok_ok] at h
      obtain ⟨⟨p, rot, w, hh⟩, h1, s, rfl, rfl⟩ := h; simp
    case changePageModeDirection =>
      simp only [pageAreaChanged, bind_ok, pure_ok, ok_ok] at h
      obtain ⟨⟨p, rot, w, hh⟩, h1, s, rfl, rfl⟩ := h; simp
    all_goals (subst h; simp)
  obtain ⟨s, h0⟩ := ok_of_perform (f := fun c s => R.deviceCommand c d s) (hr.plays pre1)
  have hd := hr.call (c := r.context) (x := .device d) (perform_of (f := fun c s => R.deviceCommand c d s) h0)
  suffices ∃ r', _ = Except.ok r' by
    obtain ⟨r', e⟩ := this
    exact ⟨r', s, h0, e⟩
  rw [hr.context] at h
  cases d <;> simp only [bind_ok, pure_ok, recorder, ok_ok] at h ⊢
  case beginPrint =>
    obtain ⟨c, h1, s', rfl, rfl⟩ := h
    obtain ⟨s', h2⟩ := ok_of_perform (f := R.beginRender) (hd.plays hp)
    exact ⟨_, c, h1, s', h2, rfl⟩
  case endPrint =>
    obtain ⟨s', rfl, rfl⟩ := h
    obtain ⟨s', h2⟩ := hd.plays hp
    simp only [Call.perform, bind_ok] at h2
    obtain ⟨⟨s', out⟩, h2, _⟩ := h2
    exact ⟨_, (s', out), h2, rfl⟩
  case feedLine => obtain ⟨c, h1, _⟩ := h; exact ⟨_, c, h1, rfl⟩
  case feed => obtain ⟨c, h1, _⟩ := h; exact ⟨_, c, h1, rfl⟩
  case fullCut => obtain ⟨c, h1, _⟩ := h; exact ⟨_, c, h1, rfl⟩
  case partialCut => obtain ⟨c, h1, _⟩ := h; exact ⟨_, c, h1, rfl⟩
  case beginPageMode =>
    obtain ⟨s', rfl, rfl⟩ := h
    obtain ⟨s', h1⟩ := ok_of_perform (f := R.pageBegin) (hd.plays hp)
    exact ⟨_, s', h1, rfl⟩
  case endPageMode =>
    obtain ⟨s', rfl, rfl⟩ := h
    obtain ⟨s', h1⟩ := ok_of_perform (f := R.pageEnd) (hd.plays hp)
    exact ⟨_, s', h1, rfl⟩
  case printPageMode =>
    obtain ⟨s', rfl, y, h2, rfl⟩ := h
    obtain ⟨s', h1⟩ := ok_of_perform (f := R.renderPage) (hd.plays hp)
    exact ⟨_, s', h1, y, h2, rfl⟩
  case changePageArea => exact pageAreaChanged_plays (hd.withContext _) h hp
  case changePageModeDirection => exact pageAreaChanged_plays (hd.withContext r.context) h hp
  all_goals exact ⟨_, rfl⟩

theorem deviceCommands_plays {ds} {r : Renderer σ Out} {t t' : Recording} (hr : Rec R s0 r t) (h : deviceCommands recorder ds t = .ok t')
    (hp : Plays R s0 t'.child) : ∃ r', deviceCommands R ds r = .ok r' ∧ Rec R s0 r' t' := by
  induction ds generalizing r t with
  | nil => simp only [deviceCommands, ok_ok] at h; subst h; exact ⟨r, rfl, hr⟩
  | cons l ls ih =>
    simp only [deviceCommands, bind_ok] at h ⊢
    obtain ⟨t1, h1, h2⟩ := h
    obtain ⟨r1, h3, h4⟩ := deviceCommand_plays hr h1 (hp.pre (deviceCommands_calls h2))
    obtain ⟨r2, h5, h6⟩ := ih h4 h2
    exact ⟨r2, ⟨r1, h3, h5⟩, h6⟩

theorem processCommand_plays {cmd} {r : Renderer σ Out} {t t' : Recording} (hr : Rec R s0 r t) (h : processCommand recorder ext t cmd = .ok t')
    (hp : Plays R s0 t'.child) : ∃ r', processCommand R ext r cmd = .ok r' ∧ Rec R s0 r' t' := by
  refine Rec.done (fun _ => processCommand_rec hr) h ?_
  unfold processCommand at h ⊢
  split at h
  · simp only [bind_ok, pure_ok] at h ⊢
    obtain ⟨t1, h1, rfl⟩ := h
    obtain ⟨r1, h2, h3⟩ := processText_plays hr h1 hp
    exact ⟨_, r1, h2, rfl⟩
  · simp only [bind_ok] at h ⊢
    obtain ⟨o, h1, h⟩ := h
    rw [hr.context] at h1
    cases o with
    | none => exact ⟨r, none, h1, rfl⟩
    | some x => exact ⟨_, some x, h1, rfl⟩
  · simp only [bind_ok] at h ⊢
    obtain ⟨t1, h1, g, h2, t2, h3, o, h4, h5⟩ := h
    have p2 := hp.pre (deviceCommands_calls h5)
    obtain ⟨r1, a1, b1⟩ := processText_plays hr h1 (p2.pre (processGraphicsOpt_calls h3))
    obtain ⟨r2, a2, b2⟩ := processGraphicsOpt_plays b1 h3 p2
    obtain ⟨r3, a3, b3⟩ := deviceCommands_plays b2 h5 hp
    exact ⟨r3, r1, a1, g, by rw [← b1.context]; exact h2, r2, a2, o, by rw [← b2.context]; exact h4, a3⟩
  · simp only [bind_ok, pure_ok] at h ⊢
    obtain ⟨t1, h1, c, h2, rfl⟩ := h
    obtain ⟨r1, a1, b1⟩ := processText_plays hr h1 hp
    exact ⟨_, r1, a1, c, by rw [← b1.context]; exact h2, rfl⟩
  · simp only [bind_ok] at h ⊢
    obtain ⟨t1, h1, c, h2, o, h3, h4⟩ := h
    have p2 := hp.pre (deviceCommands_calls h4)
    obtain ⟨r1, a1, b1⟩ := processText_plays hr h1 p2
    obtain ⟨r3, a3, b3⟩ := deviceCommands_plays (b1.withContext c) h4 hp
    exact ⟨r3, r1, a1, c, by rw [← b1.context]; exact h2, o, h3, a3⟩
  · simp only [bind_ok] at h ⊢
    obtain ⟨o, h3, t1, h1, h4⟩ := h
    obtain ⟨r1, a1, b1⟩ := processText_plays hr h1 (hp.pre (deviceCommands_calls h4))
    obtain ⟨r3, a3, b3⟩ := deviceCommands_plays b1 h4 hp
    exact ⟨r3, o, by rw [← hr.context]; exact h3, r1, a1, a3⟩
  · simp only [bind_ok] at h ⊢
    obtain ⟨c, h2, o, h3, h4⟩ := h
    obtain ⟨r3, a3, b3⟩ := deviceCommands_plays (hr.withContext c) h4 hp
    exact ⟨r3, c, by rw [← hr.context]; exact h2, o, h3, a3⟩
  · exact ⟨r, rfl⟩

theorem processCommand_prefix {cmd : Command} {r r' : Recording} (h : processCommand recorder ext r cmd = .ok r') : r.child <+: r'.child := by
  unfold processCommand at h
  split at h
  · simp only [bind_ok, pure_ok] at h
    obtain ⟨t1, h1, rfl⟩ := h
    have := processText_prefix h1; exact this
  · simp only [bind_ok] at h
    obtain ⟨o, h1, h⟩ := h
    cases o <;> (simp only [pure_ok] at h; subst h; exact List.prefix_refl _)
  · simp only [bind_ok] at h
    obtain ⟨t1, h1, g, h2, t2, h3, o, h4, h5⟩ := h
    exact (processText_prefix h1).trans ((processGraphicsOpt_calls h3).trans (deviceCommands_calls h5))
  · simp only [bind_ok, pure_ok] at h
    obtain ⟨t1, h1, c, h2, rfl⟩ := h
    have := processText_prefix h1; exact this
  · simp only [bind_ok] at h
    obtain ⟨t1, h1, c, h2, o, h3, h4⟩ := h
    have := deviceCommands_calls h4
    exact (processText_prefix h1).trans this
  · simp only [bind_ok] at h
    obtain ⟨o, h3, t1, h1, h4⟩ := h
    exact (processText_prefix h1).trans (deviceCommands_calls h4)
  · simp only [bind_ok] at h
    obtain ⟨c, h2, o, h3, h4⟩ := h
    have := deviceCommands_calls h4; exact this
  · rw [pure_ok] at h; subst h; exact List.prefix_refl _

theorem processCommands_prefix {cmds : List Command} {r r' : Recording} (h : processCommands recorder ext cmds r = .ok r') :
    r.child <+: r'.child := by
  induction cmds generalizing r with
  | nil => simp only [processCommands, ok_ok] at h; subst h; exact List.prefix_refl _
  | cons l ls ih =>
    simp only [processCommands, bind_ok] at h
    obtain ⟨r1, h1, h2⟩ := h
    exact (processCommand_prefix h1).trans (ih h2)

theorem processCommands_plays {cmds} {r : Renderer σ Out} {t t' : Recording} (hr : Rec R s0 r t) (h : processCommands recorder ext cmds t = .ok t')
    (hp : Plays R s0 t'.child) : ∃ r', processCommands R ext cmds r = .ok r' ∧ Rec R s0 r' t' := by
  induction cmds generalizing r t with
  | nil => simp only [processCommands, ok_ok] at h; subst h; exact ⟨r, rfl, hr⟩
  | cons l ls ih =>
    simp only [processCommands, bind_ok] at h ⊢
    obtain ⟨t1, h1, h2⟩ := h
    obtain ⟨r1, h3, h4⟩ := processCommand_plays hr h1 (hp.pre (processCommands_prefix h2))
    obtain ⟨r2, h5, h6⟩ := ih h4 h2
    exact ⟨r2, ⟨r1, h3, h5⟩, h6⟩

end Renderer
open Renderer

/-- C68, the other direction: if a stream can be recorded and the recorded calls can be made to an output renderer, the stream is rendered
with that output renderer, with the outputs and the state that the calls give. -/
theorem C68_performed {σ Out : Type} (R : OutputRenderer σ Out) (ext : Ext) (s s' : σ) (bytes : List Byte) (units errs t) (outs : List Out)
    (h : render recorder ext (Renderer.new []) bytes = .ok (units, errs, t)) (hp : replay R t.child (s, []) = .ok (s', outs)) :
    ∃ errs' r, render R ext (Renderer.new s) bytes = .ok (outs, errs', r) ∧ r.child = s' := by
  simp only [render, bind_ok, pure_ok] at h ⊢
  obtain ⟨cmds, h1, t1, h2, h3⟩ := h
  simp only [Prod.mk.injEq] at h3
  obtain ⟨rfl, rfl, rfl⟩ := h3
  obtain ⟨r', h4, h5⟩ := processCommands_plays (Rec.start (R := R) (r := Renderer.new s)) h2 ⟨_, hp⟩
  have hc := h5.calls
  rw [show ((Renderer.new s : Renderer σ Out).child, (Renderer.new s : Renderer σ Out).outputBuffer) = (s, []) from rfl] at hc
  have hp' : replay R t1.child (s, []) = .ok (s', outs) := hp
  rw [hp', ok_ok, Prod.mk.injEq] at hc
  obtain ⟨e1, e2⟩ := hc
  exact ⟨r'.errorBuffer, { r' with outputBuffer := [], errorBuffer := [] }, ⟨cmds, h1, r', h4, by rw [e2]⟩, e1.symm⟩

end Thermal
