import Verif.Model.ImageRenderer
import Verif.Proofs.CallContexts
import Verif.Props.Canvas
import Verif.Props.Jobs
import Verif.Spec.Silent
/-
C55, C73: what the image renderer returns, for every stream.
-/
namespace Thermal
open Spec Renderer

/-- The settings of the paper, which no command changes: its width and margins, the printable width, the colours. -/
structure OnPaper (c : Context) : Prop where
  colors : c.graphics.renderColors = defaultColors
  paper : c.graphics.paperArea.w = 649
  area : c.graphics.renderArea.w = 609
  default : c.default = some defaultSettings
  edge : c.graphics.paperArea.x = 20 ∧ c.graphics.paperArea.y = 20

namespace OnPaper

theorem start : OnPaper Context.new := ⟨rfl, rfl, rfl, rfl, rfl, rfl⟩

theorem of_only {fs : List Setting} {c c' : Context} (h : OnlyChanges fs c c') (h1 : Setting.renderColors ∉ fs)
    (h2 : Setting.paperArea ∉ fs) (h3 : Setting.printWidth ∉ fs) (h4 : Setting.defaults ∉ fs) (hc : OnPaper c) : OnPaper c' :=
  ⟨(h _ h1).trans hc.colors, by rw [show c'.graphics.paperArea = _ from h _ h2]; exact hc.paper, (h _ h3).trans hc.area, (h _ h4).trans hc.default,
    by rw [show c'.graphics.paperArea = _ from h _ h2]; exact hc.edge⟩

theorem pen {c c' : Context} (h : PenDown c c') (hc : OnPaper c) : OnPaper c' :=
  of_only h.only (by decide) (by decide) (by decide) (by decide) hc

theorem device {d : DeviceCommand} {c c' : Context} (h : deviceContext d c = .ok c') (hc : OnPaper c) : OnPaper c' := by
  have key : ∀ f ∈ [Setting.renderColors, .paperArea, .printWidth, .defaults], f ∉ deviceWrites d := by
    cases d <;> (simp only [deviceWrites]; decide)
  exact of_only (deviceContext_only h) (key _ (by decide)) (key _ (by decide)) (key _ (by decide)) (key _ (by decide)) hc

theorem apply {ext : Ext} {cmd : Command} {c c' : Context} (h : applyContext ext cmd c = .ok c') (hc : OnPaper c) : OnPaper c' := by
  by_cases hi : cmd.handler = .unit .initialize
  · simp only [applyContext, hi, applyUnit, pure_ok] at h
    subst h
    unfold Context.reset
    rw [hc.default]
    exact ⟨rfl, rfl, rfl, rfl, rfl, rfl⟩
  · have h1 : ∀ h : Hid, h ≠ .initialize → ∀ f ∈ [Setting.renderColors, .paperArea, .printWidth, .defaults], f ∉ applyWrites h := by
      intro h; cases h <;> decide
    have h2 : ∀ h : SubId, ∀ f ∈ [Setting.renderColors, .paperArea, .printWidth, .defaults], f ∉ subWrites h := by
      intro h; cases h <;> decide
    have h3 : ∀ f ∈ [Setting.renderColors, .paperArea, .printWidth, .defaults], f ∉ handlerWrites cmd.handler := by
      unfold handlerWrites; split
      · rename_i hh; exact h1 _ (fun he => hi (by rw [hh, he]))
      · exact h2 _
      · decide
      · split
        · exact h2 _
        · decide
      · decide
    exact of_only (applyContext_only h) (h3 _ (by decide)) (h3 _ (by decide)) (h3 _ (by decide)) (h3 _ (by decide)) hc

end OnPaper

namespace ImageRenderer

/-- Between two calls: complete rows, white paper, and the paper is as wide as the printable area or nothing. -/
structure Ready (s : ImageRenderer) : Prop where
  paper : s.paper.Rect
  page : s.page.Rect
  width : s.paper.width = 609 ∨ s.paper.width = 0
  white : s.paper.paperColor = defaultColors.paperColor

/-- What is claimed about an image. -/
structure Sound (o : ReceiptImage) : Prop where
  width : o.width = 649
  size : o.bytes.length = 3 * (o.width * o.height)
  margin : ∀ x y k, x < 20 ∨ 629 ≤ x → x < 649 → y < o.height → k < 3 → o.bytes[3 * (y * 649 + x) + k]? = some 255

theorem ready_new (d : Debug) : Ready (ImageRenderer.new d) := ⟨⟨0, rfl⟩, ⟨0, rfl⟩, .inr rfl, rfl⟩

theorem rotate_rect {rot : Rotation} {c c' : Canvas} (hr : c.Rect) (h : rotate rot c = .ok c') : c'.Rect := by
  cases rot
  case R0 => simp only [rotate, ok_ok] at h; subst h; exact hr
  case R90 => exact CanvasOp.rect (gs := ⟨fun _ _ _ _ _ => ⟨true, 0, [], 0, 0⟩⟩) (o := .rotate90) hr h
  case R180 => exact CanvasOp.rect (gs := ⟨fun _ _ _ _ _ => ⟨true, 0, [], 0, 0⟩⟩) (o := .rotate180) hr h
  case R270 => exact CanvasOp.rect (gs := ⟨fun _ _ _ _ _ => ⟨true, 0, [], 0, 0⟩⟩) (o := .rotate270) hr h

theorem Ready.draw {s : ImageRenderer} (h : Ready s) {p : Canvas} (k : s.paper.Kept p) : Ready { s with paper := p } :=
  ⟨k.rect h.paper, h.page, by rw [show ({ s with paper := p } : ImageRenderer).paper.width = p.width from rfl, k.width]; exact h.width,
    k.paper.trans h.white⟩

theorem Ready.drawPage {s : ImageRenderer} (h : Ready s) {p : Canvas} (hp : p.Rect) : Ready { s with page := p } :=
  ⟨h.paper, hp, h.width, h.white⟩

theorem onCanvas_ready {s s' : ImageRenderer} {c : Context} {f : Canvas → Rs Canvas} (hs : Ready s)
    (hf : ∀ a b, f a = .ok b → a.Kept b) (h : s.onCanvas c f = .ok s') : Ready s' := by
  unfold onCanvas at h
  split at h <;> (simp only [bind_ok, pure_ok] at h; obtain ⟨p, hp, rfl⟩ := h)
  · exact hs.drawPage ((hf _ _ hp).rect hs.page)
  · exact hs.draw (hf _ _ hp)

theorem putRects_kept {color : RGBA} {rs : List Rectangle} {a b : Canvas} (h : putRects color rs a = .ok b) : a.Kept b := by
  induction rs generalizing a with
  | nil => simp only [putRects, ok_ok] at h; subst h; exact .rfl' _
  | cons r rs ih =>
    simp only [putRects, bind_ok] at h
    obtain ⟨c, h1, h2⟩ := h
    exact (Canvas.drawRect_kept h1).trans (ih h2)

theorem renderSpans_kept {gs : Canvas.Glyphs} {xo mh : Nat} {ss : List TextSpan} {a b : Canvas} (h : renderSpans gs xo mh ss a = .ok b) :
    a.Kept b := by
  induction ss generalizing a with
  | nil => simp only [renderSpans, ok_ok] at h; subst h; exact .rfl' _
  | cons r rs ih =>
    simp only [renderSpans, bind_ok] at h
    obtain ⟨c, h1, h2⟩ := h
    exact (Canvas.renderSpan_kept h1).trans (ih h2)

theorem rgb_get (l : List RGBA) (k : Nat) (p : RGBA) (h : l[k]? = some p) :
    (l.flatMap fun p => [p.r, p.g, p.b])[3 * k]? = some p.r ∧ (l.flatMap fun p => [p.r, p.g, p.b])[3 * k + 1]? = some p.g ∧
      (l.flatMap fun p => [p.r, p.g, p.b])[3 * k + 2]? = some p.b := by
  induction l generalizing k with
  | nil => simp at h
  | cons q t ih =>
    cases k with
    | zero => simp at h; subst h; simp
    | succ k =>
      have := ih k (by simpa using h)
      rw [List.flatMap_cons]
      simpa [Nat.mul_add, Nat.add_assoc] using this

theorem rgb_length (l : List RGBA) : (l.flatMap fun p => [p.r, p.g, p.b]).length = 3 * l.length := by
  induction l with
  | nil => rfl
  | cons p t ih => rw [List.flatMap_cons, List.length_append, ih, show (p :: t).length = t.length + 1 from rfl]; show 3 + _ = _; omega

theorem endRender_sound {s s' : ImageRenderer} {c : Context} {o : ReceiptImage} (hs : Ready s) (hc : OnPaper c)
    (h : s.endRender c = .ok (s', o)) : Ready s' ∧ Sound o ∧ c.graphics.renderArea.y ≤ o.height := by
  simp only [endRender, bind_ok, pure_ok, hc.paper] at h
  obtain ⟨p1, h1, p2, h2, ⟨p3, w, hh, bytes⟩, h3, h4⟩ := h
  have hw : s.paper.width ≤ 649 := by rcases hs.width with h | h <;> omega
  obtain ⟨px, e1, s1⟩ := Canvas.expandToWidth_shows (n := 649) hs.paper hw
  rw [e1, ok_ok] at h1
  have hp1w : p1.width = 649 := by rw [← h1]
  have hp1c : p1.paperColor = defaultColors.paperColor := by rw [← h1]; exact hs.white
  have s1' : Shows p1.bytes p1.width s.paper.getHeight (Canvas.centred s.paper.dot ((649 - s.paper.width) / 2) s.paper.width s.paper.paperColor) := by
    rw [hp1w, ← h1]; exact s1
  have hp1r : p1.Rect := ⟨_, s1'.1⟩
  obtain ⟨f1, f2, f3⟩ := Canvas.expandToHeight_shows s1' h2
  have f2 := f2 (by omega)
  have hp2w : p2.width = 649 := by rw [f1]; exact hp1w
  have hp2h : p2.getHeight = max s.paper.getHeight c.graphics.renderArea.y :=
    Canvas.getHeight_of (by omega) (by rw [hp2w, ← hp1w]; exact f2.1)
  simp only [Canvas.consumeRgb, bind_ok, pure_ok, Prod.mk.injEq] at h3
  obtain ⟨_, _, rfl, rfl, rfl, rfl⟩ := h3
  simp only [Prod.mk.injEq] at h4
  obtain ⟨rfl, rfl⟩ := h4
  refine ⟨⟨⟨0, rfl⟩, hs.page, .inr rfl, ?_⟩, ⟨hp2w, ?_, ?_⟩, ?_⟩
  · show p2.paperColor = _
    rw [f1]; exact hp1c
  · show (p2.bytes.flatMap _).length = _
    rw [rgb_length, f3.length]
  · intro x y k hx hxw hy hk
    dsimp only at hy ⊢
    rw [hp2h] at hy
    have hdot := f2.2 x y (by omega) hy
    rw [hp1w] at hdot
    have hwhite : onPaper (Canvas.centred s.paper.dot ((649 - s.paper.width) / 2) s.paper.width s.paper.paperColor) s.paper.getHeight p1.paperColor x y
        = defaultColors.paperColor := by
      unfold onPaper
      split
      · rename_i hyh
        unfold Canvas.centred
        rw [if_neg, hs.white]
        rcases hs.width with hw | hw
        · rw [hw]; omega
        · rw [hw]; omega
      · exact hp1c
    rw [hwhite] at hdot
    obtain ⟨g1, g2, g3⟩ := rgb_get p2.bytes (y * 649 + x) _ hdot
    have : k = 0 ∨ k = 1 ∨ k = 2 := by omega
    rcases this with rfl | rfl | rfl
    · exact g1
    · exact g2
    · exact g3
  · show _ ≤ p2.getHeight
    rw [hp2h]; omega

theorem perform_ready {gs : Canvas.Glyphs} {x : Context × Call} {s s' : ImageRenderer × List ReceiptImage} (hs : Ready s.1)
    (hx : OnPaper x.1) (h : Call.perform (imageRenderer gs) x s = .ok s') :
    Ready s'.1 ∧ ∃ os, s'.2 = s.2 ++ os ∧ ∀ o ∈ os, Sound o := by
  obtain ⟨c, x⟩ := x
  obtain ⟨s, outs⟩ := s
  have step : ∀ {m : Rs ImageRenderer}, (do .ok (← m, outs) : Rs (ImageRenderer × List ReceiptImage)) = .ok s' →
      (∀ t, m = .ok t → Ready t) → Ready s'.1 ∧ ∃ os, s'.2 = outs ++ os ∧ ∀ o ∈ os, Sound o := by
    intro m hm hk
    simp only [bind_ok, ok_ok] at hm
    obtain ⟨t, ht, rfl⟩ := hm
    exact ⟨hk t ht, [], by simp, by simp⟩
  dsimp only at hs hx
  cases x <;> simp only [Call.perform] at h
  case beginRender =>
    refine step h fun t ht => ?_
    simp only [imageRenderer, ok_ok] at ht; subst ht
    exact ⟨⟨0, rfl⟩, ⟨0, rfl⟩, .inl hx.area, by rw [← hx.colors]; rfl⟩
  case pageBegin =>
    refine step h fun t ht => ?_
    simp only [imageRenderer, ok_ok] at ht; subst ht
    exact hs.drawPage ⟨0, rfl⟩
  case pageAreaChanged rot w hh =>
    refine step h fun t ht => ?_
    simp only [imageRenderer, ImageRenderer.pageAreaChanged, bind_ok, pure_ok] at ht
    obtain ⟨p1, h1, p2, h2, p3, h3, rfl⟩ := ht
    refine hs.drawPage ?_
    have r1 := rotate_rect hs.page h1
    have r2 : p2.Rect := by
      unfold growWidth at h2
      split at h2
      · exact CanvasOp.rect (gs := gs) (o := .expandToWidth w) r1 h2
      · rw [ok_ok] at h2; subst h2; exact r1
    unfold growHeight at h3
    split at h3
    · exact (Canvas.expandToHeight_kept h3).rect r2
    · rw [ok_ok] at h3; subst h3; exact r2
  case pageEnd =>
    refine step h fun t ht => ?_
    simp only [imageRenderer, ok_ok] at ht; subst ht; exact hs
  case renderPage =>
    refine step h fun t ht => ?_
    simp only [imageRenderer, ImageRenderer.renderPage, bind_ok, pure_ok] at ht
    obtain ⟨p1, h1, px, h2, p2, h3, ⟨p3, b⟩, h4, rfl⟩ := ht
    exact (hs.draw (Canvas.putPixels_kept h4)).drawPage (rotate_rect (rotate_rect hs.page h1) h3)
  case graphics rs =>
    refine step h fun t ht => ?_
    exact onCanvas_ready hs (fun a b hab => putRects_kept hab) ht
  case image i =>
    refine step h fun t ht => ?_
    exact onCanvas_ready hs (fun a b hab => Canvas.putRenderImg_kept hab) ht
  case text l xo mh j =>
    refine step h fun t ht => ?_
    exact onCanvas_ready hs (fun a b hab => renderSpans_kept hab) ht
  case device d =>
    refine step h fun t ht => ?_
    simp only [imageRenderer, ok_ok] at ht; subst ht; exact hs
  case endRender =>
    simp only [bind_ok, ok_ok] at h
    obtain ⟨⟨s1, o⟩, h1, rfl⟩ := h
    obtain ⟨a, b, _⟩ := endRender_sound hs hx h1
    exact ⟨a, [o], rfl, by simpa using b⟩

theorem replay_ready {gs : Canvas.Glyphs} {xs : List (Context × Call)} {s s' : ImageRenderer × List ReceiptImage} (hs : Ready s.1)
    (hx : ∀ x ∈ xs, OnPaper x.1) (h : replay (imageRenderer gs) xs s = .ok s') :
    Ready s'.1 ∧ ∃ os, s'.2 = s.2 ++ os ∧ ∀ o ∈ os, Sound o := by
  induction xs generalizing s with
  | nil => simp only [replay, ok_ok] at h; subst h; exact ⟨hs, [], by simp, by simp⟩
  | cons x xs ih =>
    simp only [replay, bind_ok] at h
    obtain ⟨s1, h1, h2⟩ := h
    obtain ⟨a, os, e, ho⟩ := perform_ready hs (hx x (by simp)) h1
    obtain ⟨a', os', e', ho'⟩ := ih a (fun y hy => hx y (by simp [hy])) h2
    refine ⟨a', os ++ os', by rw [e', e, List.append_assoc], fun o hm => ?_⟩
    rcases List.mem_append.1 hm with hm | hm
    · exact ho o hm
    · exact ho' o hm

end ImageRenderer

open ImageRenderer

/-- The state of a renderer between two jobs. -/
structure Renderer.BetweenJobs (r : Renderer ImageRenderer ReceiptImage) : Prop where
  child : Ready r.child
  context : OnPaper r.context
  outputs : r.outputBuffer = []

theorem image_job {gs : Canvas.Glyphs} {ext : Ext} {r r' : Renderer ImageRenderer ReceiptImage} {bytes : List Byte} {outs errs}
    (hr : r.BetweenJobs) (h : render (imageRenderer gs) ext r bytes = .ok (outs, errs, r')) :
    r'.BetweenJobs ∧ ∀ o ∈ outs, Sound o := by
  simp only [render, bind_ok, pure_ok] at h
  obtain ⟨cmds, h1, r1, h2, h3⟩ := h
  obtain ⟨t, h4, h5⟩ := processCommands_rec (Rec.start (R := imageRenderer gs) (r := r)) h2
  simp only [Prod.mk.injEq] at h3
  obtain ⟨rfl, rfl, rfl⟩ := h3
  have ha := processCommands_always (J := OnPaper) OnPaper.pen OnPaper.device OnPaper.apply
    (r := ⟨[], [], r.errorBuffer, r.spanBuffer, r.context⟩) ⟨hr.context, by simp⟩ h4
  obtain ⟨a, os, e, ho⟩ := replay_ready (s := (r.child, r.outputBuffer)) hr.child ha.2 h5.calls
  rw [hr.outputs, List.nil_append] at e
  dsimp only at e
  refine ⟨⟨a, by rw [← h5.context]; exact ha.1, rfl⟩, by rw [e]; exact ho⟩

/-- Print jobs one after the other with the same renderer; all images. -/
def Renderer.jobs (gs : Canvas.Glyphs) (ext : Ext) : List (List Byte) → Renderer ImageRenderer ReceiptImage → Rs (List ReceiptImage)
  | [], _ => .ok []
  | b :: bs, r => do
    let (outs, _, r) ← render (imageRenderer gs) ext r b
    let more ← jobs gs ext bs r
    pure (outs ++ more)

theorem jobs_sound {gs : Canvas.Glyphs} {ext : Ext} {bs : List (List Byte)} {r : Renderer ImageRenderer ReceiptImage} {os}
    (hr : r.BetweenJobs) (h : Renderer.jobs gs ext bs r = .ok os) : ∀ o ∈ os, Sound o := by
  induction bs generalizing r os with
  | nil => simp only [Renderer.jobs, ok_ok] at h; subst h; simp
  | cons b bs ih =>
    simp only [Renderer.jobs, bind_ok, pure_ok] at h
    obtain ⟨⟨outs, errs, r'⟩, h1, more, h2, rfl⟩ := h
    obtain ⟨a, b⟩ := image_job hr h1
    intro o hm
    rcases List.mem_append.1 hm with hm | hm
    · exact b o hm
    · exact ih a h2 o hm

/-- C55. Whatever sequence of jobs a renderer prints, every image it returns is as wide as the paper and has three bytes for
each of its dots. -/
theorem C55_image_size (gs : Canvas.Glyphs) (ext : Ext) (d : Debug) (jobs : List (List Byte)) (images : List ReceiptImage)
    (h : Renderer.jobs gs ext jobs (Renderer.new (ImageRenderer.new d)) = .ok images) :
    ∀ o ∈ images, o.width = Context.new.graphics.paperArea.w ∧ o.bytes.length = 3 * (o.width * o.height) := by
  intro o ho
  have := jobs_sound (r := Renderer.new (ImageRenderer.new d)) ⟨ready_new d, OnPaper.start, rfl⟩ h o ho
  exact ⟨this.width, this.size⟩

/-- C73. Nothing is printed in the margins: the 20 leftmost and the 20 rightmost columns of every image are white. -/
theorem C73_margins (gs : Canvas.Glyphs) (ext : Ext) (d : Debug) (jobs : List (List Byte)) (images : List ReceiptImage)
    (h : Renderer.jobs gs ext jobs (Renderer.new (ImageRenderer.new d)) = .ok images) (o : ReceiptImage) (ho : o ∈ images)
    (x y channel : Nat) (hx : x < 20 ∨ o.width - 20 ≤ x) (hxw : x < o.width) (hy : y < o.height) (hk : channel < 3) :
    o.bytes[3 * (y * o.width + x) + channel]? = some 255 := by
  have hs := jobs_sound (r := Renderer.new (ImageRenderer.new d)) ⟨ready_new d, OnPaper.start, rfl⟩ h o ho
  rw [hs.width] at hx hxw ⊢
  exact hs.margin x y channel (by omega) hxw hy hk

/-- C55: the image reaches down to the pen at least, so trailing feeds show as blank paper. -/
theorem C55_reaches_pen (s s' : ImageRenderer) (c : Context) (o : ReceiptImage) (hs : Ready s) (hc : OnPaper c)
    (h : s.endRender c = .ok (s', o)) : c.graphics.renderArea.y ≤ o.height := (endRender_sound hs hc h).2.2

theorem endRender_blank (s : ImageRenderer) (c : Context) (hc : OnPaper c) (h1 : s.paper.bytes = []) (h2 : s.paper.width = 609)
    (hy : c.graphics.renderArea.y < 1000) :
    ∃ s' o, s.endRender c = .ok (s', o) ∧ o.height = c.graphics.renderArea.y := by
  obtain ⟨⟨bytes, width, ag, d, pc, es⟩, page, d'⟩ := s
  dsimp only at h1 h2
  subst h1 h2
  have e1 : (⟨[], 609, ag, d, pc, es⟩ : Canvas).expandToWidth c.graphics.paperArea.w = .ok ⟨[], 649, ag, d, pc, es⟩ := by
    rw [hc.paper]
    simp [Canvas.expandToWidth, Canvas.getHeight, subU, forRange, bind, Except.bind, pure, Except.pure]
  have e2 : (⟨[], 649, ag, d, pc, es⟩ : Canvas).expandToHeight c.graphics.renderArea.y = .ok
      ⟨List.replicate (649 * c.graphics.renderArea.y) pc, 649, ag, d, pc, es⟩ := by
    have hm : mulU32 649 c.graphics.renderArea.y = .ok (649 * c.graphics.renderArea.y) :=
      mulU32_ok.2 ⟨by have : U32 = 4294967296 := rfl; omega, rfl⟩
    unfold Canvas.expandToHeight
    dsimp only
    rw [hm]
    show Except.ok _ = _
    split
    · rename_i hz
      have hz : 649 * c.graphics.renderArea.y = 0 := by simpa using hz
      rw [hz]; rfl
    · rfl
  have e3 := Canvas.getHeight_of (c := ⟨List.replicate (649 * c.graphics.renderArea.y) pc, 649, ag, d, pc, es⟩)
    (h := c.graphics.renderArea.y) (show 0 < 649 by decide) (by simp)
  unfold endRender
  simp only [e1, e2, bind, Except.bind, Canvas.consumeRgb, e3,
    mulU32_ok.2 ⟨(show 649 * c.graphics.renderArea.y < U32 by have : U32 = 4294967296 := rfl; omega), rfl⟩]
  exact ⟨_, _, rfl, rfl⟩

/-- The empty job: a blank image of 649 × 108 dots, which is what C55 and C73 say about it. -/
example (gs : Canvas.Glyphs) : ∃ images, Renderer.jobs gs noExt [[]] (Renderer.new (ImageRenderer.new {})) = .ok images ∧
    images.map (·.height) = [108] := by
  have hp : parseEscPos [] = .ok [beginPrintCmd, endPrintCmd] := rfl
  obtain ⟨r, h1, h2, h3, h4, h5, h6⟩ : ∃ r : Renderer ImageRenderer ReceiptImage,
      processCommand (imageRenderer gs) noExt (Renderer.new (ImageRenderer.new {})) beginPrintCmd = .ok r ∧
      r.context.graphics.renderArea.y = 108 ∧ r.child.paper.bytes = [] ∧ r.child.paper.width = 609 ∧
      (r.spanBuffer = [] ∧ r.outputBuffer = []) ∧ OnPaper r.context := by
    refine ⟨_, rfl, rfl, rfl, rfl, ⟨rfl, rfl⟩, ⟨rfl, rfl, rfl, rfl, rfl, rfl⟩⟩
  obtain ⟨s', o, e, eh⟩ := endRender_blank r.child r.context h6 h3 h4 (by omega)
  have e2 : processCommand (imageRenderer gs) noExt r endPrintCmd = .ok { r with
      child := s'
      errorBuffer := r.errorBuffer ++ (r.child.paper.errors ++ r.child.page.errors).map (⟨.childRenderError, ·⟩)
      outputBuffer := r.outputBuffer ++ [o] } := by
    obtain ⟨a, b, c, d, f⟩ := r
    obtain ⟨h5, h5'⟩ := h5
    dsimp only at h5; subst h5
    have e' : (imageRenderer gs).endRender f a = .ok (s', o) := e
    unfold processCommand
    simp only [endPrintCmd]
    show ((do
      let (s, out) ← (imageRenderer gs).endRender f a
      pure _) : Rs _) >>= _ = _
    rw [e']
    rfl
  refine ⟨[o], ?_, by simp [eh, h2]⟩
  simp only [Renderer.jobs, render, hp, processCommands, bind, Except.bind, h1, e2, h5.2, pure, Except.pure, List.nil_append, List.append_nil]

end Thermal
