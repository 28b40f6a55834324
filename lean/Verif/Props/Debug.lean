import Verif.Proofs.Debug
import Verif.Proofs.Outline
import Verif.Props.Web
import Verif.Props.ImageTotal
/-
C89: rendering with a debug profile (outlines around characters, images and pages).
-/
namespace Thermal
open Spec Renderer Html

/-! ### Images -/

/-- The image renderer with the debug profile `D` (right) and without (left). -/
structure ImageRenderer.Both (D : Debug) (r s : ImageRenderer) : Prop where
  calm : r.debug = {}
  debug : s.debug = D
  paper : Canvas.Under D r.paper s.paper
  page : Canvas.Under D r.page s.page
  locked : r.page.autoGrow = false

/-- An image with a debug profile is as wide as without, and not lower; it is as high if text is not outlined. -/
def SizeUnder (D : Debug) (a b : ReceiptImage) : Prop := b.width = a.width ∧ a.height ≤ b.height ∧ (D.text = false → b.height = a.height)

namespace ImageRenderer

theorem Both.begin {D : Debug} {r s : ImageRenderer} (hr : r.debug = {}) (hs : s.debug = D) (hg : s.paper.autoGrow = r.paper.autoGrow) (c : Context) :
    Both D (r.beginRender c) (s.beginRender c) := by
  refine ⟨hr, hs, ?_, ?_, rfl⟩
  · exact ⟨rfl, hg, rfl, hr, hs, Nat.le_refl _, fun _ => rfl⟩
  · exact ⟨rfl, rfl, rfl, hr, hs, Nat.le_refl _, fun _ => rfl⟩

theorem debugPage_length {r : ImageRenderer} {px px' : List RGBA} {w h : Nat} (e : r.debugPage px w h = .ok px') : px'.length = px.length := by
  unfold debugPage at e
  split at e
  · exact Canvas.drawBorder_length e
  · rw [ok_ok] at e; rw [e]

theorem Both.canvas {D : Debug} {r s r' s' : ImageRenderer} (h : Both D r s) {c : Context} {f g : Canvas → Rs Canvas}
    (hf : ∀ {p q p' q'}, Canvas.Under D p q → f p = .ok p' → g q = .ok q' → Canvas.Under D p' q' ∧ p'.autoGrow = p.autoGrow)
    (hr : r.onCanvas c f = .ok r') (hs : s.onCanvas c g = .ok s') : Both D r' s' := by
  unfold onCanvas at hr hs
  split at hr <;> rename_i hp
  · rw [if_pos hp] at hs
    simp only [bind_ok, pure_ok] at hr hs
    obtain ⟨p, e1, rfl⟩ := hr
    obtain ⟨q, e2, rfl⟩ := hs
    obtain ⟨u, v⟩ := hf h.page e1 e2
    exact ⟨h.calm, h.debug, h.paper, u, v.trans h.locked⟩
  · rw [if_neg hp] at hs
    simp only [bind_ok, pure_ok] at hr hs
    obtain ⟨p, e1, rfl⟩ := hr
    obtain ⟨q, e2, rfl⟩ := hs
    exact ⟨h.calm, h.debug, (hf h.paper e1 e2).1, h.page, h.locked⟩

theorem putRects_grow {col : RGBA} {l : List Rectangle} {c c' : Canvas} (h : putRects col l c = .ok c') : c'.autoGrow = c.autoGrow := by
  induction l generalizing c with
  | nil => simp only [putRects, ok_ok] at h; subst h; rfl
  | cons g gs ih =>
    simp only [putRects, bind_ok] at h
    obtain ⟨c1, h1, h⟩ := h
    exact (ih h).trans (Canvas.drawRect_kept h1).autoGrow

theorem renderSpans_grow {gs : Canvas.Glyphs} {xo mh : Nat} {l : List TextSpan} {c c' : Canvas} (h : renderSpans gs xo mh l c = .ok c') :
    c'.autoGrow = c.autoGrow := by
  induction l generalizing c with
  | nil => simp only [renderSpans, ok_ok] at h; subst h; rfl
  | cons g gs ih =>
    simp only [renderSpans, bind_ok] at h
    obtain ⟨c1, h1, h⟩ := h
    exact (ih h).trans (Canvas.renderSpan_kept h1).autoGrow

theorem Both.ended {D : Debug} {r s r' s' : ImageRenderer} {a b : ReceiptImage} (h : Both D r s) {c : Context}
    (hr : r.endRender c = .ok (r', a)) (hs : s.endRender c = .ok (s', b)) : Both D r' s' ∧ SizeUnder D a b := by
  simp only [endRender, bind_ok, pure_ok] at hr hs
  obtain ⟨p1, e1, p2, e2, ⟨p3, w, hh, by_⟩, e3, e⟩ := hr
  obtain ⟨q1, g1, q2, g2, ⟨q3, w', hh', by'⟩, g3, g⟩ := hs
  have u := (h.paper.expandWidth e1 g1).expandHeight e2 g2
  simp only [Canvas.consumeRgb, bind_ok, pure_ok, Prod.mk.injEq] at e3 g3
  obtain ⟨_, _, rfl, rfl, rfl, rfl⟩ := e3
  obtain ⟨_, _, rfl, rfl, rfl, rfl⟩ := g3
  simp only [Prod.mk.injEq] at e g
  obtain ⟨rfl, rfl⟩ := e
  obtain ⟨rfl, rfl⟩ := g
  refine ⟨⟨h.calm, h.debug, ⟨rfl, u.grow, u.color, u.calm, u.debug, Nat.le_refl _, fun _ => rfl⟩, h.page, h.locked⟩, u.width, ?_, fun ht => u.height (.inl ht)⟩
  show p2.getHeight ≤ q2.getHeight
  unfold Canvas.getHeight
  rw [u.width]
  split
  · exact Nat.le_refl _
  · exact Nat.div_le_div_right u.le

theorem Both.perform {D : Debug} {gs : Canvas.Glyphs} {x : Context × Call} {r s r' s' : ImageRenderer × List ReceiptImage}
    (h : Both D r.1 s.1) (ho : List.Forall₂ (SizeUnder D) r.2 s.2)
    (hr : Call.perform (imageRenderer gs) x r = .ok r') (hs : Call.perform (imageRenderer gs) x s = .ok s') :
    Both D r'.1 s'.1 ∧ List.Forall₂ (SizeUnder D) r'.2 s'.2 := by
  obtain ⟨c, x⟩ := x
  obtain ⟨r, outs⟩ := r
  obtain ⟨s, outs'⟩ := s
  dsimp only at *
  cases x <;> simp only [Call.perform, imageRenderer, bind_ok, ok_ok] at hr hs <;> obtain ⟨u, e, rfl⟩ := hr <;> obtain ⟨v, g, rfl⟩ := hs
  case beginRender =>
    subst e g
    exact ⟨.begin h.calm h.debug h.paper.grow c, ho⟩
  case pageBegin =>
    subst e g
    exact ⟨⟨h.calm, h.debug, h.paper, ⟨rfl, h.page.grow, h.page.color, h.page.calm, h.page.debug, Nat.le_refl _, fun _ => rfl⟩, h.locked⟩, ho⟩
  case pageEnd => subst e g; exact ⟨h, ho⟩
  case device => subst e g; exact ⟨h, ho⟩
  case pageAreaChanged rot w hh =>
    simp only [pageAreaChanged, bind_ok, pure_ok] at e g
    obtain ⟨p1, a1, p2, a2, p3, a3, rfl⟩ := e
    obtain ⟨q1, b1, q2, b2, q3, b3, rfl⟩ := g
    have l1 := (Canvas.rotate_rows a1).2.1.trans h.locked
    have u1 := h.page.rotated h.locked a1 b1
    have l2 : p2.autoGrow = false := by
      unfold growWidth at a2
      split at a2
      · exact (Canvas.expandToWidth_rows a2).2.1.trans l1
      · rw [ok_ok] at a2; subst a2; exact l1
    have u2 := u1.grownWidth a2 b2
    have l3 : p3.autoGrow = false := by
      unfold growHeight at a3
      split at a3
      · exact (Canvas.expandToHeight_kept a3).autoGrow.trans l2
      · rw [ok_ok] at a3; subst a3; exact l2
    exact ⟨⟨h.calm, h.debug, h.paper, u2.grownHeight l2 a3 b3, l3⟩, ho⟩
  case renderPage =>
    simp only [renderPage, bind_ok, pure_ok] at e g
    obtain ⟨p1, a1, px, a2, p2, a3, ⟨p3, _⟩, a4, rfl⟩ := e
    obtain ⟨q1, b1, qx, b2, q2, b3, ⟨q3, _⟩, b4, rfl⟩ := g
    have l1 := (Canvas.rotate_rows a1).2.1.trans h.locked
    have u1 := h.page.rotated h.locked a1 b1
    have l2 := (Canvas.rotate_rows a3).2.1.trans l1
    have u2 := u1.rotated l1 a3 b3
    simp only [Canvas.copy] at a2 a4 b2 b4
    rw [u1.width, u1.height (.inr l1)] at b4
    refine ⟨⟨h.calm, h.debug, h.paper.put ?_ a4 b4, u2, l2⟩, ho⟩
    rw [debugPage_length a2, debugPage_length b2, u1.eq (.inr l1)]
  case graphics l => exact ⟨h.canvas (fun u a b => ⟨u.rects a b, putRects_grow a⟩) e g, ho⟩
  case image i => exact ⟨h.canvas (fun u a b => ⟨u.image a b, (Canvas.putRenderImg_kept a).autoGrow⟩) e g, ho⟩
  case text l o m j => exact ⟨h.canvas (fun u a b => ⟨u.spans a b, renderSpans_grow a⟩) e g, ho⟩
  case endRender =>
    obtain ⟨u, a⟩ := u
    obtain ⟨v, b⟩ := v
    obtain ⟨h1, h2⟩ := h.ended e g
    exact ⟨h1, List.rel_append ho (.cons h2 .nil)⟩

theorem Both.replay {D : Debug} {gs : Canvas.Glyphs} {xs : List (Context × Call)} {r s r' s' : ImageRenderer × List ReceiptImage}
    (h : Both D r.1 s.1) (ho : List.Forall₂ (SizeUnder D) r.2 s.2)
    (hr : Thermal.replay (imageRenderer gs) xs r = .ok r') (hs : Thermal.replay (imageRenderer gs) xs s = .ok s') :
    List.Forall₂ (SizeUnder D) r'.2 s'.2 := by
  induction xs generalizing r s with
  | nil => simp only [Thermal.replay, ok_ok] at hr hs; subst hr hs; exact ho
  | cons x xs ih =>
    simp only [Thermal.replay, bind_ok] at hr hs
    obtain ⟨r1, a, hr⟩ := hr
    obtain ⟨s1, b, hs⟩ := hs
    obtain ⟨h1, h2⟩ := h.perform ho a b
    exact ih h1 h2 hr hs

end ImageRenderer

/-- C89, images. With any debug profile the same stream gives as many images, of the same widths; they are not lower, and if characters are not
outlined they are of the same heights. -/
theorem C89_images_partial (gs : Canvas.Glyphs) (ext : Ext) (D : Debug) (bytes : List Byte) (plain marked : List ReceiptImage) (errs errs' r r')
    (h : render (imageRenderer gs) ext (Renderer.new (ImageRenderer.new {})) bytes = .ok (plain, errs, r))
    (h' : render (imageRenderer gs) ext (Renderer.new (ImageRenderer.new D)) bytes = .ok (marked, errs', r')) :
    List.Forall₂ (fun a b => b.width = a.width ∧ a.height ≤ b.height ∧ (D.text = false → b.height = a.height)) plain marked := by
  obtain ⟨u, e, t, a1, a2, _⟩ := C68_same_calls _ ext _ _ _ _ _ h
  obtain ⟨u', e', t', b1, b2, _⟩ := C68_same_calls _ ext _ _ _ _ _ h'
  rw [a1, ok_ok] at b1
  simp only [Prod.mk.injEq] at b1
  obtain ⟨_, _, rfl⟩ := b1
  obtain ⟨c1, calls, ec⟩ := first_calls a1
  rw [ec] at a2 b2
  simp only [replay, bind_ok, Call.perform, imageRenderer, ok_ok] at a2 b2
  obtain ⟨s1, ⟨_, rfl, rfl⟩, s2, ⟨_, rfl, rfl⟩, a2⟩ := a2
  obtain ⟨s1, ⟨_, rfl, rfl⟩, s2, ⟨_, rfl, rfl⟩, b2⟩ := b2
  exact ImageRenderer.Both.replay (gs := gs) (r := (ImageRenderer.beginRender c1 (ImageRenderer.new {}), []))
    (s := (ImageRenderer.beginRender c1 (ImageRenderer.new D), []))
    (ImageRenderer.Both.begin (r := ImageRenderer.new {}) (s := ImageRenderer.new D) rfl rfl rfl c1) .nil a2 b2

/-! ### Web pages -/

/-- The HTML renderer with the debug profile `D` (right) and without (left). -/
structure HtmlRenderer.Both (D : Debug) (r s : HtmlRenderer) : Prop where
  calm : r.debug = {}
  debug : s.debug = D
  lastY : s.lastY = r.lastY
  content : s.content = r.content
  page : Canvas.Under D r.page s.page
  locked : r.page.autoGrow = false

namespace HtmlRenderer

theorem Both.push {D : Debug} {r s r' s' : HtmlRenderer} (h : Both D r s) {row : Row} (hr : r.pushRow row = .ok r') (hs : s.pushRow row = .ok s') :
    Both D r' s' := by
  simp only [pushRow, bind_ok, pure_ok] at hr hs
  obtain ⟨y, e1, rfl⟩ := hr
  obtain ⟨z, e2, rfl⟩ := hs
  rw [e1, ok_ok] at e2
  exact ⟨h.calm, h.debug, e2.symm, by simp only [h.content, h.lastY], h.page, h.locked⟩

theorem Both.begin {D : Debug} {r s r' s' : HtmlRenderer} (hr : r.debug = {}) (hs : s.debug = D) {c : Context}
    (e : r.beginRender c = .ok r') (g : s.beginRender c = .ok s') : Both D r' s' :=
  Both.push (D := D) (r := { r with
      page := { ({ r.page with
        debug := r.debug
        paperColor := c.graphics.renderColors.paperColor } : Canvas).setWidth 0 with autoGrow := false }
      lastY := c.getY
      content := [] }) (s := { s with
      page := { ({ s.page with
        debug := s.debug
        paperColor := c.graphics.renderColors.paperColor } : Canvas).setWidth 0 with autoGrow := false }
      lastY := c.getY
      content := [] }) ⟨hr, hs, rfl, rfl, ⟨rfl, rfl, rfl, hr, hs, Nat.le_refl _, fun _ => rfl⟩, rfl⟩ e g

theorem encodeImage_blind {png : Png} {p q : List RGBA} {x y w h : Nat} {f : ImageFlow} {u : Bool} {a b : Row} (hl : q.length = p.length)
    (hb : ∀ w h b b', png w h b = png w h b') (e : encodeImage png ⟨p, x, y, w, h, f, u⟩ = .ok a) (g : encodeImage png ⟨q, x, y, w, h, f, u⟩ = .ok b) : b = a := by
  unfold encodeImage at e g
  split at e
  · cases e
  split at e
  · cases e
  split at g
  · cases g
  split at g
  · cases g
  rw [ok_ok] at e g
  rw [← e, ← g]
  dsimp only
  rw [hb w h (rgbaBytes q) (rgbaBytes p)]

theorem Both.perform {D : Debug} {gs : Canvas.Glyphs} {png : Png} {x : Context × Call} (hx : (∀ w h b b', png w h b = png w h b') ∨ x.2 ≠ .renderPage)
    {r s r' s' : HtmlRenderer × List Str} (h : Both D r.1 s.1) (ho : s.2 = r.2)
    (hr : Call.perform (htmlRenderer gs png) x r = .ok r') (hs : Call.perform (htmlRenderer gs png) x s = .ok s') : Both D r'.1 s'.1 ∧ s'.2 = r'.2 := by
  obtain ⟨c, x⟩ := x
  obtain ⟨r, outs⟩ := r
  obtain ⟨s, outs'⟩ := s
  dsimp only at *
  subst ho
  cases x <;> simp only [Call.perform, htmlRenderer, bind_ok, ok_ok] at hr hs <;> obtain ⟨u, e, rfl⟩ := hr <;> obtain ⟨v, g, rfl⟩ := hs
  case beginRender => exact ⟨.begin h.calm h.debug e g, rfl⟩
  case pageBegin =>
    subst e g
    exact ⟨⟨h.calm, h.debug, h.lastY, h.content, ⟨rfl, h.page.grow, h.page.color, h.page.calm, h.page.debug, Nat.le_refl _, fun _ => rfl⟩, h.locked⟩, rfl⟩
  case pageEnd => subst e g; exact ⟨h, rfl⟩
  case device => subst e g; exact ⟨h, rfl⟩
  case pageAreaChanged rot w hh =>
    simp only [pageAreaChanged, bind_ok, pure_ok] at e g
    obtain ⟨p1, a1, p2, a2, p3, a3, rfl⟩ := e
    obtain ⟨q1, b1, q2, b2, q3, b3, rfl⟩ := g
    have l1 := (Canvas.rotate_rows a1).2.1.trans h.locked
    have u1 := h.page.rotated h.locked a1 b1
    have l2 : p2.autoGrow = false := by
      unfold ImageRenderer.growWidth at a2
      split at a2
      · exact (Canvas.expandToWidth_rows a2).2.1.trans l1
      · rw [ok_ok] at a2; subst a2; exact l1
    have u2 := u1.grownWidth a2 b2
    have l3 : p3.autoGrow = false := by
      unfold ImageRenderer.growHeight at a3
      split at a3
      · exact (Canvas.expandToHeight_kept a3).autoGrow.trans l2
      · rw [ok_ok] at a3; subst a3; exact l2
    exact ⟨⟨h.calm, h.debug, h.lastY, h.content, u2.grownHeight l2 a3 b3, l3⟩, rfl⟩
  case renderPage =>
    have hb := hx.resolve_right (fun n => n rfl)
    simp only [renderPage, bind_ok] at e g
    obtain ⟨p1, a1, p2, a2, row, a3, e⟩ := e
    obtain ⟨q1, b1, q2, b2, row', b3, g⟩ := g
    have l1 := (Canvas.rotate_rows a1).2.1.trans h.locked
    have u1 := h.page.rotated h.locked a1 b1
    have l2 := (Canvas.rotate_rows a2).2.1.trans l1
    have u2 := u1.rotated l1 a2 b2
    simp only [Canvas.copy] at a3 b3
    rw [u1.width, u1.height (.inr l1)] at b3
    obtain rfl := encodeImage_blind (u1.eq (.inr l1)).symm hb a3 b3
    exact ⟨Both.push (r := { r with page := p2 }) (s := { s with page := q2 }) ⟨h.calm, h.debug, h.lastY, h.content, u2, l2⟩ e g, rfl⟩
  case graphics l =>
    simp only [renderGraphics] at e g
    split at e <;> rename_i hp
    · rw [if_pos hp] at g
      simp only [bind_ok, pure_ok] at e g
      obtain ⟨p, e1, rfl⟩ := e
      obtain ⟨q, e2, rfl⟩ := g
      exact ⟨⟨h.calm, h.debug, h.lastY, h.content, h.page.rects e1 e2, (ImageRenderer.putRects_grow e1).trans h.locked⟩, rfl⟩
    · rw [if_neg hp] at g
      simp only [bind_ok] at e g
      obtain ⟨a, e1, e⟩ := e
      obtain ⟨b, e2, g⟩ := g
      rw [e1, ok_ok] at e2
      subst e2
      exact ⟨h.push e g, rfl⟩
  case image i =>
    simp only [renderImage] at e g
    split at e <;> rename_i hp
    · rw [if_pos hp] at g
      simp only [bind_ok, pure_ok] at e g
      obtain ⟨p, e1, rfl⟩ := e
      obtain ⟨q, e2, rfl⟩ := g
      exact ⟨⟨h.calm, h.debug, h.lastY, h.content, h.page.image e1 e2, (Canvas.putRenderImg_kept e1).autoGrow.trans h.locked⟩, rfl⟩
    · rw [if_neg hp] at g
      simp only [bind_ok] at e g
      obtain ⟨a, e1, e⟩ := e
      obtain ⟨b, e2, g⟩ := g
      rw [e1, ok_ok] at e2
      subst e2
      exact ⟨h.push e g, rfl⟩
  case text l o m j =>
    simp only [renderText] at e g
    split at e <;> rename_i hp
    · rw [if_pos hp] at g
      simp only [bind_ok, pure_ok] at e g
      obtain ⟨p, e1, rfl⟩ := e
      obtain ⟨q, e2, rfl⟩ := g
      exact ⟨⟨h.calm, h.debug, h.lastY, h.content, h.page.spans e1 e2, (ImageRenderer.renderSpans_grow e1).trans h.locked⟩, rfl⟩
    · rw [if_neg hp] at g
      simp only [bind_ok] at e g
      obtain ⟨a, e1, e⟩ := e
      obtain ⟨b, e2, g⟩ := g
      rw [e1, ok_ok] at e2
      subst e2
      exact ⟨h.push e g, rfl⟩
  case endRender =>
    obtain ⟨u, a⟩ := u
    obtain ⟨v, b⟩ := v
    simp only [Prod.mk.injEq] at e g
    obtain ⟨rfl, rfl⟩ := e
    obtain ⟨rfl, rfl⟩ := g
    refine ⟨h, ?_⟩
    simp only [endRender, h.content, h.lastY]

theorem Both.replay {D : Debug} {gs : Canvas.Glyphs} {png : Png} {xs : List (Context × Call)}
    (hx : (∀ w h b b', png w h b = png w h b') ∨ ∀ x ∈ xs, x.2 ≠ .renderPage)
    {r s r' s' : HtmlRenderer × List Str} (h : Both D r.1 s.1) (ho : s.2 = r.2)
    (hr : Thermal.replay (htmlRenderer gs png) xs r = .ok r') (hs : Thermal.replay (htmlRenderer gs png) xs s = .ok s') : s'.2 = r'.2 := by
  induction xs generalizing r s with
  | nil => simp only [Thermal.replay, ok_ok] at hr hs; subst hr hs; exact ho
  | cons x xs ih =>
    simp only [Thermal.replay, bind_ok] at hr hs
    obtain ⟨r1, a, hr⟩ := hr
    obtain ⟨s1, b, hs⟩ := hs
    obtain ⟨h1, h2⟩ := h.perform (hx.imp id fun f => f x (by simp)) ho a b
    exact ih (hx.imp id fun f y hy => f y (by simp [hy])) h1 h2 hr hs

end HtmlRenderer

/-- C89, web pages. With any debug profile the same stream gives the same documents, but for what the pictures of printed pages show: if the
encoder sees only the size of a picture the documents are equal, and so they are with any encoder if no page is printed. -/
theorem C89_web_partial (gs : Canvas.Glyphs) (png : Png) (ext : Ext) (D : Debug) (bytes : List Byte) (plain marked : List Str) (errs errs' r r')
    (h : render (htmlRenderer gs png) ext (Renderer.new HtmlRenderer.new) bytes = .ok (plain, errs, r))
    (h' : render (htmlRenderer gs png) ext (Renderer.new (HtmlRenderer.new D)) bytes = .ok (marked, errs', r'))
    (hpng : (∀ w h b b', png w h b = png w h b') ∨
      ∀ u e t, render recorder ext (Renderer.new []) bytes = .ok (u, e, t) → ∀ x ∈ t.child, x.2 ≠ .renderPage) :
    marked = plain := by
  obtain ⟨u, e, t, a1, a2, _⟩ := C68_same_calls _ ext _ _ _ _ _ h
  obtain ⟨u', e', t', b1, b2, _⟩ := C68_same_calls _ ext _ _ _ _ _ h'
  have b1' := b1
  rw [a1, ok_ok] at b1
  simp only [Prod.mk.injEq] at b1
  obtain ⟨rfl, rfl, rfl⟩ := b1
  obtain ⟨c1, calls, ec⟩ := first_calls a1
  have hx := hpng.imp id fun f => f _ _ _ a1
  rw [ec] at a2 b2 hx
  simp only [replay, bind_ok, Call.perform, htmlRenderer, ok_ok] at a2 b2
  obtain ⟨s1, ⟨_, rfl, rfl⟩, s2, ⟨x1, a3, rfl⟩, a2⟩ := a2
  obtain ⟨s1, ⟨_, rfl, rfl⟩, s2, ⟨y1, b3, rfl⟩, b2⟩ := b2
  exact HtmlRenderer.Both.replay (gs := gs) (png := png) (xs := calls) (hx.imp id fun f y hy => f y (by simp [hy]))
    (r := (x1, [])) (s := (y1, [])) (HtmlRenderer.Both.begin rfl rfl a3 b3) rfl a2 b2

/-- Hypotheses of C89_web_partial met: a line, and a page with an image on it (`ESC L`, `ESC W`, `GS v 0`, form feed), give a document with and without a debug profile. -/
example : ((render (htmlRenderer dotty noPng) noExt (Renderer.new HtmlRenderer.new) [66, 10, 27, 76, 27, 87, 0, 0, 0, 0, 8, 0, 2, 0, 29, 118, 48, 0, 1, 0, 1, 0, 129, 12]).toOption.map
      fun x => x.1.length) = some 1 ∧
    ((render (htmlRenderer dotty noPng) noExt (Renderer.new (HtmlRenderer.new ⟨true, true, true⟩))
      [66, 10, 27, 76, 27, 87, 0, 0, 0, 0, 8, 0, 2, 0, 29, 118, 48, 0, 1, 0, 1, 0, 129, 12]).toOption.map fun x => x.1.length) = some 1 ∧
    ∀ w h b b', noPng w h b = noPng w h b' := by
  refine ⟨?_, ?_, fun _ _ _ _ => rfl⟩ <;> decide +kernel

/-- With an encoder that shows the dots the two documents differ: the image on the page is outlined. -/
example : ∃ png : Png, (render (htmlRenderer dotty png) noExt (Renderer.new HtmlRenderer.new) [27, 76, 27, 87, 0, 0, 0, 0, 8, 0, 2, 0, 29, 118, 48, 0, 1, 0, 1, 0, 129, 12]).toOption.map (·.1) ≠
    (render (htmlRenderer dotty png) noExt (Renderer.new (HtmlRenderer.new ⟨false, true, false⟩)) [27, 76, 27, 87, 0, 0, 0, 0, 8, 0, 2, 0, 29, 118, 48, 0, 1, 0, 1, 0, 129, 12]).toOption.map (·.1) :=
  ⟨fun _ _ b => Nat.toDigits 10 (b.map UInt8.toNat).sum, by decide +kernel⟩

/-! ### The marks -/

/-- A picture of `w` times `h` dots as it is with an outline of this colour: the dots on its four sides have the colour, the others are as before. -/
def Outlined (w h : Nat) (col : RGBA) (px px' : List RGBA) : Prop :=
  px'.length = px.length ∧
    ∀ x y, x < w → y < h → px'[y * w + x]? = if x = 0 ∨ x + 1 = w ∨ y = 0 ∨ y + 1 = h then some col else px[y * w + x]?

theorem drawBorder_outlined {px : List RGBA} {w h : Nat} {col : RGBA} (hc : col.a = 255) (hw : 0 < w) (hh : 0 < h) (hl : px.length = w * h)
    (hu : w * h < U32) : ∃ px', Canvas.drawBorder px w h col = .ok px' ∧ Outlined w h col px px' := by
  obtain ⟨px', e, l, d⟩ := Canvas.drawBorder_dots col hw hh hl hu
  refine ⟨px', e, l, fun x y hx hy => ?_⟩
  rw [d x y hx hy]
  have hn : y * w + x < px.length := by
    have : (y + 1) * w ≤ h * w := Nat.mul_le_mul_right _ hy
    rw [Nat.add_mul, Nat.one_mul] at this
    rw [hl, Nat.mul_comm w h]
    omega
  rw [List.getElem?_eq_getElem hn, Option.map_some]
  by_cases hs : x = 0 ∨ x + 1 = w ∨ y = 0 ∨ y + 1 = h
  · rw [if_pos hs, Canvas.times_opaque hc]
    unfold Canvas.sides
    split <;> split <;> split <;> split <;> omega
  · have e0 : Canvas.sides w h x y = 0 := by
      unfold Canvas.sides
      split <;> split <;> split <;> split <;> omega
    rw [if_neg hs, e0]
    rfl

/-- C89. An image that is outlined is drawn with its four sides in one colour, and otherwise as it is. -/
theorem C89_image_outline (c : Canvas) (i : Image) (hd : c.debug.image = true) (hw : 0 < i.w) (hh : 0 < i.h) (hl : i.pixels.length = i.w * i.h)
    (hu : i.w * i.h < U32) : ∃ px, c.debugImage i = .ok px ∧ Outlined i.w i.h ⟨216, 74, 252, 255⟩ i.pixels px := by
  unfold Canvas.debugImage
  rw [if_pos hd]
  exact drawBorder_outlined rfl hw hh hl hu

/-- C89. The same for a printed page. -/
theorem C89_page_outline (r : ImageRenderer) (px : List RGBA) (w h : Nat) (hd : r.debug.page = true) (hw : 0 < w) (hh : 0 < h)
    (hl : px.length = w * h) (hu : w * h < U32) : ∃ px', r.debugPage px w h = .ok px' ∧ Outlined w h ⟨247, 180, 75, 255⟩ px px' := by
  unfold ImageRenderer.debugPage
  rw [if_pos hd]
  exact drawBorder_outlined rfl hw hh hl hu

/-- C89. A character that is outlined is drawn with a tint of a colour over its four sides, once for every side a dot lies on (so twice in the corners). -/
theorem C89_text_outline (c : Canvas) (px : List RGBA) (w h : Nat) (hd : c.debug.text = true) (hw : 0 < w) (hh : 0 < h)
    (hl : px.length = w * h) (hu : w * h < U32) : ∃ px', c.debugText px w h = .ok px' ∧ px'.length = px.length ∧
      ∀ x y, x < w → y < h → px'[y * w + x]? = px[y * w + x]?.map (Canvas.times ⟨98, 224, 224, 60⟩
        ((if y = 0 then 1 else 0) + (if y = h - 1 then 1 else 0) + (if x = 0 then 1 else 0) + (if x = w - 1 then 1 else 0))) := by
  unfold Canvas.debugText
  rw [if_pos hd]
  exact Canvas.drawBorder_dots _ hw hh hl hu

/-- Hypotheses met, and the marks seen: a white picture of 3 times 3 dots. -/
example : (({ Canvas.new 12 with debug := ⟨true, true, true⟩ } : Canvas).debugImage ⟨List.replicate 9 ⟨255, 255, 255, 255⟩, 0, 0, 3, 3, .block, false⟩).toOption =
    some [⟨216, 74, 252, 255⟩, ⟨216, 74, 252, 255⟩, ⟨216, 74, 252, 255⟩, ⟨216, 74, 252, 255⟩, ⟨255, 255, 255, 255⟩, ⟨216, 74, 252, 255⟩,
      ⟨216, 74, 252, 255⟩, ⟨216, 74, 252, 255⟩, ⟨216, 74, 252, 255⟩] := by decide +kernel

/-! ### What is not true -/

/-- The image renderer panics on this print job with this debug profile. -/
def DebugPanics (D : Debug) (bytes : List Byte) : Bool :=
  match render (imageRenderer dotty) noExt (Renderer.new (ImageRenderer.new D)) bytes with
  | .error _ => true
  | .ok _ => false

/-- C89. A job with a page of width 0 (`ESC L`, `ESC W` with the width 0, form feed) is rendered without debug profile; with outlined pages it panics. -/
theorem C89_page_panics : (∃ outs errs r, render (imageRenderer dotty) noExt (Renderer.new (ImageRenderer.new {}))
      [27, 76, 27, 87, 0, 0, 0, 0, 0, 0, 100, 0, 12] = .ok (outs, errs, r)) ∧
    DebugPanics { page := true } [27, 76, 27, 87, 0, 0, 0, 0, 0, 0, 100, 0, 12] = true := by
  refine ⟨?_, by decide +kernel⟩
  have : ∃ cmds units errs t, parseEscPos [27, 76, 27, 87, 0, 0, 0, 0, 0, 0, 100, 0, 12] = .ok cmds ∧
    (∀ c ∈ cmds, Tame false c) ∧ (cmds.map (reach false)).sum + 360448 < 2147483648 ∧
    render recorder noExt (Renderer.new []) [27, 76, 27, 87, 0, 0, 0, 0, 0, 0, 100, 0, 12] = .ok (units, errs, t) ∧ ∀ x ∈ t.child, Roomy x := by
    refine ⟨_, _, _, _, rfl, ?_, ?_, rfl, ?_⟩ <;> decide +kernel
  obtain ⟨cmds, u, e, t, h1, h2, h3, h4, h5⟩ := this
  refine C65_image_partial dotty extOk_noExt h1 h2 h3 fun u' e' t' h => ?_
  rw [h4, ok_ok] at h
  simp only [Prod.mk.injEq] at h
  obtain ⟨_, _, rfl⟩ := h
  exact h5

/-- C89. A job with an image of height 0 (`GS v 0`) is rendered without debug profile; with outlined images it panics. -/
theorem C89_image_panics : (∃ outs errs r, render (imageRenderer dotty) noExt (Renderer.new (ImageRenderer.new {})) [29, 118, 48, 0, 1, 0, 0, 0] =
      .ok (outs, errs, r)) ∧
    DebugPanics { image := true } [29, 118, 48, 0, 1, 0, 0, 0] = true := by
  refine ⟨?_, by decide +kernel⟩
  have : ∃ cmds units errs t, parseEscPos [29, 118, 48, 0, 1, 0, 0, 0] = .ok cmds ∧
    (∀ c ∈ cmds, Tame false c) ∧ (cmds.map (reach false)).sum + 360448 < 2147483648 ∧
    render recorder noExt (Renderer.new []) [29, 118, 48, 0, 1, 0, 0, 0] = .ok (units, errs, t) ∧ ∀ x ∈ t.child, Roomy x := by
    refine ⟨_, _, _, _, rfl, ?_, ?_, rfl, ?_⟩ <;> decide +kernel
  obtain ⟨cmds, u, e, t, h1, h2, h3, h4, h5⟩ := this
  refine C65_image_partial dotty extOk_noExt h1 h2 h3 fun u' e' t' h => ?_
  rw [h4, ok_ok] at h
  simp only [Prod.mk.injEq] at h
  obtain ⟨_, _, rfl⟩ := h
  exact h5

/-- A font without glyphs: all characters are control characters. -/
def mute : Canvas.Glyphs := ⟨fun _ _ _ _ _ => ⟨true, 0, [], 0, 0⟩⟩

/-- C89. A line of control characters puts no dot on the paper; with outlined text its base line does, and the paper grows: from no row to
17 rows, here 12 dots wide. -/
theorem C89_text_grows : ∃ span : TextSpan, span.dimensions = some ⟨0, 0, 12, 24⟩ ∧
    ((Canvas.renderSpan mute (Canvas.new 12) 0 24 span).toOption.map fun c => (c.width, c.getHeight)) = some (12, 0) ∧
    ((Canvas.renderSpan mute { Canvas.new 12 with debug := { text := true } } 0 24 span).toOption.map fun c => (c.width, c.getHeight)) = some (12, 17) :=
  ⟨⟨.A, 12, 24, 12, 24, [Char.ofNat 1], false, false, 0, 0, 1, 1, false, false, .left, some ⟨0, 0, 12, 24⟩, ⟨255, 255, 255, 255⟩, ⟨0, 0, 0, 255⟩⟩, rfl,
    by decide +kernel, by decide +kernel⟩

end Thermal
