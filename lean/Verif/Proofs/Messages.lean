import Verif.Proofs.CanvasInv
import Verif.Model.ImageRenderer
import Verif.Proofs.Trace
/-
The messages of the image renderer: they are only ever added.
-/
namespace Thermal
namespace Canvas

theorem putPixels_says {c c' : Canvas} {x y w h : Nat} {pixels : List RGBA} {mul b : Bool}
    (hp : c.putPixels x y w h pixels mul = .ok (c', b)) : c.errors <+: c'.errors ∧ (b = true → c'.errors = c.errors) := by
  simp only [putPixels, bind_ok, mulU32_ok] at hp
  obtain ⟨_, ⟨_, rfl⟩, hp⟩ := hp
  split at hp
  · rw [pure_ok] at hp
    simp only [Prod.mk.injEq] at hp
    obtain ⟨rfl, rfl⟩ := hp
    exact ⟨List.prefix_append .., by simp⟩
  · split at hp
    · rw [pure_ok] at hp
      simp only [Prod.mk.injEq] at hp
      obtain ⟨rfl, rfl⟩ := hp
      exact ⟨List.prefix_append .., by simp⟩
    · simp only [bind_ok, pure_ok] at hp
      obtain ⟨_, _, _, _, c1, h1, _, _, hp⟩ := hp
      simp only [expandToHeight, bind_ok, pure_ok] at h1
      obtain ⟨_, _, h1⟩ := h1
      have e : c1.errors = c.errors := by subst h1; split <;> rfl
      have hp := congrArg Prod.fst hp
      dsimp only at hp
      subst hp
      exact ⟨by rw [← e], fun _ => e⟩

theorem expandToHeight_says {c c' : Canvas} {n : Nat} (h : c.expandToHeight n = .ok c') : c'.errors = c.errors := by
  simp only [expandToHeight, bind_ok, pure_ok] at h
  obtain ⟨_, _, h⟩ := h
  subst h; split <;> rfl

theorem expandToWidth_says {c c' : Canvas} {n : Nat} (h : c.expandToWidth n = .ok c') : c'.errors = c.errors := by
  unfold expandToWidth at h
  split at h
  · rw [pure_ok] at h; subst h; rfl
  · simp only [bind_ok, pure_ok] at h
    obtain ⟨_, _, _, _, h⟩ := h
    subst h; rfl

theorem rotate90_says {c c' : Canvas} (h : c.rotate90 = .ok c') : c'.errors = c.errors := by
  simp only [rotate90, bind_ok, pure_ok] at h
  obtain ⟨_, _, rfl⟩ := h; rfl

theorem rotate180_says {c c' : Canvas} (h : c.rotate180 = .ok c') : c'.errors = c.errors := by
  simp only [rotate180, bind_ok, pure_ok] at h
  obtain ⟨_, _, rfl⟩ := h; rfl

theorem rotate270_says {c c' : Canvas} (h : c.rotate270 = .ok c') : c'.errors = c.errors := by
  simp only [rotate270, bind_ok, pure_ok] at h
  obtain ⟨_, _, rfl⟩ := h; rfl

theorem drawRect_says {c c' : Canvas} {x y w h : Nat} {color : RGBA} {mul : Bool}
    (hp : c.drawRect x y w h color mul = .ok c') : c.errors <+: c'.errors := by
  simp only [drawRect, bind_ok, pure_ok] at hp
  obtain ⟨_, _, ⟨c1, b⟩, h1, rfl⟩ := hp
  exact (putPixels_says h1).1

theorem flipPixels_says {c c' : Canvas} {x y w h : Nat} (hp : c.flipPixels x y w h = .ok c') : c.errors <+: c'.errors := by
  simp only [flipPixels, bind_ok] at hp
  obtain ⟨_, _, hp⟩ := hp
  split at hp
  · rw [pure_ok] at hp; subst hp; exact List.prefix_refl _
  · simp only [bind_ok, pure_ok] at hp
    obtain ⟨_, _, c1, h1, _, _, _, _, _, _, ⟨c2, b⟩, h2, rfl⟩ := hp
    rw [← expandToHeight_says h1]
    exact (putPixels_says h2).1

theorem putRenderImg_says {c c' : Canvas} {i : Image} (hp : c.putRenderImg i = .ok c') : c.errors <+: c'.errors := by
  simp only [putRenderImg, bind_ok] at hp
  obtain ⟨_, _, ⟨c1, b⟩, h1, hp⟩ := hp
  dsimp only at hp
  split at hp
  · exact (putPixels_says h1).1.trans (flipPixels_says hp)
  · rw [pure_ok] at hp; subst hp; exact (putPixels_says h1).1

theorem putChar_says {c c' : Canvas} {b : Option (List RGBA × Nat × Nat)} {x y : Nat} (hp : c.putChar b x y = .ok c') :
    c.errors <+: c'.errors := by
  unfold putChar at hp
  split at hp
  · rw [ok_ok] at hp; subst hp; exact List.prefix_refl _
  · simp only [bind_ok, pure_ok] at hp
    obtain ⟨_, _, ⟨c1, b⟩, h1, rfl⟩ := hp
    exact (putPixels_says h1).1

theorem renderChars_says {gs : Glyphs} {span : TextSpan} {y : Nat} {t : Str} {x : Nat} {c c' : Canvas}
    (hp : renderChars gs span y t x c = .ok c') : c.errors <+: c'.errors := by
  induction t generalizing x c with
  | nil => simp only [renderChars, ok_ok] at hp; subst hp; exact List.prefix_refl _
  | cons ch rest ih =>
    simp only [renderChars, bind_ok] at hp
    obtain ⟨b, _, hp⟩ := hp
    split at hp
    · exact ih hp
    · simp only [bind_ok] at hp
      obtain ⟨c1, h1, _, _, hp⟩ := hp
      exact (putChar_says h1).trans (ih hp)

theorem renderSpan_says {gs : Glyphs} {c c' : Canvas} {xo mh : Nat} {span : TextSpan} (hp : renderSpan gs c xo mh span = .ok c') :
    c.errors <+: c'.errors := by
  unfold renderSpan at hp
  split at hp
  · rw [ok_ok] at hp; subst hp; exact List.prefix_refl _
  · simp only [bind_ok] at hp
    obtain ⟨_, _, _, _, _, _, c1, h1, c2, h2, c3, h3, c4, h4, hp⟩ := hp
    have k2 : c1.errors <+: c2.errors := by
      unfold debugBaseline at h2
      split at h2
      · simp only [bind_ok] at h2; obtain ⟨_, _, _, _, h2⟩ := h2; exact drawRect_says h2
      · rw [ok_ok] at h2; subst h2; exact List.prefix_refl _
    have k3 : c2.errors <+: c3.errors := by
      unfold drawUnderline at h3
      split at h3
      · simp only [bind_ok] at h3; obtain ⟨_, _, _, _, h3⟩ := h3; exact drawRect_says h3
      · rw [ok_ok] at h3; subst h3; exact List.prefix_refl _
    have k4 : c3.errors <+: c4.errors := by
      unfold drawStrike at h4
      split at h4
      · simp only [bind_ok] at h4; obtain ⟨_, _, h4⟩ := h4; exact drawRect_says h4
      · rw [ok_ok] at h4; subst h4; exact List.prefix_refl _
    have k := ((renderChars_says h1).trans k2).trans (k3.trans k4)
    split at hp
    · exact k.trans (flipPixels_says hp)
    · rw [pure_ok] at hp; subst hp; exact k

end Canvas

namespace ImageRenderer

theorem rotate_says {rot : Rotation} {c c' : Canvas} (h : rotate rot c = .ok c') : c'.errors = c.errors := by
  unfold rotate at h
  split at h
  · exact Canvas.rotate90_says h
  · exact Canvas.rotate180_says h
  · exact Canvas.rotate270_says h
  · rw [ok_ok] at h; subst h; rfl

theorem putRects_says {color : RGBA} {gs : List Rectangle} {c c' : Canvas} (h : putRects color gs c = .ok c') : c.errors <+: c'.errors := by
  induction gs generalizing c with
  | nil => simp only [putRects, ok_ok] at h; subst h; exact List.prefix_refl _
  | cons g gs ih =>
    simp only [putRects, bind_ok] at h
    obtain ⟨c1, h1, h2⟩ := h
    exact (Canvas.drawRect_says h1).trans (ih h2)

theorem renderSpans_says {gs : Canvas.Glyphs} {xo mh : Nat} {ss : List TextSpan} {c c' : Canvas} (h : renderSpans gs xo mh ss c = .ok c') :
    c.errors <+: c'.errors := by
  induction ss generalizing c with
  | nil => simp only [renderSpans, ok_ok] at h; subst h; exact List.prefix_refl _
  | cons s ss ih =>
    simp only [renderSpans, bind_ok] at h
    obtain ⟨c1, h1, h2⟩ := h
    exact (Canvas.renderSpan_says h1).trans (ih h2)

/-- The messages of the paper and of the page begin with those of an earlier state. -/
def Says (s s' : ImageRenderer) : Prop := s.paper.errors <+: s'.paper.errors ∧ s.page.errors <+: s'.page.errors

theorem Says.rfl' (s : ImageRenderer) : Says s s := ⟨List.prefix_refl _, List.prefix_refl _⟩

theorem Says.trans {a b c : ImageRenderer} (h : Says a b) (h' : Says b c) : Says a c := ⟨h.1.trans h'.1, h.2.trans h'.2⟩

theorem onCanvas_says {c : Context} {s s' : ImageRenderer} {f : Canvas → Rs Canvas} (hf : ∀ a b, f a = .ok b → a.errors <+: b.errors)
    (h : s.onCanvas c f = .ok s') : Says s s' := by
  unfold onCanvas at h
  split at h
  · simp only [bind_ok, pure_ok] at h
    obtain ⟨p, h1, rfl⟩ := h
    exact ⟨List.prefix_refl _, hf _ _ h1⟩
  · simp only [bind_ok, pure_ok] at h
    obtain ⟨p, h1, rfl⟩ := h
    exact ⟨hf _ _ h1, List.prefix_refl _⟩

theorem endRender_says {c : Context} {s s' : ImageRenderer} {o : ReceiptImage} (h : s.endRender c = .ok (s', o)) :
    s'.paper.errors = s.paper.errors ∧ s'.page.errors = s.page.errors := by
  simp only [endRender, Canvas.consumeRgb, bind_ok, pure_ok] at h
  obtain ⟨p1, h1, p2, h2, ⟨p3, w, hh, bs⟩, ⟨_, _, h3⟩, h4⟩ := h
  simp only [Prod.mk.injEq] at h3 h4
  obtain ⟨rfl, _⟩ := h3
  obtain ⟨rfl, _⟩ := h4
  exact ⟨(Canvas.expandToHeight_says h2).trans (Canvas.expandToWidth_says h1), rfl⟩

end ImageRenderer
open Renderer in
theorem perform_says {gs : Canvas.Glyphs} {x : Context × Call} {s s' : ImageRenderer × List ReceiptImage}
    (h : Call.perform (imageRenderer gs) x s = .ok s') : s.1.Says s'.1 := by
  obtain ⟨c, k⟩ := x
  cases k with
  | beginRender =>
    simp only [Call.perform, imageRenderer, bind_ok, ok_ok] at h
    obtain ⟨_, rfl, rfl⟩ := h
    exact ⟨List.prefix_refl _, List.prefix_refl _⟩
  | pageBegin =>
    simp only [Call.perform, imageRenderer, bind_ok, ok_ok] at h
    obtain ⟨_, rfl, rfl⟩ := h
    exact ⟨List.prefix_refl _, List.prefix_refl _⟩
  | pageAreaChanged r w hh =>
    simp only [Call.perform, imageRenderer, bind_ok, ok_ok] at h
    obtain ⟨_, h, rfl⟩ := h
    simp only [ImageRenderer.pageAreaChanged, bind_ok, pure_ok] at h
    obtain ⟨p1, h1, p2, h2, p3, h3, rfl⟩ := h
    refine ⟨List.prefix_refl _, ?_⟩
    have e1 := ImageRenderer.rotate_says h1
    have e2 : p2.errors = p1.errors := by
      unfold ImageRenderer.growWidth at h2
      split at h2
      · exact Canvas.expandToWidth_says h2
      · rw [ok_ok] at h2; subst h2; rfl
    have e3 : p3.errors = p2.errors := by
      unfold ImageRenderer.growHeight at h3
      split at h3
      · exact Canvas.expandToHeight_says h3
      · rw [ok_ok] at h3; subst h3; rfl
    show _ <+: p3.errors
    rw [e3, e2, e1]
  | pageEnd =>
    simp only [Call.perform, imageRenderer, bind_ok, ok_ok] at h
    obtain ⟨_, rfl, rfl⟩ := h
    exact .rfl' _
  | renderPage =>
    simp only [Call.perform, imageRenderer, bind_ok, ok_ok] at h
    obtain ⟨_, h, rfl⟩ := h
    simp only [ImageRenderer.renderPage, bind_ok, pure_ok] at h
    obtain ⟨p1, h1, px, h2, p2, h3, ⟨p3, b⟩, h4, rfl⟩ := h
    refine ⟨(Canvas.putPixels_says h4).1, ?_⟩
    show _ <+: p2.errors
    rw [ImageRenderer.rotate_says h3, ImageRenderer.rotate_says h1]
  | graphics g =>
    simp only [Call.perform, imageRenderer, bind_ok, ok_ok] at h
    obtain ⟨_, h, rfl⟩ := h
    exact ImageRenderer.onCanvas_says (fun _ _ => ImageRenderer.putRects_says) h
  | image i =>
    simp only [Call.perform, imageRenderer, bind_ok, ok_ok] at h
    obtain ⟨_, h, rfl⟩ := h
    exact ImageRenderer.onCanvas_says (fun _ _ => Canvas.putRenderImg_says) h
  | text l o m j =>
    simp only [Call.perform, imageRenderer, bind_ok, ok_ok] at h
    obtain ⟨_, h, rfl⟩ := h
    exact ImageRenderer.onCanvas_says (fun _ _ => ImageRenderer.renderSpans_says) h
  | device d =>
    simp only [Call.perform, imageRenderer, bind_ok, ok_ok] at h
    obtain ⟨_, rfl, rfl⟩ := h
    exact .rfl' _
  | endRender =>
    simp only [Call.perform, imageRenderer, bind_ok, ok_ok] at h
    obtain ⟨⟨s1, o⟩, h, rfl⟩ := h
    obtain ⟨e1, e2⟩ := ImageRenderer.endRender_says h
    show ImageRenderer.Says s.1 s1
    exact ⟨by rw [e1], by rw [e2]⟩

theorem replay_says {gs : Canvas.Glyphs} {xs : List (Context × Call)} {s s' : ImageRenderer × List ReceiptImage}
    (h : replay (imageRenderer gs) xs s = .ok s') : s.1.Says s'.1 := by
  induction xs generalizing s with
  | nil => simp only [replay, ok_ok] at h; subst h; exact .rfl' _
  | cons x xs ih =>
    simp only [replay, bind_ok] at h
    obtain ⟨s1, h1, h2⟩ := h
    exact (perform_says h1).trans (ih h2)

end Thermal
