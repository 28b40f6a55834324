import Verif.Proofs.Picture
import Verif.Props.HtmlText
/-
C77: the dots of the printed image.
-/
namespace Thermal
open Spec Renderer ImageRenderer

/-- What is printed on the paper by a recorded job: the calls, one after the other, on white paper. -/
def Spec.picture (gs : Canvas.Glyphs) (width : Nat) (t : Recording) : Plane := t.child.foldl (callOn gs width) white

/-- C77. A stream without form feeds and page mode gives exactly one image.  Between its margins of 20 dots it shows, dot by dot, what the calls
of the job put on white paper of 609 dots in width, one after the other, and the image is long enough to show all of it: below its last row
there is only blank paper. -/
theorem C77_picture (gs : Canvas.Glyphs) (ext : Ext) (bytes : List Byte) (cmds : List Command) (outs errs r)
    (hp : parseEscPos bytes = .ok cmds) (hf : ∀ c ∈ cmds, c.commands ≠ [12] ∧ c.commands ≠ [27, 76])
    (h : render (imageRenderer gs) ext (Renderer.new (ImageRenderer.new {})) bytes = .ok (outs, errs, r)) :
    ∃ units errs' t o, render recorder ext (Renderer.new []) bytes = .ok (units, errs', t) ∧ outs = [o] ∧ o.width = 649 ∧
      (∀ x y, x < 609 → y < o.height →
        o.bytes[3 * (y * 649 + 20 + x)]? = some (picture gs 609 t x y).r ∧
        o.bytes[3 * (y * 649 + 20 + x) + 1]? = some (picture gs 609 t x y).g ∧
        o.bytes[3 * (y * 649 + 20 + x) + 2]? = some (picture gs 609 t x y).b) ∧
      ∀ x y, x < 609 → o.height ≤ y → picture gs 609 t x y = ⟨255, 255, 255, 255⟩ := by
  obtain ⟨u, e, t, a1, a2, _⟩ := C68_same_calls _ ext _ bytes outs errs r h
  obtain ⟨c0, c1, c2, c3, calls, ec, hc⟩ := one_sheet hp hf a1
  have hdress := render_outfit a1
  have hctx : ∀ x ∈ t.child, OnPaper x.1 := by
    have a1' := a1
    simp only [render, bind_ok, pure_ok] at a1'
    obtain ⟨cs, h1, r1, h2, h3⟩ := a1'
    simp only [Prod.mk.injEq] at h3
    obtain ⟨rfl, rfl, rfl⟩ := h3
    exact (processCommands_always (J := OnPaper) OnPaper.pen OnPaper.device OnPaper.apply (r := Renderer.new []) ⟨OnPaper.start, by simp [Renderer.new]⟩ h2).2
  have k1 := hctx (c1, .beginRender) (by rw [ec]; simp)
  have k3 := hctx (c3, .endRender) (by rw [ec]; simp)
  have ep : picture gs 609 t = calls.foldl (callOn gs 609) white := by
    unfold picture
    rw [ec]
    simp [List.foldl_append, callOn]
  rw [ec] at a2
  rw [show (c0, Call.device .beginPrint) :: (c1, .beginRender) :: calls ++ [(c2, .device .endPrint), (c3, .endRender)] =
    (c0, Call.device .beginPrint) :: (c1, .beginRender) :: (calls ++ [(c2, .device .endPrint), (c3, .endRender)]) from rfl] at a2
  simp only [replay, bind_ok, Call.perform, imageRenderer, ok_ok] at a2
  obtain ⟨s1, ⟨_, rfl, rfl⟩, s2, ⟨_, rfl, rfl⟩, a2⟩ := a2
  have hw1 : (ImageRenderer.beginRender c1 (ImageRenderer.new {})).paper.width = 609 := k1.area
  have hv1 : Canvas.View (ImageRenderer.beginRender c1 (ImageRenderer.new {})).paper white := by
    refine ⟨⟨0, rfl⟩, ?_, ?_, rfl, rfl, ?_⟩
    · intro p hp
      simp [ImageRenderer.beginRender, ImageRenderer.new, Canvas.new, Canvas.empty, Canvas.setWidth] at hp
    · show c1.graphics.renderColors.paperColor = _
      rw [k1.colors]; rfl
    · intro x y hx
      have e0 : (ImageRenderer.beginRender c1 (ImageRenderer.new {})).paper.getHeight = 0 := by
        exact Canvas.getHeight_of (by rw [hw1]; decide) (by simp [ImageRenderer.beginRender, ImageRenderer.new, Canvas.new, Canvas.empty, Canvas.setWidth])
      unfold onPaper
      rw [e0, if_neg (by omega)]
      show c1.graphics.renderColors.paperColor = _
      rw [k1.colors]; rfl
  have a2' : replay (imageRenderer gs) (calls ++ [(c2, .device .endPrint), (c3, .endRender)])
    (ImageRenderer.beginRender c1 (ImageRenderer.new {}), []) = .ok (r.child, outs) := a2
  rw [replay_append, bind_ok] at a2'
  obtain ⟨s3, b1, b2⟩ := a2'
  obtain ⟨w3, v3, o3⟩ := replay_view hw1 hv1 (fun x hx => (hc x hx).context)
    (fun x hx => hdress x (by rw [ec]; simp [hx])) (fun x hx => ⟨fun he => absurd rfl ((hc x hx).begins he).1,
      fun he => absurd rfl ((hc x hx).ends he).2.1, fun he => absurd rfl ((hc x hx).pages he).2.2.2⟩) b1
  simp only [replay, bind_ok, Call.perform, imageRenderer, ok_ok] at b2
  obtain ⟨s4, ⟨_, rfl, rfl⟩, s5, ⟨⟨s6, o⟩, b3, rfl⟩, b4⟩ := b2
  obtain ⟨d1, d2, d3, d4⟩ := endRender_view w3 v3 k3 b3
  simp only [Prod.mk.injEq] at b4
  rw [← ep] at d3 d4
  refine ⟨u, e, t, o, a1, ?_, d1, d4, d3⟩
  rw [← b4.2, o3]; rfl

/-- A font for the examples: every character has two black dots, at (3, 5) and (4, 6) of its cell. -/
def dotty : Canvas.Glyphs := ⟨fun _ _ _ _ _ => ⟨false, 2, [255, 0, 0, 255], 3, 5⟩⟩

/-- The picture of that job: the dots of the glyph and the underline, on white paper. -/
example : ∃ units errs t, render recorder noExt (Renderer.new []) [27, 45, 1, 65] = .ok (units, errs, t) ∧
    ((List.range 40).flatMap fun y => (List.range 20).filterMap fun x =>
      if picture dotty 609 t x (100 + y) = ⟨255, 255, 255, 255⟩ then none else some (x, 100 + y)) =
      (3, 113) :: (4, 114) :: (List.range 12).map fun x => (x, 126) := by
  refine ⟨_, _, _, rfl, ?_⟩
  decide +kernel

end Thermal
