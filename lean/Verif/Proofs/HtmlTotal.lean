import Verif.Proofs.ImageTotal
import Verif.Model.Html
/-
Within its limits the HTML renderer does not panic.
-/
namespace Thermal
open Spec

namespace Canvas

/-- A canvas with dots. -/
structure Filled (c : Canvas) : Prop where
  rect : c.Rect
  width : 0 < c.width
  height : 0 < c.getHeight

theorem Filled.kept {c c' : Canvas} (h : Filled c) (k : Kept c c') : Filled c' :=
  ⟨k.rect h.rect, by rw [k.width]; exact h.width, Nat.lt_of_lt_of_le h.height (k.height h.rect)⟩

theorem Filled.of {c : Canvas} {h : Nat} (hw : 0 < c.width) (hh : 0 < h) (hl : c.bytes.length = c.width * h) : Filled c :=
  ⟨⟨h, hl⟩, hw, by rw [getHeight_of hw hl]; exact hh⟩

theorem rotate_filled {c c' : Canvas} (hc : Filled c) {r : Rotation} (h : ImageRenderer.rotate r c = .ok c') : Filled c' := by
  cases r
  · simp only [ImageRenderer.rotate, ok_ok] at h; subst h; exact hc
  · obtain ⟨px, e, s⟩ := rotate90_shows hc.rect
    rw [ImageRenderer.rotate, e, ok_ok] at h
    subst h
    exact .of hc.height hc.width s.1
  · obtain ⟨px, e, s⟩ := rotate180_shows hc.rect
    rw [ImageRenderer.rotate, e, ok_ok] at h
    subst h
    exact .of hc.width hc.height s.1
  · obtain ⟨px, e, s⟩ := rotate270_shows hc.rect
    rw [ImageRenderer.rotate, e, ok_ok] at h
    subst h
    exact .of hc.height hc.width s.1

theorem growWidth_rect {c c' : Canvas} (hc : c.Rect) {n : Nat} (h : ImageRenderer.growWidth c n = .ok c') : c'.Rect ∧ n ≤ c'.width ∧ (Filled c → Filled c') := by
  unfold ImageRenderer.growWidth at h
  split at h
  · rename_i hn
    obtain ⟨px, e1, s1⟩ := expandToWidth_shows (n := n) hc (by omega)
    rw [e1, ok_ok] at h
    subst h
    exact ⟨⟨_, s1.1⟩, Nat.le_refl _, fun hf => .of (Nat.lt_of_le_of_lt (Nat.zero_le _) hn) hf.height s1.1⟩
  · rw [ok_ok] at h; subst h; exact ⟨hc, by omega, id⟩

theorem growHeight_filled {c c' : Canvas} (hc : c.Rect) {n : Nat} (h : ImageRenderer.growHeight c n = .ok c') :
    (Filled c → Filled c') ∧ (0 < c.width → 0 < n → Filled c') := by
  unfold ImageRenderer.growHeight at h
  split at h
  · have k := expandToHeight_kept h
    refine ⟨fun hf => hf.kept k, ?_⟩
    intro hw hn
    obtain ⟨e1, e2, _⟩ := expandToHeight_shows hc.shows h
    have hw' : c'.width = c.width := k.width
    exact .of (h := max c.getHeight n) (by omega) (by omega) (by rw [hw']; exact (e2 hw).1)
  · rw [ok_ok] at h; subst h; exact ⟨id, fun hw hn => ⟨hc, hw, by omega⟩⟩

end Canvas

namespace HtmlRenderer
open Canvas Html

/-- The HTML renderer between two calls. -/
structure Safe (sized : Bool) (s : HtmlRenderer) : Prop where
  page : Small widest widest s.page
  calm : s.debug = {}
  sized : sized = true → Filled s.page

theorem Safe.new : Safe false (HtmlRenderer.new {}) := ⟨⟨⟨0, rfl⟩, by decide, rfl, by decide⟩, rfl, by simp⟩

theorem pushRow_safe {b : Bool} {s : HtmlRenderer} (hs : Safe b s) {row : Row} (h : row.y + row.height < U32) :
    ∃ s', s.pushRow row = .ok s' ∧ Safe b s' := by
  unfold pushRow
  rw [addU32_ok.2 ⟨h, rfl⟩]
  exact ⟨_, rfl, hs.page, hs.calm, hs.sized⟩

theorem rgbaBytes_length (px : List RGBA) : (rgbaBytes px).length = px.length * 4 := by
  induction px with
  | nil => rfl
  | cons p px ih =>
    have e : rgbaBytes (p :: px) = [p.r, p.g, p.b, p.a] ++ rgbaBytes px := rfl
    rw [e, List.length_append, ih, List.length_cons]
    simp only [List.length_cons, List.length_nil]
    omega

theorem encodeImage_defined {png : Png} {i : Image} (h1 : i.pixels.length = i.w * i.h) (h2 : 0 < i.w) (h3 : 0 < i.h) :
    ∃ row, encodeImage png i = .ok row ∧ row.y = i.y ∧ row.height = i.h := by
  unfold encodeImage
  rw [if_neg (by omega), if_neg (by rw [rgbaBytes_length, h1]; simp)]
  exact ⟨_, rfl, rfl, rfl⟩

theorem minCorner_le {gs : List Rectangle} {m : Nat × Nat} : (minCorner gs m).2 ≤ m.2 ∧ ∀ g ∈ gs, (minCorner gs m).1 ≤ g.x ∧ (minCorner gs m).2 ≤ g.y := by
  induction gs generalizing m with
  | nil => simp [minCorner]
  | cons g gs ih =>
    have h := @ih (min m.1 g.x, min m.2 g.y)
    have h1 : (minCorner gs (min m.1 g.x, min m.2 g.y)).1 ≤ min m.1 g.x := by
      have : ∀ (l : List Rectangle) (q : Nat × Nat), (minCorner l q).1 ≤ q.1 := by
        intro l
        induction l with
        | nil => intro q; exact Nat.le_refl _
        | cons a l ih => intro q; exact Nat.le_trans (ih _) (Nat.min_le_left _ _)
      exact this gs (min m.1 g.x, min m.2 g.y)
    simp only [minCorner]
    dsimp only at h h1
    refine ⟨by omega, ?_⟩
    intro r hr
    rcases List.mem_cons.1 hr with rfl | hr
    · constructor <;> omega
    · exact h.2 r hr

theorem svgRects_defined {m : Nat × Nat} {gs : List Rectangle} {B : Nat} (hg : ∀ g ∈ gs, m.2 ≤ g.y ∧ g.x + g.w < U32 ∧ g.y + g.h < U32 ∧ g.y + g.h ≤ m.2 + B)
    {a b : Nat} (hb : b ≤ B) {svg : List Str} : ∃ w h t, svgRects m gs (a, b) svg = .ok (w, h, t) ∧ h ≤ B := by
  induction gs generalizing a b svg with
  | nil => exact ⟨a, b, svg, rfl, hb⟩
  | cons g gs ih =>
    obtain ⟨h1, h2, h3, h4⟩ := hg g (by simp)
    unfold svgRects
    dsimp only
    rw [addU32_ok.2 ⟨by omega, rfl⟩, addU32_ok.2 ⟨by omega, rfl⟩]
    simp only [bind, Except.bind]
    exact ih (fun x hx => hg x (by simp [hx])) (by omega)

theorem graphicsToSvg_defined {gs : List Rectangle} (hg : ∀ g ∈ gs, g.x + g.w < U32 ∧ g.y + g.h < U32) :
    ∃ row, graphicsToSvg gs = .ok row ∧ row.y + row.height < U32 := by
  unfold graphicsToSvg
  split
  · exact ⟨_, rfl, by decide⟩
  · have hm := @minCorner_le gs (U32 - 1, U32 - 1)
    generalize minCorner gs (U32 - 1, U32 - 1) = m at hm
    have hU : U32 = 4294967296 := rfl
    obtain ⟨w, h, t, e, hh⟩ := svgRects_defined (m := m) (gs := gs) (B := U32 - 1 - m.2) (a := 0) (b := 0) (svg := []) (by
      intro g hx
      obtain ⟨h1, h2⟩ := hg g hx
      obtain ⟨h3, h4⟩ := hm.2 g hx
      have := hm.1
      dsimp only at this
      exact ⟨h4, h1, h2, by omega⟩) (Nat.zero_le _)
    have := hm.1
    dsimp only at this
    simp only [e, bind, Except.bind]
    exact ⟨_, rfl, by dsimp only; omega⟩

theorem spansLoop_defined {xo mh : Nat} {cs : RenderColors} {l : List TextSpan} (hx : xo < U32)
    (hl : ∀ s ∈ l, s.characterHeight ≤ 255 ∧ ∀ d, s.dimensions = some d → xo + d.x < U32 ∧ d.y + 255 < U32) {a b : Nat} (ha : a ≤ 255) (hb : b + 255 < U32 ∨ l ≠ [])
    {html : List Str} : ∃ row, spansLoop xo mh cs l a b html = .ok row ∧ row.y + row.height < U32 := by
  induction l generalizing a b html with
  | nil => exact ⟨_, rfl, by rcases hb with hb | hb; dsimp only; omega; exact absurd rfl hb⟩
  | cons s l ih =>
    obtain ⟨h1, h2⟩ := hl s (by simp)
    have hc : xo + (spanCorner s).1 < U32 ∧ (spanCorner s).2 + 255 < U32 := by
      unfold spanCorner
      cases hd : s.dimensions with
      | none => exact ⟨hx, by decide⟩
      | some d => exact h2 d hd
    unfold spansLoop spanToHtml
    rw [addU32_ok.2 ⟨hc.1, rfl⟩]
    simp only [bind, Except.bind, pure, Except.pure]
    exact ih (fun x hx => hl x (by simp [hx])) (by omega) (.inl (by omega))

theorem spansToHtml_defined {xo mh : Nat} {cs : RenderColors} {l : List TextSpan} (hx : xo < U32)
    (hl : ∀ s ∈ l, s.characterHeight ≤ 255 ∧ ∀ d, s.dimensions = some d → xo + d.x < U32 ∧ d.y + 255 < U32) :
    ∃ row, spansToHtml l xo mh cs = .ok row ∧ row.y + row.height < U32 := by
  unfold spansToHtml
  split
  · exact ⟨_, rfl, by decide⟩
  · rename_i h
    exact spansLoop_defined hx hl (by omega) (.inr h)

/-- Every call within the limits returns. -/
theorem perform_safe {gs : Glyphs} {png : Png} {b : Bool} {x : Context × Call} {s : HtmlRenderer × List Str} (hs : Safe b s.1)
    (hw : WebWithin x) (hz : x.2 = .renderPage → b = true) (ho : ∀ t ∈ x.2.spans, Outfit.Span t) :
    ∃ s', Call.perform (htmlRenderer gs png) x s = .ok s' ∧ Safe (pageSized b x.2) s'.1 := by
  obtain ⟨c, call⟩ := x
  unfold WebWithin at hw
  dsimp only at hw hz ho ⊢
  have hpage : c.pageMode.enabled = true → depth c = widest := fun h => by unfold depth; rw [h]; rfl
  cases call
  case beginRender =>
    obtain ⟨s', e, h⟩ := pushRow_safe (b := false) (s := { s.1 with
        page := { ({ s.1.page with
          debug := s.1.debug
          paperColor := c.graphics.renderColors.paperColor } : Canvas).setWidth 0 with autoGrow := false }
        lastY := c.getY
        content := [] }) (row := ⟨0, c.getY, []⟩) ⟨.blank rfl (Nat.zero_le _) hs.calm, hs.calm, by simp⟩ (by dsimp only at hw ⊢; omega)
    exact ⟨(s', s.2), by simp only [Call.perform, htmlRenderer, beginRender, e, bind, Except.bind], h⟩
  case endRender => exact ⟨_, rfl, hs⟩
  case pageBegin => exact ⟨_, rfl, .blank rfl (Nat.zero_le _) hs.page.calm, hs.calm, by simp [pageSized]⟩
  case pageEnd => exact ⟨_, rfl, hs⟩
  case device d => exact ⟨_, rfl, hs⟩
  case pageAreaChanged r w h =>
    obtain ⟨p1, e1, q1⟩ := rotate_small hs.page r
    obtain ⟨p2, e2, q2⟩ := growWidth_small q1 hw.1
    obtain ⟨p3, e3, q3⟩ := growHeight_small pageSides q2 hw.2
    refine ⟨({ s.1 with page := p3 }, s.2), ?_, q3, hs.calm, ?_⟩
    · simp only [Call.perform, htmlRenderer, pageAreaChanged, e1, e2, e3, bind, Except.bind, pure, Except.pure]
    · intro hb
      obtain ⟨r2, l2, f2⟩ := growWidth_rect q1.rect e2
      obtain ⟨f3, f4⟩ := growHeight_filled r2 e3
      simp only [pageSized, Bool.or_eq_true, Bool.and_eq_true, decide_eq_true_eq] at hb
      rcases hb with hb | ⟨h1, h2⟩
      · exact f3 (f2 (rotate_filled (hs.sized hb) e1))
      · exact f4 (by omega) h2
  case renderPage =>
    have hf := hs.sized (hz rfl)
    obtain ⟨p1, e1, q1⟩ := rotate_small hs.page (directionalRotation c.pageMode.direction .topLeft2Right)
    obtain ⟨p2, e2, q2⟩ := rotate_small q1 (directionalRotation .topLeft2Right c.pageMode.direction)
    have f1 := rotate_filled hf e1
    have f2 := rotate_filled f1 e2
    obtain ⟨row, e3, y3, h3⟩ := encodeImage_defined (png := png) (i := ⟨p1.bytes, c.graphics.renderArea.x, c.graphics.renderArea.y, p1.width, p1.getHeight, .block, false⟩)
      q1.rect.length f1.width f1.height
    have a2 := q1.short
    obtain ⟨s', e4, h4⟩ := pushRow_safe (b := b) (s := { s.1 with page := p2 }) (row := row) ⟨q2, hs.calm, fun _ => f2⟩ (by rw [y3, h3]; dsimp only; omega)
    refine ⟨(s', s.2), ?_, h4⟩
    simp only [Call.perform, htmlRenderer, renderPage, Canvas.copy, e1, e2, e3, e4, bind, Except.bind]
  case graphics rs =>
    dsimp only at hw
    unfold htmlRenderer Call.perform renderGraphics
    dsimp only
    by_cases hc : c.pageMode.enabled = true
    · rw [if_pos hc] at hw
      obtain ⟨p, e, q⟩ := ImageRenderer.putRects_small pageSides (color := c.text.color) (rs := rs) hs.page (by rw [← hpage hc]; exact hw)
      simp only [if_pos hc, e, bind, Except.bind, pure, Except.pure]
      exact ⟨_, rfl, q, hs.calm, fun hb => (hs.sized hb).kept (ImageRenderer.putRects_kept e)⟩
    · rw [if_neg hc] at hw
      obtain ⟨row, e1, l1⟩ := graphicsToSvg_defined hw
      obtain ⟨s', e2, h2⟩ := pushRow_safe hs l1
      simp only [if_neg hc, e1, e2, bind, Except.bind]
      exact ⟨_, rfl, h2⟩
  case image i =>
    dsimp only at hw
    unfold htmlRenderer Call.perform renderImage
    dsimp only
    by_cases hc : c.pageMode.enabled = true
    · rw [if_pos hc] at hw
      obtain ⟨h1, h2, h3, h4, h5⟩ := hw
      obtain ⟨p, e, q⟩ := putRenderImg_small pageSides hs.page h1 h2 h3 h4 (by rw [← hpage hc]; exact h5)
      simp only [if_pos hc, e, bind, Except.bind, pure, Except.pure]
      exact ⟨_, rfl, q, hs.calm, fun hb => (hs.sized hb).kept (putRenderImg_kept e)⟩
    · rw [if_neg hc] at hw
      obtain ⟨h1, h2, h3, h4⟩ := hw
      obtain ⟨row, e1, y1, l1⟩ := encodeImage_defined (png := png) h1 h2 h3
      obtain ⟨s', e2, h2⟩ := pushRow_safe hs (row := row) (by omega)
      simp only [if_neg hc, e1, e2, bind, Except.bind]
      exact ⟨_, rfl, h2⟩
  case text l o m j =>
    dsimp only at hw
    unfold htmlRenderer Call.perform renderText
    dsimp only
    by_cases hc : c.pageMode.enabled = true
    · rw [if_pos hc] at hw
      obtain ⟨h1, h2⟩ := hw
      obtain ⟨p, e, q⟩ := ImageRenderer.renderSpans_small (gs := gs) (xo := o) (l := l) pageSides h1 hs.page (fun t ht => ⟨ho t ht, by rw [← hpage hc]; exact h2 t ht⟩)
      simp only [if_pos hc, e, bind, Except.bind, pure, Except.pure]
      exact ⟨_, rfl, q, hs.calm, fun hb => (hs.sized hb).kept (ImageRenderer.renderSpans_kept e)⟩
    · rw [if_neg hc] at hw
      obtain ⟨row, e1, l1⟩ := spansToHtml_defined (mh := m) (cs := c.graphics.renderColors) hw.1 hw.2
      obtain ⟨s', e2, h2⟩ := pushRow_safe hs l1
      simp only [if_neg hc, e1, e2, bind, Except.bind]
      exact ⟨_, rfl, h2⟩

theorem replay_safe {gs : Glyphs} {png : Png} {xs : List (Context × Call)} {b : Bool} {s : HtmlRenderer × List Str} (hs : Safe b s.1)
    (hx : ∀ x ∈ xs, WebWithin x ∧ ∀ t ∈ x.2.spans, Outfit.Span t) (hz : PagesSized b (xs.map (·.2))) : ∃ s', replay (htmlRenderer gs png) xs s = .ok s' := by
  induction xs generalizing s b with
  | nil => exact ⟨s, rfl⟩
  | cons x xs ih =>
    obtain ⟨h2, h3⟩ := hx x (by simp)
    obtain ⟨z1, z2⟩ := hz
    obtain ⟨s1, e1, p1⟩ := perform_safe (gs := gs) (png := png) hs h2 z1 h3
    obtain ⟨s2, e2⟩ := ih p1 (fun y hy => hx y (by simp [hy])) z2
    refine ⟨s2, ?_⟩
    simp only [replay, e1, bind, Except.bind, e2]

end HtmlRenderer
end Thermal
