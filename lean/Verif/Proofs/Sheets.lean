import Verif.Spec.Sheets
import Verif.Proofs.Picture
import Mathlib.Data.List.Forall2
/-
Printing on paper and on pages.
-/
namespace Thermal
open Spec Renderer

theorem overprint_eq : overprint = RGBA.multiply := by
  funext a b
  unfold overprint RGBA.multiply
  rw [mulChan_eq, mulChan_eq, mulChan_eq]
  rfl

/-! ### What a call prints -/

namespace Spec
namespace Medium
variable {S : Type} (M : Medium S)

/-- A filled rectangle. -/
def rect (color : RGBA) (P : S) (r : Rectangle) : S := M.put P (fun _ _ => color) r

/-- An image, its dots given row by row; dots that are not given are transparent.  An image with too many dots is not printed. -/
def image (P : S) (i : Image) : S :=
  let Q := if i.pixels.length ≤ i.w * i.h then M.put P (fun x y => i.pixels.getD (y * i.w + x) RGBA.blank) ⟨i.x, i.y, i.w, i.h⟩ else P
  if i.upsideDown then M.turn Q ⟨i.x, i.y, i.w, i.h⟩ else Q

/-- Characters from `(x, y)` on, one cell after the other; control characters leave their cell as it is. -/
def chars (gs : Canvas.Glyphs) (s : TextSpan) (y : Nat) : Str → Nat → S → S
  | [], _, P => P
  | ch :: rest, x, P =>
    chars gs s y rest (x + s.characterWidth)
      (if (glyphOf gs s ch).control then P else M.put P (cellDot gs s ch) ⟨x, y, s.characterWidth, s.characterHeight⟩)

/-- A piece of text, printed at its place on a line that is `maxHeight` high: the characters, the underline, the strike-through line; all
of it turned over if so wished. -/
def span (gs : Canvas.Glyphs) (xOffset maxHeight : Nat) (P : S) (s : TextSpan) : S :=
  match s.dimensions with
  | none => P
  | some d =>
    let x := d.x + xOffset
    let y := d.y + baselineOf s.font (maxHeight - s.characterHeight)
    let P := M.chars gs s y s.text x P
    let P := if s.underline > 0 then M.rect s.textColor P ⟨x, y + 3 + baselineOf s.font s.characterHeight, d.w, 1⟩ else P
    let P := if s.strikethrough > 0 then M.rect s.textColor P ⟨x, y + s.characterHeight * 2 / 5, d.w, s.strikethrough⟩ else P
    if s.upsideDown then M.turn P ⟨x, y, d.w, d.h⟩ else P

/-- What a call prints. -/
def call (gs : Canvas.Glyphs) (P : S) (color : RGBA) (x : Call) : S :=
  match x with
  | .graphics rs => rs.foldl (M.rect color) P
  | .image i => M.image P i
  | .text l xOffset maxHeight _ => l.foldl (M.span gs xOffset maxHeight) P
  | _ => P

end Medium

/-- What a call does. -/
def Sheets.call (gs : Canvas.Glyphs) (width : Nat) (s : Sheets) (x : Context × Call) : Sheets :=
  match x.2 with
  | .beginRender => ⟨some .blank, .empty, s.done⟩
  | .endRender => ⟨.none, s.page, s.done ++ [(s.paper.getD .blank).fedTo x.1.graphics.renderArea.y]⟩
  | .pageBegin => { s with page := .empty }
  | .pageAreaChanged r w h => { s with page := ((s.page.turned r).widened w).lengthened h }
  | .renderPage =>
    let p := s.page.turned (toDirection x.1.pageMode.direction)
    { s with
      paper := s.paper.map fun P => P.paste width p.dots x.1.graphics.renderArea.x x.1.graphics.renderArea.y p.w p.h
      page := p.turned (Rotation.back (toDirection x.1.pageMode.direction)) }
  | call =>
    if x.1.pageMode.enabled then { s with page := pageMedium.call gs s.page x.1.text.color call }
    else { s with paper := s.paper.map fun P => (paperRoll width).call gs P x.1.text.color call }

end Spec

namespace Canvas

/-- Drawing on a canvas does what printing on the medium means. -/
structure Prints {S : Type} (V : Canvas → S → Prop) (M : Medium S) : Prop where
  put : ∀ {c c' : Canvas} {P : S} {x y w h : Nat} {px : List RGBA} {b : Bool} {g : Nat → Nat → RGBA}, V c P → px.length ≤ w * h →
    (∀ X Y, X < w → Y < h → px.getD (Y * w + X) RGBA.blank = g X Y) → c.putPixels x y w h px true = .ok (c', b) → V c' (M.put P g ⟨x, y, w, h⟩)
  tooMany : ∀ {c c' : Canvas} {P : S} {x y w h : Nat} {px : List RGBA} {b : Bool}, V c P → w * h < px.length →
    c.putPixels x y w h px true = .ok (c', b) → V c' P
  turn : ∀ {c c' : Canvas} {P : S} {x y w h : Nat}, V c P → c.flipPixels x y w h = .ok c' → V c' (M.turn P ⟨x, y, w, h⟩)
  calm : ∀ {c : Canvas} {P : S}, V c P → c.debug = {}

namespace Prints
variable {S : Type} {V : Canvas → S → Prop} {M : Medium S} (H : Prints V M)
include H

theorem shown {c c' : Canvas} {P : S} {x y w h : Nat} {px : List RGBA} {b : Bool} {g : Nat → Nat → RGBA} (hv : V c P) (hs : Shows px w h g)
    (hp : c.putPixels x y w h px true = .ok (c', b)) : V c' (M.put P g ⟨x, y, w, h⟩) := by
  refine H.put hv (Nat.le_of_eq hs.1) (fun X Y hX hY => ?_) hp
  rw [List.getD_eq_getElem?_getD, hs.2 X Y hX hY]; rfl

theorem rect {c c' : Canvas} {P : S} {x y w h : Nat} {color : RGBA} (hv : V c P) (hp : c.drawRect x y w h color true = .ok c') :
    V c' (M.rect color P ⟨x, y, w, h⟩) := by
  simp only [drawRect, bind_ok, mulU32_ok, pure_ok] at hp
  obtain ⟨_, ⟨_, rfl⟩, ⟨c1, b⟩, h1, rfl⟩ := hp
  refine H.shown hv ⟨by simp, fun X Y hX hY => ?_⟩ h1
  have : Y * w + X < w * h := rm_lt hX hY
  rw [List.getElem?_replicate, if_pos this]

theorem image {c c' : Canvas} {i : Image} {P : S} (hv : V c P) (hp : c.putRenderImg i = .ok c') : V c' (M.image P i) := by
  simp only [putRenderImg, bind_ok] at hp
  obtain ⟨px, h0, ⟨c1, b⟩, h1, hp⟩ := hp
  unfold debugImage at h0
  rw [H.calm hv] at h0
  simp only [Bool.false_eq_true, if_false, ok_ok] at h0
  subst h0
  have v1 : V c1 (if i.pixels.length ≤ i.w * i.h then M.put P (fun x y => i.pixels.getD (y * i.w + x) RGBA.blank) ⟨i.x, i.y, i.w, i.h⟩ else P) := by
    by_cases hl : i.pixels.length ≤ i.w * i.h
    · rw [if_pos hl]; exact H.put hv hl (fun _ _ _ _ => rfl) h1
    · rw [if_neg hl]; exact H.tooMany hv (by omega) h1
  dsimp only at hp
  unfold Medium.image
  dsimp only
  cases hu : i.upsideDown with
  | true =>
    rw [hu] at hp
    rw [if_pos rfl] at hp
    rw [if_pos rfl]
    exact H.turn v1 hp
  | false =>
    rw [hu] at hp
    simp only [Bool.false_eq_true, if_false, pure_ok] at hp ⊢
    subst hp
    exact v1

theorem chars {gs : Glyphs} {s : TextSpan} (hs : Outfit.Span s) {y : Nat} {text : Str} {x : Nat} {c c' : Canvas} {P : S}
    (hv : V c P) (h : renderChars gs s y text x c = .ok c') : V c' (M.chars gs s y text x P) := by
  induction text generalizing x c P with
  | nil => simp only [renderChars, ok_ok] at h; subst h; exact hv
  | cons ch rest ih =>
    simp only [renderChars, bind_ok] at h
    obtain ⟨b, hb, h⟩ := h
    obtain ⟨m1, m2, m3, m4⟩ := hs.measure
    have hsh := renderChar_shows (fun _ => m3) m4 hb
    rw [if_neg (by simp; omega)] at h
    simp only [bind_ok, addU32_ok] at h
    obtain ⟨c1, h1, _, ⟨_, rfl⟩, h2⟩ := h
    refine ih ?_ h2
    rcases b with _ | ⟨px, w, hh⟩
    · dsimp only at hsh
      simp only [putChar, ok_ok] at h1
      subst h1
      rw [if_pos hsh]; exact hv
    · dsimp only at hsh
      obtain ⟨e0, rfl, rfl, e3⟩ := hsh
      simp only [putChar, bind_ok, pure_ok, debugText] at h1
      obtain ⟨px', hp, ⟨c2, b⟩, h1, rfl⟩ := h1
      rw [H.calm hv] at hp
      simp only [Bool.false_eq_true, if_false, ok_ok] at hp
      subst hp
      rw [if_neg (by rw [e0]; exact Bool.false_ne_true)]
      exact H.shown hv (e3 ⟨by omega, by omega⟩) h1

theorem span {gs : Glyphs} {s : TextSpan} (hs : Outfit.Span s) {xo mh : Nat} (hm : mh ≤ 255) {c c' : Canvas} {P : S}
    (hv : V c P) (h : renderSpan gs c xo mh s = .ok c') : V c' (M.span gs xo mh P s) := by
  unfold renderSpan at h
  unfold Medium.span
  cases hd : s.dimensions with
  | none =>
    rw [hd] at h
    simp only [ok_ok] at h
    subst h; exact hv
  | some d =>
    rw [hd] at h
    simp only [bind_ok, addU32_ok] at h
    obtain ⟨_, ⟨_, rfl⟩, off, hoff, _, ⟨_, rfl⟩, c1, h1, c2, h2, c3, h3, c4, h4, h5⟩ := h
    obtain ⟨hle, rfl⟩ := spanOffset_eq hm hoff
    have v1 := H.chars hs hv h1
    unfold debugBaseline at h2
    rw [H.calm v1] at h2
    simp only [Bool.false_eq_true, if_false, ok_ok] at h2
    subst h2
    dsimp only
    generalize M.chars gs s (d.y + baselineOf s.font (mh - s.characterHeight)) s.text (d.x + xo) P = P1 at v1 ⊢
    have hb : baseline s.font s.characterHeight = baselineOf s.font s.characterHeight := baseline_eq (by omega)
    have v3 : V c3 (if s.underline > 0 then M.rect s.textColor P1 ⟨d.x + xo, d.y + baselineOf s.font (mh - s.characterHeight) + 3 + baselineOf s.font s.characterHeight, d.w, 1⟩ else P1) := by
      unfold drawUnderline at h3
      split at h3
      · rename_i hu
        simp only [bind_ok, addU32_ok] at h3
        obtain ⟨_, ⟨_, rfl⟩, _, ⟨_, rfl⟩, h3⟩ := h3
        rw [if_pos hu, ← hb]
        exact H.rect v1 h3
      · rename_i hu
        rw [if_neg hu]
        rw [ok_ok] at h3; subst h3; exact v1
    generalize (if s.underline > 0 then M.rect s.textColor P1 ⟨d.x + xo, d.y + baselineOf s.font (mh - s.characterHeight) + 3 + baselineOf s.font s.characterHeight, d.w, 1⟩ else P1) = P2 at v3 ⊢
    have v4 : V c4 (if s.strikethrough > 0 then M.rect s.textColor P2 ⟨d.x + xo, d.y + baselineOf s.font (mh - s.characterHeight) + s.characterHeight * 2 / 5, d.w, s.strikethrough⟩ else P2) := by
      unfold drawStrike at h4
      split at h4
      · rename_i hu
        simp only [bind_ok, addU32_ok] at h4
        obtain ⟨_, ⟨_, rfl⟩, h4⟩ := h4
        rw [F32.strike_exact (by omega)] at h4
        rw [if_pos hu]
        exact H.rect v3 h4
      · rename_i hu
        rw [if_neg hu]
        rw [ok_ok] at h4; subst h4; exact v3
    generalize (if s.strikethrough > 0 then M.rect s.textColor P2 ⟨d.x + xo, d.y + baselineOf s.font (mh - s.characterHeight) + s.characterHeight * 2 / 5, d.w, s.strikethrough⟩ else P2) = P3 at v4 ⊢
    split at h5
    · rename_i hu
      rw [if_pos hu]
      exact H.turn v4 h5
    · rename_i hu
      rw [if_neg hu]
      rw [pure_ok] at h5; subst h5
      exact v4

theorem rects {color : RGBA} {rs : List Rectangle} {c c' : Canvas} {P : S} (hv : V c P) (h : ImageRenderer.putRects color rs c = .ok c') :
    V c' (rs.foldl (M.rect color) P) := by
  induction rs generalizing c P with
  | nil => simp only [ImageRenderer.putRects, ok_ok] at h; subst h; exact hv
  | cons r rs ih =>
    simp only [ImageRenderer.putRects, bind_ok, putRect] at h
    obtain ⟨c1, h1, h2⟩ := h
    exact ih (H.rect hv h1) h2

theorem spans {gs : Glyphs} {ss : List TextSpan} (hs : ∀ s ∈ ss, Outfit.Span s) {xo mh : Nat} (hm : mh ≤ 255) {c c' : Canvas} {P : S}
    (hv : V c P) (h : ImageRenderer.renderSpans gs xo mh ss c = .ok c') : V c' (ss.foldl (M.span gs xo mh) P) := by
  induction ss generalizing c P with
  | nil => simp only [ImageRenderer.renderSpans, ok_ok] at h; subst h; exact hv
  | cons r rs ih =>
    simp only [ImageRenderer.renderSpans, bind_ok] at h
    obtain ⟨c1, h1, h2⟩ := h
    exact ih (fun s hm => hs s (by simp [hm])) (H.span (hs r (by simp)) hm hv h1) h2

end Prints

/-! ### Paper -/

/-- The canvas is paper of width `w` that shows the roll. -/
structure PaperAt (w : Nat) (c : Canvas) (R : Roll) : Prop where
  width : c.width = w
  view : View c R.dots
  length : 0 < w → c.getHeight = R.reach

/-- How long the canvas is after drawing. -/
theorem putPixels_length {c c' : Canvas} {x y w h : Nat} {px : List RGBA} {mul b : Bool} {P : Plane} (hv : View c P) (hl : px.length ≤ w * h)
    (hp : c.putPixels x y w h px mul = .ok (c', b)) : c'.getHeight = if x < c.width then max c.getHeight (y + h) else c.getHeight := by
  cases b with
  | false =>
    have hp' := hp
    obtain ⟨m, rfl⟩ := putPixels_false hp
    rw [if_neg]
    · rfl
    · intro hx
      simp only [putPixels, bind_ok, mulU32_ok] at hp'
      obtain ⟨_, ⟨_, rfl⟩, hp'⟩ := hp'
      rw [if_neg (by omega)] at hp'
      split at hp'
      · rename_i hc
        rw [hv.grows] at hc
        simp only [Bool.or_eq_true, decide_eq_true_eq, Bool.not_true, Bool.and_false, Bool.false_eq_true, or_false] at hc
        omega
      · simp only [bind_ok, pure_ok] at hp'
        obtain ⟨_, _, _, _, _, _, _, _, hp'⟩ := hp'
        exact absurd (congrArg Prod.snd hp') (by simp)
  | true =>
    obtain ⟨fw, fh, hput⟩ := putPixels_true hv.rect hp
    have i0 := hput.inside
    have hw : c'.width = c.width := by rw [hput.same]
    rw [if_pos i0, getHeight_of (by omega) (by rw [hw]; exact hput.rows), hput.grow hv.grows]

theorem putPixels_refused {c c' : Canvas} {x y w h : Nat} {px : List RGBA} {mul b : Bool} (hl : w * h < px.length)
    (hp : c.putPixels x y w h px mul = .ok (c', b)) : c'.getHeight = c.getHeight := by
  simp only [putPixels, bind_ok, mulU32_ok] at hp
  obtain ⟨_, ⟨_, rfl⟩, hp⟩ := hp
  rw [if_pos hl, pure_ok] at hp
  simp only [Prod.mk.injEq] at hp
  rw [← hp.1]; rfl

theorem flipPixels_length {c c' : Canvas} {x y w h : Nat} {P : Plane} (hv : View c P) (h0 : 0 < c.width) (hp : c.flipPixels x y w h = .ok c') :
    c'.getHeight = if x + w ≤ c.width then max c.getHeight (y + h) else c.getHeight := by
  simp only [flipPixels, bind_ok, addU32_ok] at hp
  obtain ⟨_, ⟨_, rfl⟩, hp⟩ := hp
  split at hp
  · rw [pure_ok] at hp
    rw [if_neg (by omega), hp]
  · simp only [bind_ok, addU32_ok, mulU32_ok, pure_ok] at hp
    obtain ⟨_, ⟨_, rfl⟩, c1, h1, _, _, sub, h2, sub2, h3, ⟨c2, b⟩, h4, rfl⟩ := hp
    rw [if_pos (by omega)]
    obtain ⟨s1, s2, _⟩ := expandToHeight_shows hv.rect.shows h1
    have hw1 : c1.width = c.width := by rw [s1]
    have e1 : c1.getHeight = max c.getHeight (y + h) := getHeight_of (by omega) (by rw [hw1]; exact (s2 h0).1)
    have v1 := expandToHeight_view hv h1
    by_cases hl : sub2.length ≤ w * h
    · rw [putPixels_length v1 hl h4, e1]
      split
      · omega
      · rfl
    · rw [putPixels_refused (by omega) h4, e1]

theorem paper_prints (w : Nat) : Prints (PaperAt w) (paperRoll w) where
  put := by
    intro c c' P x y w h px b g hv hl hg hp
    refine ⟨(putPixels_kept hp).width.trans hv.1, (putPixels_view hv.2 hp).congr fun X Y _ => ?_, fun h0 => ?_⟩
    rotate_left
    · rw [putPixels_length hv.2 hl hp, hv.1, hv.3 h0]; rfl
    show _ = drawn overprint P.dots g x y w h X Y
    rw [overprint_eq]
    unfold drawn
    by_cases hr : inRect x y w h X Y
    · rw [if_pos ⟨hl, hr⟩, if_pos hr]
      obtain ⟨h1, h2, h3, h4⟩ := hr
      rw [← hg (X - x) (Y - y) (by omega) (by omega), List.getD_eq_getElem?_getD]
      cases px[(Y - y) * w + (X - x)]? with
      | none => rfl
      | some p => rfl
    · rw [if_neg (fun h => hr h.2), if_neg hr]
  tooMany := by
    intro c c' P x y w h px b hv hl hp
    refine ⟨(putPixels_kept hp).width.trans hv.1, (putPixels_view hv.2 hp).congr fun X Y _ => ?_, fun h0 => ?_⟩
    · rw [if_neg (by omega)]
    · rw [putPixels_refused hl hp, hv.3 h0]
  turn := by
    intro c c' P x y w' h hv hp
    have := flipPixels_view hv.2 hp
    rw [hv.1] at this
    show PaperAt _ _ (if _ then _ else _)
    split
    · rename_i hf
      rw [if_pos hf] at this
      exact ⟨(flipPixels_kept hp).width.trans hv.1, this, fun h0 => by
        rw [flipPixels_length hv.2 (by rw [hv.1]; exact h0) hp, hv.1, if_pos hf, hv.3 h0]⟩
    · rename_i hf
      rw [if_neg hf] at this
      exact ⟨(flipPixels_kept hp).width.trans hv.1, this, fun h0 => by
        rw [flipPixels_length hv.2 (by rw [hv.1]; exact h0) hp, hv.1, if_neg hf, hv.3 h0]⟩
  calm := fun hv => hv.2.calm

/-! ### Pages -/

/-- The canvas is the page. -/
structure PageAt (c : Canvas) (p : Page) : Prop where
  rect : c.Rect
  solid : c.Opaque
  paper : c.paperColor = ⟨255, 255, 255, 255⟩
  locked : c.autoGrow = false
  calm : c.debug = {}
  width : c.width = p.w
  height : c.getHeight = p.h
  dots : ∀ x y, x < p.w → y < p.h → c.dot x y = p.dots x y

theorem PageAt.sheet {c : Canvas} {p : Page} (h : PageAt c p) {x y : Nat} (hx : x < p.w) : onPaper c.dot c.getHeight c.paperColor x y = p.sheet x y := by
  unfold onPaper Page.sheet
  rw [h.height, h.paper]
  split
  · exact h.dots x y hx (by assumption)
  · rfl

/-- A page after drawing. -/
theorem PageAt.of_kept {c c' : Canvas} {p q : Page} (h : PageAt c p) (k : Kept c c') (hw : q.w = p.w) (hh : c'.getHeight = q.h)
    (hd : ∀ x y, x < p.w → y < q.h → c'.dot x y = q.dots x y) : PageAt c' q :=
  ⟨k.rect h.rect, k.ink h.rect h.solid (by rw [h.paper]), k.paper.trans h.paper, k.autoGrow.trans h.locked, k.debug.trans h.calm,
    by rw [k.width, h.width, hw], hh, fun x y hx hy => hd x y (by omega) hy⟩

theorem PageAt.errors {c : Canvas} {p : Page} (h : PageAt c p) (e : List Str) : PageAt { c with errors := e } p :=
  ⟨h.rect, h.solid, h.paper, h.locked, h.calm, h.width, h.height, h.dots⟩

theorem putLoop_length {op : RGBA → RGBA → RGBA} {W x fw : Nat} {px : List RGBA} {cx cy : Nat} {bytes r : List RGBA}
    (h : putLoop op W x fw px cx cy bytes = .ok r) : r.length = bytes.length := by
  induction px generalizing cx cy bytes with
  | nil => simp only [putLoop, ok_ok] at h; rw [h]
  | cons p rest ih =>
    simp only [putLoop, bind_ok] at h
    obtain ⟨_, _, i, _, old, _, b, hb, _, _, _, _, h⟩ := h
    have hl : b.length = bytes.length := by
      rw [(setIdx_eq hb).2]; simp
    split at h
    all_goals
      simp only [bind_ok] at h
      obtain ⟨_, _, h⟩ := h
      rw [ih h, hl]

/-- Pixels that are not cut off make the canvas as long as they need. -/
theorem putPixels_uncut {c c' : Canvas} {x y w h : Nat} {px : List RGBA} {mul : Bool} (hr : c.Rect) (hg : c.autoGrow = false)
    (h1 : x + w ≤ c.width) (h2 : y + w ≤ c.getHeight) (hp : c.putPixels x y w h px mul = .ok (c', true)) :
    c'.getHeight = max c.getHeight (y + h) := by
  have hput := putPixels_true hr hp
  obtain ⟨fw, fh, hput⟩ := hput
  have hw := hput.inside
  have hl : c'.bytes.length = c.width * max c.getHeight (y + h) := by
    simp only [putPixels, bind_ok, mulU32_ok] at hp
    obtain ⟨_, ⟨_, rfl⟩, hp⟩ := hp
    split at hp
    · rw [pure_ok] at hp; exact absurd (congrArg Prod.snd hp) (by simp)
    · split at hp
      · rw [pure_ok] at hp; exact absurd (congrArg Prod.snd hp) (by simp)
      · simp only [bind_ok, addU32_ok, pure_ok, fitPixels, needsCropH, hg, Bool.false_eq_true, if_false] at hp
        obtain ⟨⟨fw, fh, q⟩, ⟨_, ⟨_, rfl⟩, _, ⟨_, ⟨_, rfl⟩, rfl⟩, hf⟩, _, ⟨_, rfl⟩, c1, e1, bytes, e2, hp⟩ := hp
        rw [if_neg (by simp; omega), pure_ok] at hf
        simp only [Prod.mk.injEq] at hf
        obtain ⟨rfl, rfl, rfl⟩ := hf
        obtain ⟨_, s2, _⟩ := expandToHeight_shows hr.shows e1
        have hc' := (congrArg Prod.fst hp).symm
        dsimp only at hc' e2 s2
        rw [hc']
        dsimp only
        rw [putLoop_length e2, (s2 (by omega)).1]
  have hw' : c'.width = c.width := by rw [hput.same]
  exact getHeight_of (by omega) (by rw [hw']; exact hl)

theorem page_prints : Prints PageAt pageMedium where
  put := by
    intro c c' p x y w h px b g hv hl hg hp
    show PageAt c' (p.put g ⟨x, y, w, h⟩)
    unfold Page.put
    dsimp only
    cases b with
    | false =>
      have hp' := hp
      obtain ⟨m, rfl⟩ := putPixels_false hp
      rw [if_neg]
      · exact hv.errors _
      · rintro ⟨h1, h2⟩
        simp only [putPixels, bind_ok, mulU32_ok] at hp'
        obtain ⟨_, ⟨_, rfl⟩, hp'⟩ := hp'
        rw [if_neg (by omega)] at hp'
        split at hp'
        · rename_i hc
          rw [hv.locked, hv.width, hv.height] at hc
          simp only [Bool.or_eq_true, decide_eq_true_eq, Bool.not_false, Bool.and_true] at hc
          omega
        · simp only [bind_ok, pure_ok] at hp'
          obtain ⟨_, _, _, _, _, _, _, _, hp'⟩ := hp'
          exact absurd (congrArg Prod.snd hp') (by simp)
    | true =>
      obtain ⟨fw, fh, hput⟩ := putPixels_true hv.rect hp
      have i0 := hput.inside
      have i1 := hput.inside
      have i2 := hput.lower hv.locked
      rw [hv.width] at i1
      rw [hv.height] at i2
      rw [if_pos ⟨i1, i2⟩]
      have hw : c'.width = c.width := by rw [hput.same]
      have hh : c'.getHeight = max c.getHeight (y + fh) := getHeight_of (by omega) (by rw [hw]; exact hput.rows)
      have hgrow : c'.getHeight = if x + w ≤ p.w ∧ y + w ≤ p.h then max p.h (y + h) else p.h := by
        split
        · rename_i hc
          rw [putPixels_uncut hv.rect hv.locked (by rw [hv.width]; exact hc.1) (by rw [hv.height]; exact hc.2) hp, hv.height]
        · rename_i hc
          have := hput.locked hv.locked (by rw [hv.width, hv.height]; omega)
          rw [hh, hv.height]
          rw [hv.height] at this
          omega
      have hfh : ∀ Y, Y < c'.getHeight → (Y < y + fh ↔ Y < y + h) := by
        intro Y hY
        rw [hh] at hY
        have := hput.either hv.locked
        have := hput.fhle
        omega
      refine hv.of_kept hput.kept rfl hgrow fun X Y hX hY => ?_
      dsimp only at hY ⊢
      rw [← hgrow] at hY
      have hd := hput.dots X Y (by rw [hv.width]; exact hX) (by rw [← hh]; exact hY)
      have hfY := hfh Y hY
      have hfw := hput.columns
      have hin : inRect x y fw fh X Y ↔ inRect x y w h X Y := by
        rw [hv.width] at hfw
        unfold inRect; omega
      unfold Canvas.dot
      rw [List.getD_eq_getElem?_getD, hw, hd, Option.getD_some]
      dsimp only
      rw [hv.sheet hX]
      unfold drawn
      by_cases hr : inRect x y w h X Y
      · rw [if_pos (hin.2 hr), if_pos hr]
        obtain ⟨h1, h2, h3, h4⟩ := hr
        rw [← hg (X - x) (Y - y) (by omega) (by omega), List.getD_eq_getElem?_getD]
        cases px[(Y - y) * w + (X - x)]? with
        | none => rfl
        | some p => rw [overprint_eq]; rfl
      · rw [if_neg (fun h => hr (hin.1 h)), if_neg hr]
  tooMany := by
    intro c c' p x y w h px b hv hl hp
    cases b with
    | false => obtain ⟨m, rfl⟩ := putPixels_false hp; exact hv.errors _
    | true =>
      obtain ⟨fw, fh, hput⟩ := putPixels_true hv.rect hp
      exact absurd hput.length (by omega)
  turn := by
    intro c c' p x y w h hv hp
    show PageAt c' (p.turnOver ⟨x, y, w, h⟩)
    unfold Page.turnOver
    dsimp only
    by_cases hfit : x + w ≤ p.w ∧ 0 < p.w
    · rw [if_pos hfit]
      have hpos : 0 < c.width := by rw [hv.width]; exact hfit.2
      by_cases h0 : 0 < w ∧ 0 < h
      · obtain ⟨e, s⟩ := flipPixels_get hv.rect hv.solid (by rw [hv.paper]) h0.1 h0.2 (by rw [hv.width]; exact hfit.1) hp
        have hw : c'.width = c.width := by rw [e]
        have hh : c'.getHeight = max c.getHeight (y + h) := getHeight_of (by omega) (by rw [hw]; exact s.1)
        refine hv.of_kept (flipPixels_kept hp) rfl (by rw [hh, hv.height]) fun X Y hX hY => ?_
        dsimp only at hY ⊢
        rw [dot_of_shows hw s (by rw [hv.width]; exact hX) (by rw [hv.height]; exact hY)]
        unfold flipped
        rw [hv.sheet hX, hv.sheet hX]
      · simp only [flipPixels, bind_ok, addU32_ok] at hp
        obtain ⟨_, ⟨_, rfl⟩, hp⟩ := hp
        rw [if_neg (by rw [hv.width]; omega)] at hp
        simp only [bind_ok, addU32_ok, mulU32_ok, pure_ok] at hp
        obtain ⟨_, ⟨_, rfl⟩, c1, h1, _, _, sub, h2, sub2, h3, ⟨c2, b⟩, h4, rfl⟩ := hp
        have k1 := expandToHeight_kept h1
        obtain ⟨s1, s2, s3⟩ := expandToHeight_shows hv.rect.shows h1
        have s2 := s2 hpos
        have hw1 : c1.width = c.width := by rw [s1]
        have hh1 : c1.getHeight = max c.getHeight (y + h) := getHeight_of (by omega) (by rw [hw1]; exact s2.1)
        have v1 : PageAt c1 ⟨p.w, max p.h (y + h), flipped p.sheet x y w h⟩ := by
          refine hv.of_kept k1 rfl (by rw [hh1, hv.height]) fun X Y hX hY => ?_
          dsimp only at hY ⊢
          rw [dot_of_shows hw1 s2 (by rw [hv.width]; exact hX) (by rw [hv.height]; exact hY)]
          unfold flipped
          rw [if_neg (by unfold inRect; omega), hv.sheet hX]
        dsimp only
        cases b with
        | false => obtain ⟨m, rfl⟩ := putPixels_false h4; exact v1.errors _
        | true =>
          obtain ⟨fw, fh, hput⟩ := putPixels_true s3 h4
          have hw2 : c2.width = c1.width := by rw [hput.same]
          have hh2 : c2.getHeight = max c1.getHeight (y + fh) := getHeight_of (by omega) (by rw [hw2]; exact hput.rows)
          have := hput.fhle
          refine v1.of_kept hput.kept rfl (by rw [hh2, hh1, hv.height]; dsimp only; omega) fun X Y hX hY => ?_
          dsimp only at hX hY ⊢
          have hd := hput.dots X Y (by rw [hw1, hv.width]; exact hX) (by rw [hh1, hv.height]; omega)
          unfold Canvas.dot
          rw [List.getD_eq_getElem?_getD, hw2, hd, Option.getD_some]
          dsimp only
          rw [if_neg (by have := hput.columns; unfold inRect; omega), v1.sheet hX]
          unfold Page.sheet
          rw [if_pos hY]
    · rw [if_neg hfit]
      simp only [flipPixels, bind_ok, addU32_ok] at hp
      obtain ⟨_, ⟨_, rfl⟩, hp⟩ := hp
      by_cases hc : x + w > c.width
      · rw [if_pos hc, pure_ok] at hp
        subst hp; exact hv
      · rw [if_neg hc] at hp
        rw [hv.width] at hc
        simp only [bind_ok, addU32_ok, mulU32_ok, pure_ok] at hp
        obtain ⟨_, ⟨_, rfl⟩, c1, h1, _, _, sub, h2, sub2, h3, ⟨c2, b⟩, h4, rfl⟩ := hp
        have k := (expandToHeight_kept h1).trans (putPixels_kept h4)
        have hp0 : p.w = 0 := by omega
        refine hv.of_kept k rfl ?_ fun X Y hX _ => by omega
        have e1 : c2.getHeight = 0 := by unfold getHeight; rw [if_pos (by rw [k.width, hv.width]; exact hp0)]
        have e2 : c.getHeight = 0 := by unfold getHeight; rw [if_pos (by rw [hv.width]; exact hp0)]
        dsimp only
        rw [e1, ← hv.height, e2]
  calm := fun hv => hv.calm

/-! ### Turning and enlarging pages -/

theorem opaque_of_dots {px : List RGBA} {w h : Nat} {f : Nat → Nat → RGBA} (hs : Shows px w h f) (hf : ∀ x y, x < w → y < h → (f x y).a = 255) :
    ∀ p ∈ px, p.a = 255 := by
  intro p hp
  obtain ⟨i, hi, rfl⟩ := List.getElem_of_mem hp
  have hl := hs.1
  have hw : 0 < w := by
    rcases Nat.eq_zero_or_pos w with h0 | h0
    · rw [h0] at hl; simp at hl; rw [hl] at hi; simp at hi
    · exact h0
  have hx : i % w < w := Nat.mod_lt _ hw
  have hy : i / w < h := by
    rw [Nat.div_lt_iff_lt_mul hw, Nat.mul_comm]; omega
  have := hs.2 (i % w) (i / w) hx hy
  rw [show i / w * w + i % w = i by rw [Nat.mul_comm]; exact Nat.div_add_mod i w, List.getElem?_eq_getElem hi] at this
  rw [Option.some.inj this]
  exact hf _ _ hx hy

theorem PageAt.opaque {c : Canvas} {p : Page} (h : PageAt c p) {x y : Nat} (hx : x < c.width) (hy : y < c.getHeight) : (c.dot x y).a = 255 := by
  have := onPaper_opaque h.rect h.solid (by rw [h.paper]) (X := x) (Y := y) hx
  unfold onPaper at this
  rwa [if_pos hy] at this

/-- A canvas with other dots and another width. -/
theorem PageAt.of_shows {c : Canvas} {p q : Page} {px : List RGBA} {w h : Nat} {f : Nat → Nat → RGBA} (hv : PageAt c p) (hs : Shows px w h f)
    (hw : q.w = w) (hh : q.h = if w = 0 then 0 else h) (ho : ∀ x y, x < w → y < h → (f x y).a = 255)
    (hd : ∀ x y, x < w → y < h → f x y = q.dots x y) :
    PageAt { c with
      bytes := px
      width := w } q := by
  have hH : Canvas.getHeight { c with
      bytes := px
      width := w } = q.h := by
    rw [hh]
    by_cases h0 : w = 0
    · unfold getHeight; simp [h0]
    · rw [if_neg h0]; exact getHeight_of (by dsimp only; omega) hs.1
  refine ⟨⟨h, hs.1⟩, opaque_of_dots hs ho, hv.paper, hv.locked, hv.calm, hw.symm, hH, fun x y hx hy => ?_⟩
  have hy' : y < h := by rw [hh] at hy; split at hy <;> omega
  have hx' : x < w := by omega
  rw [dot_of_shows rfl hs hx' hy']
  exact hd x y hx' hy'

theorem rotate_page {c c' : Canvas} {p : Page} {r : Rotation} (hv : PageAt c p) (h : ImageRenderer.rotate r c = .ok c') : PageAt c' (p.turned r) := by
  cases r with
  | R0 => simp only [ImageRenderer.rotate, ok_ok] at h; subst h; exact hv
  | R90 =>
    obtain ⟨px, e, s⟩ := rotate90_shows hv.rect
    simp only [ImageRenderer.rotate, e, ok_ok] at h
    subst h
    refine hv.of_shows s hv.height.symm (by simp only [Page.turned, hv.height, hv.width]) (fun x y hx hy => hv.opaque hy (by omega)) fun x y hx hy => ?_
    simp only [Page.turned]
    rw [hv.height] at hx ⊢
    rw [hv.width] at hy
    exact hv.dots _ _ hy (by omega)
  | R180 =>
    obtain ⟨px, e, s⟩ := rotate180_shows hv.rect
    simp only [ImageRenderer.rotate, e, ok_ok] at h
    subst h
    have := hv.of_shows (q := p.turned .R180) s hv.width.symm (by
      simp only [Page.turned]
      rw [← hv.height]
      unfold getHeight
      split <;> rfl) (fun x y hx hy => hv.opaque (by omega) (by omega)) fun x y hx hy => by
        simp only [Page.turned]
        rw [hv.height] at hy ⊢
        rw [hv.width] at hx ⊢
        exact hv.dots _ _ (by omega) (by omega)
    exact this
  | R270 =>
    obtain ⟨px, e, s⟩ := rotate270_shows hv.rect
    simp only [ImageRenderer.rotate, e, ok_ok] at h
    subst h
    refine hv.of_shows s hv.height.symm (by simp only [Page.turned, hv.height, hv.width]) (fun x y hx hy => hv.opaque (by omega) hx) fun x y hx hy => ?_
    simp only [Page.turned]
    rw [hv.height] at hx
    rw [hv.width] at hy ⊢
    exact hv.dots _ _ (by omega) hx

theorem PageAt.noWidth {c : Canvas} {p : Page} (hv : PageAt c p) (h : p.w = 0) : p.h = 0 := by
  rw [← hv.height]
  unfold getHeight
  rw [if_pos (by rw [hv.width]; exact h)]

theorem growWidth_page {c c' : Canvas} {p : Page} {w : Nat} (hv : PageAt c p) (h : ImageRenderer.growWidth c w = .ok c') : PageAt c' (p.widened w) := by
  unfold ImageRenderer.growWidth at h
  unfold Page.widened
  rw [hv.width] at h
  by_cases hw : p.w < w
  · rw [if_pos hw] at h
    rw [if_pos hw]
    obtain ⟨px, e, s⟩ := expandToWidth_shows (n := w) hv.rect (by rw [hv.width]; omega)
    rw [e, ok_ok] at h
    subst h
    refine hv.of_shows s rfl (by rw [if_neg (by omega)]; exact hv.height.symm) (fun x y hx hy => ?_) fun x y hx hy => ?_
    · unfold centred
      split
      · exact hv.opaque (by omega) hy
      · rw [hv.paper]
    · unfold centred
      dsimp only
      rw [hv.width]
      split
      · exact hv.dots _ _ (by omega) (by rw [← hv.height]; exact hy)
      · exact hv.paper
  · rw [if_neg hw, ok_ok] at h
    rw [if_neg hw]
    subst h; exact hv

theorem growHeight_page {c c' : Canvas} {p : Page} {h : Nat} (hv : PageAt c p) (hp : ImageRenderer.growHeight c h = .ok c') : PageAt c' (p.lengthened h) := by
  unfold ImageRenderer.growHeight at hp
  unfold Page.lengthened
  rw [hv.height] at hp
  by_cases hh : p.h < h
  · rw [if_pos hh] at hp
    obtain ⟨s1, s2, s3⟩ := expandToHeight_shows hv.rect.shows hp
    have hw : c'.width = c.width := by rw [s1]
    by_cases h0 : 0 < p.w
    · rw [if_pos ⟨hh, h0⟩]
      have s2 := s2 (by rw [hv.width]; exact h0)
      have hm : max c.getHeight h = h := by rw [hv.height]; omega
      refine hv.of_kept (expandToHeight_kept hp) rfl ?_ fun x y hx hy => ?_
      · rw [getHeight_of (by rw [hw, hv.width]; exact h0) (by rw [hw]; exact s2.1), hm]
      · dsimp only at hy ⊢
        rw [dot_of_shows hw s2 (by rw [hv.width]; exact hx) (by rw [hm]; exact hy), hv.sheet hx]
    · rw [if_neg (by omega)]
      refine hv.of_kept (expandToHeight_kept hp) rfl ?_ fun x y hx hy => by omega
      rw [hv.noWidth (by omega)]
      unfold getHeight
      rw [if_pos (by rw [hw, hv.width]; omega)]
  · rw [if_neg hh, ok_ok] at hp
    rw [if_neg (by omega)]
    subst hp; exact hv

/-- No page. -/
theorem PageAt.cleared {c : Canvas} (h1 : c.paperColor = ⟨255, 255, 255, 255⟩) (h2 : c.autoGrow = false) (h3 : c.debug = {}) :
    PageAt (c.setWidth 0) .empty :=
  ⟨⟨0, rfl⟩, by simp [Opaque, setWidth], h1, h2, h3, rfl, rfl, fun x y hx => absurd hx (Nat.not_lt_zero _)⟩

/-- A page is put on the paper as it is. -/
theorem putPage_view {c c' q : Canvas} {x y : Nat} {b : Bool} {P : Plane} {p : Page} (hv : View c P) (hq : PageAt q p)
    (hp : c.putPixels x y q.width q.getHeight q.bytes false = .ok (c', b)) : View c' (drawn (fun _ new => new) P p.dots x y p.w p.h) := by
  refine (putPixels_view hv hp).congr fun X Y _ => ?_
  have hs := hq.rect.shows
  unfold drawn
  by_cases hr : inRect x y p.w p.h X Y
  · rw [if_pos ⟨Nat.le_of_eq hs.1, by rw [hq.width, hq.height]; exact hr⟩, if_pos hr]
    obtain ⟨h1, h2, h3, h4⟩ := hr
    rw [hs.2 (X - x) (Y - y) (by rw [hq.width]; omega) (by rw [hq.height]; omega)]
    show combine false _ _ = _
    have ho : (q.dot (X - x) (Y - y)).a = 255 := hq.opaque (by rw [hq.width]; omega) (by rw [hq.height]; omega)
    rw [show combine false (P X Y) (q.dot (X - x) (Y - y)) = q.dot (X - x) (Y - y) from blend_opaque _ _ ho]
    exact hq.dots _ _ (by omega) (by omega)
  · rw [if_neg (fun h => hr (by rw [hq.width, hq.height] at h; exact h.2)), if_neg hr]

end Canvas

namespace ImageRenderer
open Canvas

/-- The state of the image renderer and the state of printing. -/
structure At (s : ImageRenderer × List ReceiptImage) (t : Sheets) : Prop where
  calm : s.1.debug = {}
  paper : match t.paper with
    | some P => PaperAt 609 s.1.paper P
    | none => PaperAt 0 s.1.paper .blank
  page : PageAt s.1.page t.page
  done : List.Forall₂ ShowsSheet s.2 t.done

theorem PaperAt.zero {c : Canvas} {P Q : Roll} (h : PaperAt 0 c P) : PaperAt 0 c Q :=
  ⟨h.1, h.2.congr fun x y hx => by rw [h.1] at hx; omega, fun h => absurd h (Nat.lt_irrefl 0)⟩

theorem toDirection_eq (d : PrintDirection) : directionalRotation d .topLeft2Right = toDirection d := by cases d <;> rfl

theorem back_eq (d : PrintDirection) : directionalRotation .topLeft2Right d = Spec.Rotation.back (toDirection d) := by cases d <;> rfl

theorem endRender_noPaper {s s' : ImageRenderer} {c : Context} {o : ReceiptImage} (hw : s.paper.width = 0) (hr : s.paper.Rect)
    (hp : s.paper.paperColor = ⟨255, 255, 255, 255⟩) (hc : OnPaper c) (h : s.endRender c = .ok (s', o)) :
    ShowsSheet o (Roll.blank.fedTo c.graphics.renderArea.y) := by
  simp only [endRender, bind_ok, pure_ok, hc.paper] at h
  obtain ⟨p1, h1, p2, h2, ⟨p3, w, hh, bytes⟩, h3, h4⟩ := h
  obtain ⟨px, e1, s1⟩ := Canvas.expandToWidth_shows (n := 649) hr (by omega)
  rw [e1, ok_ok] at h1
  have hH : s.paper.getHeight = 0 := by unfold Canvas.getHeight; rw [if_pos hw]
  have hp1w : p1.width = 649 := by rw [← h1]
  have hp1c : p1.paperColor = ⟨255, 255, 255, 255⟩ := by rw [← h1]; exact hp
  rw [hH] at s1
  have s1' : Shows p1.bytes p1.width 0 white := by
    rw [hp1w, ← h1]
    exact ⟨s1.1, fun x y _ hy => absurd hy (Nat.not_lt_zero _)⟩
  obtain ⟨f1, f2, f3⟩ := Canvas.expandToHeight_shows s1' h2
  have f2 := f2 (by omega)
  have hp2w : p2.width = 649 := by rw [f1]; exact hp1w
  have hp2h : p2.getHeight = max 0 c.graphics.renderArea.y := Canvas.getHeight_of (by omega) (by rw [hp2w, ← hp1w]; exact f2.1)
  simp only [Canvas.consumeRgb, bind_ok, pure_ok, Prod.mk.injEq] at h3
  obtain ⟨_, _, rfl, rfl, rfl, rfl⟩ := h3
  simp only [Prod.mk.injEq] at h4
  obtain ⟨rfl, rfl⟩ := h4
  refine ⟨hp2w, hp2h, fun x y hx hy => ?_, fun _ _ _ _ => rfl⟩
  dsimp only [Roll.fedTo, Roll.blank] at hy ⊢
  rw [hp2h] at hy
  have hdot := f2.2 (20 + x) y (by omega) hy
  rw [hp1w, hp1c] at hdot
  have e : onPaper white 0 ⟨255, 255, 255, 255⟩ (20 + x) y = white x y := by
    unfold onPaper; rw [if_neg (Nat.not_lt_zero _)]; rfl
  rw [e, ← Nat.add_assoc] at hdot
  exact rgb_get p2.bytes _ _ hdot

/-- What remains of the paper. -/
theorem endRender_left {s s' : ImageRenderer} {c : Context} {o : ReceiptImage} {P : Plane} (hv : View s.paper P) (h : s.endRender c = .ok (s', o)) :
    PaperAt 0 s'.paper .blank ∧ s'.page = s.page ∧ s'.debug = s.debug := by
  simp only [endRender, bind_ok, pure_ok] at h
  obtain ⟨p1, h1, p2, h2, ⟨p3, w, hh, bytes⟩, h3, h4⟩ := h
  simp only [Canvas.consumeRgb, bind_ok, pure_ok, Prod.mk.injEq] at h3
  obtain ⟨_, _, rfl, rfl, rfl, rfl⟩ := h3
  simp only [Prod.mk.injEq] at h4
  obtain ⟨rfl, rfl⟩ := h4
  have k2 := expandToHeight_kept h2
  have e1 : p1.autoGrow = s.paper.autoGrow ∧ p1.debug = s.paper.debug ∧ p1.paperColor = s.paper.paperColor := by
    unfold Canvas.expandToWidth at h1
    split at h1
    · rw [pure_ok] at h1; subst h1; exact ⟨rfl, rfl, rfl⟩
    · simp only [bind_ok, pure_ok] at h1
      obtain ⟨_, _, ⟨_, _⟩, _, rfl⟩ := h1
      exact ⟨rfl, rfl, rfl⟩
  refine ⟨⟨rfl, ⟨⟨0, rfl⟩, by simp [Canvas.Opaque, Canvas.setWidth], ?_, ?_, ?_, fun x y hx => absurd hx (Nat.not_lt_zero _)⟩,
    fun h => absurd h (Nat.lt_irrefl 0)⟩, rfl, rfl⟩
  · exact (k2.paper.trans e1.2.2).trans hv.paper
  · exact (k2.autoGrow.trans e1.1).trans hv.grows
  · exact (k2.debug.trans e1.2.1).trans hv.calm

/-- A sheet of white paper. -/
theorem beginRender_at {s : ImageRenderer} {c : Context} (hc : OnPaper c) (hd : s.debug = {}) (hg : s.paper.autoGrow = true) :
    PaperAt 609 (s.beginRender c).paper .blank ∧ PageAt (s.beginRender c).page .empty := by
  have hcol : c.graphics.renderColors.paperColor = ⟨255, 255, 255, 255⟩ := by rw [hc.colors]; rfl
  have hw1 : (s.beginRender c).paper.width = 609 := hc.area
  have e0 : (s.beginRender c).paper.getHeight = 0 := Canvas.getHeight_of (by rw [hw1]; decide) rfl
  refine ⟨⟨hw1, ⟨⟨0, rfl⟩, ?_, hcol, hg, hd, ?_⟩, fun _ => e0⟩, ?_⟩
  · intro p hp
    simp [ImageRenderer.beginRender, Canvas.empty, Canvas.setWidth] at hp
  · intro x y hx
    unfold onPaper
    rw [e0, if_neg (Nat.not_lt_zero _)]
    exact hcol
  · exact ⟨⟨0, rfl⟩, by simp [Canvas.Opaque, ImageRenderer.beginRender, Canvas.setWidth], hcol, rfl, hd, rfl, rfl, fun x y hx => absurd hx (Nat.not_lt_zero _)⟩

/-- Drawing in standard mode or in page mode. -/
theorem At.draw {s : ImageRenderer × List ReceiptImage} {s' : ImageRenderer} {t : Sheets} {c : Context} {f : Canvas → Rs Canvas} {FP : Page → Page} {F : Roll → Roll} (hs : At s t)
    (hp : ∀ {p p' P}, PageAt p P → f p = .ok p' → PageAt p' (FP P)) (hr : ∀ {w p p' P}, PaperAt w p P → f p = .ok p' → ∃ Q, PaperAt w p' Q ∧ (w = 609 → Q = F P))
    (h : s.1.onCanvas c f = .ok s') :
    At (s', s.2) (if c.pageMode.enabled then { t with page := FP t.page } else { t with paper := t.paper.map F }) := by
  unfold onCanvas at h
  split at h
  · rename_i he
    rw [if_pos he]
    simp only [bind_ok, pure_ok] at h
    obtain ⟨p, h1, rfl⟩ := h
    exact ⟨hs.calm, hs.paper, hp hs.page h1, hs.done⟩
  · rename_i he
    rw [if_neg he]
    simp only [bind_ok, pure_ok] at h
    obtain ⟨p, h1, rfl⟩ := h
    refine ⟨hs.calm, ?_, hs.page, hs.done⟩
    have := hs.paper
    dsimp only
    cases ht : t.paper with
    | none =>
      rw [ht] at this
      obtain ⟨Q, hQ, _⟩ := hr this h1
      exact PaperAt.zero hQ
    | some P =>
      rw [ht] at this
      obtain ⟨Q, hQ, e⟩ := hr this h1
      rw [e rfl] at hQ
      exact hQ

/-- One call. -/
theorem At.perform {gs : Glyphs} {x : Context × Call} {s s' : ImageRenderer × List ReceiptImage} {t : Sheets} (hs : At s t)
    (hx : OnPaper x.1) (hd : x.2.Wears Outfit.Span) (h : Call.perform (imageRenderer gs) x s = .ok s') : At s' (t.call gs 609 x) := by
  obtain ⟨c, x⟩ := x
  obtain ⟨s, outs⟩ := s
  dsimp only at hx hd
  have hpaper := hs.paper
  have hgrow : s.paper.autoGrow = true ∧ ∃ P, View s.paper P := by
    dsimp only at hpaper
    split at hpaper <;> exact ⟨hpaper.2.grows, _, hpaper.2⟩
  cases x <;> simp only [Call.perform, imageRenderer, bind_ok, ok_ok] at h
  case beginRender =>
    obtain ⟨u, rfl, rfl⟩ := h
    obtain ⟨a, b⟩ := beginRender_at (s := s) hx hs.calm hgrow.1
    exact ⟨hs.calm, a, b, hs.done⟩
  case endRender =>
    obtain ⟨⟨u, o⟩, h1, rfl⟩ := h
    obtain ⟨P, hP⟩ := hgrow.2
    obtain ⟨a, b, d⟩ := endRender_left hP h1
    refine ⟨d.trans hs.calm, a, by dsimp only; rw [b]; exact hs.page, ?_⟩
    have key : ShowsSheet o ((t.paper.getD .blank).fedTo c.graphics.renderArea.y) := by
      dsimp only at hpaper
      split at hpaper
      · rename_i Q hQ
        rw [hQ]
        obtain ⟨d1, d2, d3, d4⟩ := endRender_view hpaper.1 hpaper.2 hx h1
        exact ⟨d1, by rw [d2, hpaper.3 (by decide)]; rfl, d4, d3⟩
      · rename_i hQ
        rw [hQ]
        exact endRender_noPaper hpaper.1 hpaper.2.rect hpaper.2.paper hx h1
    exact List.rel_append hs.done (.cons key .nil)
  case pageBegin =>
    obtain ⟨u, rfl, rfl⟩ := h
    exact ⟨hs.calm, hs.paper, PageAt.cleared hs.page.paper hs.page.locked hs.page.calm, hs.done⟩
  case pageEnd => obtain ⟨u, rfl, rfl⟩ := h; simpa only [Sheets.call, Medium.call, Option.map_id', ite_self] using hs
  case device => obtain ⟨u, rfl, rfl⟩ := h; simpa only [Sheets.call, Medium.call, Option.map_id', ite_self] using hs
  case pageAreaChanged rot w hh =>
    obtain ⟨u, h1, rfl⟩ := h
    simp only [ImageRenderer.pageAreaChanged, bind_ok, pure_ok] at h1
    obtain ⟨p1, e1, p2, e2, p3, e3, rfl⟩ := h1
    exact ⟨hs.calm, hs.paper, growHeight_page (growWidth_page (rotate_page hs.page e1) e2) e3, hs.done⟩
  case renderPage =>
    obtain ⟨u, h1, rfl⟩ := h
    simp only [ImageRenderer.renderPage, bind_ok, pure_ok, debugPage, Canvas.copy] at h1
    obtain ⟨p1, e1, px, e2, p2, e3, ⟨q, b⟩, e4, rfl⟩ := h1
    have hcalm := hs.calm
    dsimp only at hcalm
    rw [hcalm] at e2
    simp only [Bool.false_eq_true, if_false, ok_ok] at e2
    subst e2
    rw [toDirection_eq] at e1
    rw [back_eq] at e3
    have v1 := rotate_page hs.page e1
    have v2 := rotate_page v1 e3
    refine ⟨hs.calm, ?_, v2, hs.done⟩
    dsimp only at hpaper
    have hk := (putPixels_kept e4).width
    simp only [Sheets.call]
    cases ht : t.paper with
    | none =>
      rw [ht] at hpaper
      exact ⟨hk.trans hpaper.1, (putPage_view hpaper.2 v1 e4).congr fun x y hx => by rw [hk.trans hpaper.1] at hx; omega, fun h => absurd h (Nat.lt_irrefl 0)⟩
    | some P =>
      rw [ht] at hpaper
      refine ⟨hk.trans hpaper.1, putPage_view hpaper.2 v1 e4, fun h0 => ?_⟩
      rw [putPixels_length hpaper.2 (Nat.le_of_eq v1.rect.shows.1) e4, hpaper.1, hpaper.3 h0, v1.height]; rfl
  case graphics rs =>
    obtain ⟨u, h1, rfl⟩ := h
    exact hs.draw (FP := fun p => rs.foldl (pageMedium.rect c.text.color) p) (F := fun p => rs.foldl ((paperRoll 609).rect c.text.color) p)
      (fun a b => page_prints.rects a b) (fun {w _ _ _} a b => ⟨_, (paper_prints w).rects a b, fun e => by rw [e]⟩) h1
  case image i =>
    obtain ⟨u, h1, rfl⟩ := h
    exact hs.draw (FP := fun p => pageMedium.image p i) (F := fun p => (paperRoll 609).image p i)
      (fun a b => page_prints.image a b) (fun {w _ _ _} a b => ⟨_, (paper_prints w).image a b, fun e => by rw [e]⟩) h1
  case text l xo mh j =>
    obtain ⟨u, h1, rfl⟩ := h
    have hm : mh ≤ 255 := by have := lineHeight_le hd.1; rw [← hd.2] at this; omega
    exact hs.draw (FP := fun p => l.foldl (pageMedium.span gs xo mh) p) (F := fun p => l.foldl ((paperRoll 609).span gs xo mh) p)
      (fun a b => page_prints.spans hd.1 hm a b) (fun {w _ _ _} a b => ⟨_, (paper_prints w).spans hd.1 hm a b, fun e => by subst e; rfl⟩) h1

theorem At.replay {gs : Glyphs} {xs : List (Context × Call)} {s s' : ImageRenderer × List ReceiptImage} {t : Sheets} (hs : At s t)
    (hx : ∀ x ∈ xs, OnPaper x.1 ∧ x.2.Wears Outfit.Span) (h : Thermal.replay (imageRenderer gs) xs s = .ok s') :
    At s' (xs.foldl (Sheets.call gs 609) t) := by
  induction xs generalizing s t with
  | nil => simp only [Thermal.replay, ok_ok] at h; subst h; exact hs
  | cons x xs ih =>
    simp only [Thermal.replay, bind_ok] at h
    obtain ⟨s1, h1, h2⟩ := h
    exact ih (hs.perform (hx x (by simp)).1 (hx x (by simp)).2 h1) (fun y hy => hx y (by simp [hy])) h2

end ImageRenderer
end Thermal
