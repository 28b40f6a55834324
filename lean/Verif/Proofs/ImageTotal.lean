import Verif.Proofs.Picture
import Verif.Spec.PaperLimits
/-
Within its limits the image renderer does not panic.
-/
namespace Thermal
open Spec

namespace Canvas

/-- A canvas that is not too large. -/
structure Small (W L : Nat) (c : Canvas) : Prop where
  rect : c.Rect
  width : c.width ≤ W
  calm : c.debug = {}
  short : c.getHeight ≤ L

/-- Sides whose products are `u32`s. -/
structure Sides (W L : Nat) : Prop where
  wide : W < 16777216
  long : L ≤ 16777216
  area : W * L < U32

theorem Sides.le {W L : Nat} (h : Sides W L) {a b : Nat} (ha : a ≤ W) (hb : b ≤ L) : a * b < U32 :=
  Nat.lt_of_le_of_lt (Nat.mul_le_mul ha hb) h.area

theorem paperSides : Sides 649 longest := ⟨by decide, by decide, by decide⟩
theorem pageSides : Sides widest widest := ⟨by decide, by decide, by decide⟩

variable {W L : Nat}

theorem Small.of {c c' : Canvas} (h : Small W L c) (k : Kept c c') (hh : c'.getHeight ≤ L) : Small W L c' :=
  ⟨k.rect h.rect, Nat.le_trans (Nat.le_of_eq k.width) h.width, k.debug.trans h.calm, hh⟩

theorem Small.blank {c : Canvas} (h1 : c.bytes = []) (h2 : c.width ≤ W) (h3 : c.debug = {}) : Small W L c := by
  refine ⟨⟨0, by simp [h1]⟩, h2, h3, ?_⟩
  simp [Canvas.getHeight, h1]

theorem putPixels_small (hS : Sides W L) {c : Canvas} (hc : Small W L c) {x y w h : Nat} {pixels : List RGBA} {mul : Bool} (hl : pixels.length = w * h)
    (hwh : w * h < U32) (hx : x + w < U32) (hw : w ≤ 2097152 ∨ w < 16777216) (hy : y + h ≤ L) :
    ∃ c' b, c.putPixels x y w h pixels mul = .ok (c', b) ∧ Small W L c' := by
  have hs := hc.short
  have hL := hS.long
  obtain ⟨⟨c', b⟩, e⟩ := putPixels_defined (y := y) (mul := mul) hc.rect hl hwh hx (by simp only [U32]; omega) (by simp only [U32]; omega)
    (hS.le hc.width (by omega))
  refine ⟨c', b, e, ?_⟩
  cases b with
  | false =>
    obtain ⟨m, rfl⟩ := putPixels_false e
    exact hc.of (.errors _ _) hc.short
  | true =>
    obtain ⟨fw, fh, p⟩ := putPixels_true hc.rect e
    refine hc.of p.kept ?_
    have hw' : c'.width = c.width := by rw [p.same]
    have hin := p.inside
    rw [getHeight_of (c := c') (by omega) (by rw [hw']; exact p.rows)]
    have := p.fhle
    omega

theorem expandToHeight_small (hS : Sides W L) {c : Canvas} (hc : Small W L c) {n : Nat} (hn : n ≤ L) :
    ∃ c', c.expandToHeight n = .ok c' ∧ Small W L c' ∧ c'.width = c.width ∧ c.width * n ≤ c'.bytes.length := by
  have hs := hc.short
  have e : ∃ c', c.expandToHeight n = .ok c' := by
    unfold expandToHeight
    rw [mulU32_ok.2 ⟨hS.le hc.width hn, rfl⟩]
    exact ⟨_, rfl⟩
  obtain ⟨c', e⟩ := e
  have hk := expandToHeight_kept e
  have hlen : c.width * n ≤ c'.bytes.length := by
    simp only [expandToHeight, bind_ok, mulU32_ok, pure_ok] at e
    obtain ⟨_, ⟨_, rfl⟩, rfl⟩ := e
    split
    · assumption
    · simp only [List.length_append, List.length_replicate]; omega
  refine ⟨c', e, hc.of hk ?_, hk.width, hlen⟩
  rcases Nat.eq_zero_or_pos c.width with hw | hw
  · have : c'.width = 0 := hk.width.trans hw
    simp [getHeight, this]
  · obtain ⟨e1, e2, _⟩ := expandToHeight_shows hc.rect.shows e
    have hw' : c'.width = c.width := by rw [e1]
    have hh := getHeight_of (c := c') (by omega) (by rw [hw']; exact (e2 hw).1)
    omega

theorem drawRect_small (hS : Sides W L) {c : Canvas} (hc : Small W L c) {x y w h : Nat} {color : RGBA} {mul : Bool} (hx : x + w < 16777216 ∨ x + w < U32 ∧ w ≤ 255) (hh : h ≤ 255)
    (hy : y + h ≤ L) : ∃ c', c.drawRect x y w h color mul = .ok c' ∧ Small W L c' := by
  have hw : w < 16777216 := by omega
  have hwh : w * h < U32 := Nat.lt_of_le_of_lt (Nat.mul_le_mul (by omega : w ≤ 16777215) hh) (by decide)
  have hx' : x + w < U32 := by
    rcases hx with hx | hx
    · exact Nat.lt_trans hx (by decide)
    · exact hx.1
  obtain ⟨c', b, e1, e2⟩ := putPixels_small hS (mul := mul) hc (pixels := List.replicate (w * h) color) (by simp) hwh hx' (.inr hw) hy
  refine ⟨c', ?_, e2⟩
  unfold drawRect
  rw [mulU32_ok.2 ⟨hwh, rfl⟩]
  show (c.putPixels x y w h (List.replicate (w * h) color) mul >>= fun p => pure p.1) = _
  rw [e1]; rfl

/-! ### Upside down -/

theorem collect_defined {c : Canvas} (hu : c.bytes.length < U32) {x y w h : Nat} (hx : x + w ≤ c.width) (hy : c.width * (y + h) ≤ c.bytes.length) :
    ∃ sub, forRange h [] (c.collectRow x y w) = .ok sub ∧ sub.length = w * h := by
  obtain ⟨r, e1, e2⟩ := forRange_inv (n := h) (s := ([] : List RGBA)) (body := c.collectRow x y w) (fun i r => r.length = w * i) rfl (by
    intro i s hi hI
    have hrow : (y + i) * c.width + c.width ≤ c.bytes.length := by
      rw [← Nat.succ_mul, Nat.mul_comm]
      exact Nat.le_trans (Nat.mul_le_mul_left _ (by omega)) hy
    obtain ⟨m, hm⟩ : ∃ m, m = (y + i) * c.width := ⟨_, rfl⟩
    have h1 : mulU32 (y + i) c.width = .ok m := mulU32_ok.2 ⟨by omega, hm⟩
    rw [← hm] at hrow
    have h2 : addU32 m x = .ok (m + x) := addU32_ok.2 ⟨by omega, rfl⟩
    have h3 : m + x + w ≤ c.bytes.length := by omega
    refine ⟨s ++ (c.bytes.take (m + x + w)).drop (m + x), ?_, ?_⟩
    · unfold collectRow
      rw [h1]
      simp only [bind, Except.bind, h2, slice]
      rw [if_pos ⟨by omega, h3⟩]
      simp only [pure, Except.pure]
    · simp only [List.length_append, hI, List.length_take, List.length_drop, Nat.mul_add, Nat.mul_one]; clear hm h1 h2; omega)
  exact ⟨r, e1, e2⟩

theorem swapIdx_defined {l : List RGBA} {i j : Nat} (hi : i < l.length) (hj : j < l.length) : ∃ r, swapIdx l i j = .ok r ∧ r.length = l.length := by
  have e1 : idx l i = .ok l[i] := by simp [idx, hi]
  have e2 : idx l j = .ok l[j] := by simp [idx, hj]
  refine ⟨(l.set i l[j]).set j l[i], ?_, by simp⟩
  simp only [swapIdx, e1, e2, bind, Except.bind, setIdx, hi, if_true, List.length_set, hj]

theorem swapRows_defined {px : List RGBA} {w h : Nat} (hl : px.length = w * h) : ∃ r, swapRows px w h = .ok r ∧ r.length = w * h := by
  refine forRange_inv (n := h / 2) (s := px) (fun _ r => r.length = w * h) hl ?_
  intro i s hi hI
  refine forRange_inv (n := w) (s := s) (fun _ r => r.length = w * h) hI ?_
  intro j t hj hJ
  obtain ⟨r, e1, e2⟩ := swapIdx_defined (l := t) (i := i * w + j) (j := (h - i - 1) * w + j) (by rw [hJ]; exact rm_lt hj (by omega))
    (by rw [hJ]; exact rm_lt hj (by omega))
  exact ⟨r, e1, e2.trans hJ⟩

theorem flipPixels_small (hS : Sides W L) {c : Canvas} (hc : Small W L c) {x y w h : Nat} (hx : x + w < U32) (hy : y + h ≤ L) :
    ∃ c', c.flipPixels x y w h = .ok c' ∧ Small W L c' := by
  unfold flipPixels
  rw [addU32_ok.2 ⟨hx, rfl⟩]
  simp only [bind, Except.bind]
  split
  · exact ⟨c, rfl, hc⟩
  · rename_i hf
    have hW := hS.wide
    have hL := hS.long
    have hf : x + w ≤ c.width := by omega
    have hcw := hc.width
    rw [addU32_ok.2 ⟨by simp only [U32]; omega, rfl⟩]
    obtain ⟨c1, e1, s1, w1, l1⟩ := expandToHeight_small hS hc hy
    simp only [e1]
    have hwh : w * h < U32 := hS.le (by omega) (by omega)
    rw [mulU32_ok.2 ⟨hwh, rfl⟩]
    obtain ⟨sub, e2, l2⟩ := collect_defined (c := c1) (by rw [s1.rect.length]; exact hS.le s1.width s1.short) (x := x) (y := y) (w := w) (h := h)
      (by rw [w1]; exact hf) (by rw [w1]; exact l1)
    obtain ⟨sub', e3, l3⟩ := swapRows_defined l2
    obtain ⟨c2, b, e4, s4⟩ := putPixels_small hS (mul := false) s1 l3 hwh hx (by omega) hy
    simp only [e2, e3, e4]
    exact ⟨_, rfl, s4⟩

theorem putRenderImg_small (hS : Sides W L) {c : Canvas} (hc : Small W L c) {i : Image} (h1 : i.pixels.length = i.w * i.h) (h2 : i.w * i.h < U32) (h3 : i.w ≤ 2097152)
    (h4 : i.x + i.w < U32) (h5 : i.y + i.h ≤ L) : ∃ c', c.putRenderImg i = .ok c' ∧ Small W L c' := by
  obtain ⟨c1, b, e1, s1⟩ := putPixels_small hS (mul := true) hc h1 h2 h4 (.inl h3) h5
  unfold putRenderImg debugImage
  rw [hc.calm]
  simp only [Bool.false_eq_true, if_false, bind, Except.bind, e1]
  split
  · exact flipPixels_small hS s1 h4 h5
  · exact ⟨c1, rfl, s1⟩

/-! ### Page -/

theorem rotate_small {c : Canvas} (hc : Small W W c) (r : Rotation) : ∃ c', ImageRenderer.rotate r c = .ok c' ∧ Small W W c' := by
  have hw := hc.width
  have hs := hc.short
  have turned : ∀ px : List RGBA, (∃ f, Shows px c.getHeight c.width f) → Small W W { c with
      bytes := px
      width := c.getHeight } := by
    intro px ⟨f, hf⟩
    refine ⟨⟨c.width, hf.1⟩, hs, hc.calm, ?_⟩
    rcases Nat.eq_zero_or_pos c.getHeight with h0 | h0
    · rw [getHeight, if_pos h0]; exact Nat.zero_le _
    · have := getHeight_of (c := { c with
        bytes := px
        width := c.getHeight }) h0 hf.1
      rw [this]; exact hw
  cases r
  · exact ⟨c, rfl, hc⟩
  · obtain ⟨px, e, h⟩ := rotate90_shows hc.rect
    exact ⟨_, e, turned px ⟨_, h⟩⟩
  · obtain ⟨px, e, h⟩ := rotate180_shows hc.rect
    refine ⟨_, e, ⟨⟨c.getHeight, h.1⟩, hw, hc.calm, ?_⟩⟩
    rcases Nat.eq_zero_or_pos c.width with h0 | h0
    · simp [getHeight, h0]
    · rw [getHeight_of (c := { c with bytes := px }) h0 h.1]; exact hs
  · obtain ⟨px, e, h⟩ := rotate270_shows hc.rect
    exact ⟨_, e, turned px ⟨_, h⟩⟩

theorem growWidth_small {c : Canvas} (hc : Small W L c) {n : Nat} (hn : n ≤ W) : ∃ c', ImageRenderer.growWidth c n = .ok c' ∧ Small W L c' := by
  unfold ImageRenderer.growWidth
  split
  · rename_i h
    obtain ⟨px, e1, s1⟩ := expandToWidth_shows (n := n) hc.rect (by omega)
    refine ⟨_, e1, ⟨⟨c.getHeight, s1.1⟩, hn, hc.calm, ?_⟩⟩
    rw [getHeight_of (c := { c with
      bytes := px
      width := n }) (Nat.lt_of_le_of_lt (Nat.zero_le _) h) s1.1]
    exact hc.short
  · exact ⟨c, rfl, hc⟩

theorem growHeight_small (hS : Sides W L) {c : Canvas} (hc : Small W L c) {n : Nat} (hn : n ≤ L) : ∃ c', ImageRenderer.growHeight c n = .ok c' ∧ Small W L c' := by
  unfold ImageRenderer.growHeight
  split
  · obtain ⟨c', e, h, _⟩ := expandToHeight_small hS hc hn
    exact ⟨c', e, h⟩
  · exact ⟨c, rfl, hc⟩

/-! ### Text -/

theorem renderChar_defined {gs : Glyphs} {s : TextSpan} (hs : Outfit.Span s) (ch : Char) :
    ∃ o, renderChar gs s.bold s.italic s.font ch s.baseCharacterWidth s.baseCharacterHeight s.characterWidth s.characterHeight
      s.backgroundColor s.textColor = .ok o ∧ ∀ px w h, o = some (px, w, h) → w = s.characterWidth ∧ h = s.characterHeight ∧ px.length = w * h := by
  have kc : ∀ p ∈ cells, 0 < p.1 ∧ 0 < p.2 ∧ p.1 ≤ 24 ∧ p.2 ≤ 24 := by decide
  obtain ⟨b1, b2, b3, b4⟩ := kc _ hs.cell
  obtain ⟨m1, m2, m3, ⟨m4, m5⟩, m6, m7⟩ := hs.measure
  dsimp only at b1 b2
  have he : max (s.characterHeight / s.baseCharacterHeight) (s.characterWidth / s.baseCharacterWidth) = enlargement s := rfl
  have hlen : ∀ (g : Glyph) (rw_ rh : Nat) (color : RGBA) (cov : List Byte) (i : Nat) (cell : List RGBA), (glyphLoop g rw_ rh color cov i cell).length = cell.length := by
    intro g rw_ rh color cov
    induction cov with
    | nil => intro i cell; rfl
    | cons a rest ih =>
      intro i cell
      unfold glyphLoop
      dsimp only
      rw [ih]
      split <;> simp
  unfold renderChar
  rw [divU_ok.2 ⟨by omega, rfl⟩, divU_ok.2 ⟨by omega, rfl⟩]
  simp only [bind, Except.bind, he]
  rw [mulU32_ok.2 ⟨Nat.lt_of_le_of_lt m5 (by decide), rfl⟩, mulU32_ok.2 ⟨Nat.lt_of_le_of_lt m7 (by decide), rfl⟩]
  dsimp only
  generalize gs.glyph s.bold s.italic s.font (enlargement s) ch = g
  split
  · exact ⟨_, rfl, by intro px w h e; cases e⟩
  · split
    · have hm : s.characterWidth * s.characterHeight < U32 :=
        Nat.lt_of_le_of_lt (Nat.mul_le_mul (Nat.le_trans m4 m5) (Nat.le_trans m6 m7)) (by decide)
      unfold scaleBitmap
      rw [mulU32_ok.2 ⟨hm, rfl⟩]
      refine ⟨_, rfl, ?_⟩
      intro px w h e
      simp only [Option.some.injEq, Prod.mk.injEq] at e
      obtain ⟨rfl, rfl, rfl⟩ := e
      refine ⟨rfl, rfl, ?_⟩
      rw [List.length_flatMap, List.map_congr_left (g := fun _ => s.characterWidth) (fun _ _ => by simp)]
      simp only [List.map_const', List.sum_replicate_nat, List.length_range, Nat.mul_comm]
    · rename_i hk
      refine ⟨_, rfl, ?_⟩
      intro px w h e
      simp only [Option.some.injEq, Prod.mk.injEq] at e
      obtain ⟨rfl, rfl, rfl⟩ := e
      obtain ⟨e1, e2⟩ := m3 (by omega)
      have hone : enlargement s = 1 := by
        unfold enlargement at hk ⊢
        rw [e1, e2, Nat.div_self (by omega), Nat.div_self (by omega)]
        rfl
      refine ⟨rfl, rfl, ?_⟩
      rw [hone, Nat.mul_one, Nat.mul_one, e1, e2]
      split
      · rw [hlen]; simp
      · simp

theorem renderChars_small (hS : Sides W L) {gs : Glyphs} {s : TextSpan} (hs : Outfit.Span s) {y : Nat} (hy : y + 255 ≤ L) {text : Str} {x : Nat} {c : Canvas} (hc : Small W L c)
    (hx : x + text.length * s.characterWidth < U32) : ∃ c', renderChars gs s y text x c = .ok c' ∧ Small W L c' := by
  induction text generalizing x c with
  | nil => exact ⟨c, rfl, hc⟩
  | cons ch rest ih =>
    obtain ⟨m1, m2, m3, ⟨m4, m5⟩, m6, m7⟩ := hs.measure
    obtain ⟨o, e1, e2⟩ := renderChar_defined (gs := gs) hs ch
    have hxr : x + s.characterWidth + rest.length * s.characterWidth < U32 := by
      rw [List.length_cons, Nat.add_mul, Nat.one_mul] at hx; omega
    simp only [renderChars, e1, bind, Except.bind]
    rw [if_neg (by simp; omega)]
    have key : ∃ c1, c.putChar o x y = .ok c1 ∧ Small W L c1 := by
      rcases o with _ | ⟨px, w, h⟩
      · exact ⟨c, rfl, hc⟩
      · obtain ⟨rfl, rfl, hl⟩ := e2 _ _ _ rfl
        obtain ⟨c1, b, e3, s3⟩ := putPixels_small hS (mul := true) hc (x := x) (y := y) hl
          (Nat.lt_of_le_of_lt (Nat.mul_le_mul (Nat.le_trans m4 m5) (Nat.le_trans m6 m7)) (by decide)) (by omega) (.inl (by omega)) (by omega)
        refine ⟨c1, ?_, s3⟩
        unfold putChar debugText
        rw [hc.calm]
        simp only [Bool.false_eq_true, if_false, bind, Except.bind, e3]; rfl
    obtain ⟨c1, e3, s3⟩ := key
    rw [e3]
    dsimp only
    rw [addU32_ok.2 ⟨by omega, rfl⟩]
    exact ih s3 hxr

theorem baselineOf_le (f : Font) (h : Nat) : baselineOf f h ≤ h := by
  cases f <;> simp only [baselineOf] <;> omega

theorem baseline_le (f : Font) {h : Nat} (hh : h ≤ 255) : baseline f h ≤ h := by
  rw [baseline_eq hh]; exact baselineOf_le f h

theorem renderSpan_small (hS : Sides W L) {gs : Glyphs} {s : TextSpan} (hs : Outfit.Span s) {xo mh : Nat} (hm : mh ≤ 255) (hw : SpanWithin L xo mh s) {c : Canvas} (hc : Small W L c) :
    ∃ c', renderSpan gs c xo mh s = .ok c' ∧ Small W L c' := by
  unfold renderSpan
  cases hd : s.dimensions with
  | none => exact ⟨c, rfl, hc⟩
  | some d =>
    have h1 := hw.height
    have h2 := hw.strike
    have h3 := hw.across d hd
    have h4 := hw.width d hd
    have h5 := hw.down d hd
    have h6 := hw.cell d hd
    have hL := hS.long
    dsimp only
    rw [addU32_ok.2 ⟨Nat.lt_of_le_of_lt (by omega : d.x + xo ≤ 16777215) (by decide), rfl⟩]
    have hoff : ∃ off, spanOffset s.font mh s.characterHeight = .ok off ∧ off ≤ 255 := by
      refine ⟨_, spanOffset_ok hm h1, ?_⟩
      have := baselineOf_le s.font (mh - s.characterHeight)
      omega
    obtain ⟨off, e1, l1⟩ := hoff
    simp only [bind, Except.bind, e1]
    rw [addU32_ok.2 ⟨by simp only [U32]; omega, rfl⟩]
    dsimp only
    have hb := baseline_le s.font (h := s.characterHeight) (by omega)
    obtain ⟨c1, e2, s2⟩ := renderChars_small hS (gs := gs) hs (y := d.y + off) (by omega) (text := s.text) (x := d.x + xo) hc
      (Nat.lt_of_le_of_lt (by omega : _ ≤ 16777215) (by decide))
    rw [e2]
    dsimp only
    unfold debugBaseline
    rw [s2.calm]
    simp only [Bool.false_eq_true, if_false]
    have hu : ∃ c3, c1.drawUnderline s (d.x + xo) (d.y + off) d.w = .ok c3 ∧ Small W L c3 := by
      unfold drawUnderline
      split
      · rw [addU32_ok.2 ⟨by simp only [U32]; omega, rfl⟩]
        simp only [bind, Except.bind]
        rw [addU32_ok.2 ⟨by simp only [U32]; omega, rfl⟩]
        exact drawRect_small hS s2 (.inl h3) (by omega) (by omega)
      · exact ⟨c1, rfl, s2⟩
    obtain ⟨c3, e3, s3⟩ := hu
    rw [e3]
    dsimp only
    have ht : ∃ c4, c3.drawStrike s (d.x + xo) (d.y + off) d.w = .ok c4 ∧ Small W L c4 := by
      unfold drawStrike
      rw [F32.strike_exact (by omega)]
      split
      · rw [addU32_ok.2 ⟨by simp only [U32]; omega, rfl⟩]
        exact drawRect_small hS s3 (.inl h3) h2 (by omega)
      · exact ⟨c3, rfl, s3⟩
    obtain ⟨c4, e4, s4⟩ := ht
    rw [e4]
    dsimp only
    split
    · exact flipPixels_small hS s4 (Nat.lt_trans h3 (by decide)) (by omega)
    · exact ⟨c4, rfl, s4⟩

end Canvas

namespace ImageRenderer
open Canvas

variable {W L : Nat}

theorem putRects_small (hS : Sides W L) {color : RGBA} {rs : List Rectangle} {c : Canvas} (hc : Small W L c)
    (hr : ∀ g ∈ rs, g.x + g.w < U32 ∧ g.w ≤ 255 ∧ g.h ≤ 255 ∧ g.y + 255 ≤ L) : ∃ c', putRects color rs c = .ok c' ∧ Small W L c' := by
  induction rs generalizing c with
  | nil => exact ⟨c, rfl, hc⟩
  | cons g rs ih =>
    obtain ⟨h1, h2, h3, h4⟩ := hr g (by simp)
    obtain ⟨c1, e1, s1⟩ := drawRect_small hS (color := color) (mul := true) hc (x := g.x) (w := g.w) (.inr ⟨h1, h2⟩) h3 (y := g.y) (by omega)
    obtain ⟨c2, e2, s2⟩ := ih s1 (fun x hx => hr x (by simp [hx]))
    refine ⟨c2, ?_, s2⟩
    simp only [putRects, putRect, e1, bind, Except.bind, e2]

theorem renderSpans_small (hS : Sides W L) {gs : Glyphs} {xo mh : Nat} (hm : mh ≤ 255) {l : List TextSpan} {c : Canvas} (hc : Small W L c)
    (hl : ∀ s ∈ l, Outfit.Span s ∧ SpanWithin L xo mh s) : ∃ c', renderSpans gs xo mh l c = .ok c' ∧ Small W L c' := by
  induction l generalizing c with
  | nil => exact ⟨c, rfl, hc⟩
  | cons s l ih =>
    obtain ⟨h1, h2⟩ := hl s (by simp)
    obtain ⟨c1, e1, s1⟩ := renderSpan_small hS (gs := gs) h1 hm h2 hc
    obtain ⟨c2, e2, s2⟩ := ih s1 (fun x hx => hl x (by simp [hx]))
    refine ⟨c2, ?_, s2⟩
    simp only [renderSpans, e1, bind, Except.bind, e2]

/-- The image renderer between two calls. -/
structure Safe (s : ImageRenderer) : Prop where
  paper : Small 649 longest s.paper
  page : Small widest widest s.page
  calm : s.debug = {}

theorem Safe.new : Safe (ImageRenderer.new {}) :=
  ⟨⟨⟨0, rfl⟩, by decide, rfl, by decide⟩, ⟨⟨0, rfl⟩, by decide, rfl, by decide⟩, rfl⟩

theorem onCanvas_safe {c : Context} {s : ImageRenderer} (hs : Safe s) {f : Canvas → Rs Canvas}
    (hf : ∀ {W p}, Sides W (depth c) → Small W (depth c) p → ∃ p', f p = .ok p' ∧ Small W (depth c) p') :
    ∃ s', s.onCanvas c f = .ok s' ∧ Safe s' := by
  unfold onCanvas
  unfold depth at hf
  split
  · rename_i hc
    rw [if_pos hc] at hf
    obtain ⟨p, e, h⟩ := hf pageSides hs.page
    simp only [e, bind, Except.bind]
    exact ⟨_, rfl, hs.paper, h, hs.calm⟩
  · rename_i hc
    rw [if_neg hc] at hf
    obtain ⟨p, e, h⟩ := hf paperSides hs.paper
    simp only [e, bind, Except.bind]
    exact ⟨_, rfl, h, hs.page, hs.calm⟩

theorem endRender_safe {c : Context} {s : ImageRenderer} (hs : Safe s) (hc : OnPaper c) (hy : c.graphics.renderArea.y ≤ longest) :
    ∃ s' o, s.endRender c = .ok (s', o) ∧ Safe s' := by
  have hw : c.graphics.paperArea.w = 649 := hc.paper
  obtain ⟨px, e1, s1⟩ := expandToWidth_shows (n := 649) hs.paper.rect hs.paper.width
  have p1 : Small 649 longest { s.paper with
      bytes := px
      width := 649 } := by
    refine ⟨⟨_, s1.1⟩, Nat.le_refl _, hs.paper.calm, ?_⟩
    rw [getHeight_of (c := { s.paper with
      bytes := px
      width := 649 }) (Nat.succ_pos 648) s1.1]
    exact hs.paper.short
  obtain ⟨c2, e2, p2, _, _⟩ := expandToHeight_small paperSides p1 hy
  unfold endRender
  rw [hw, e1]
  simp only [bind, Except.bind, e2]
  unfold consumeRgb
  dsimp only
  rw [mulU32_ok.2 ⟨paperSides.le p2.width p2.short, rfl⟩]
  exact ⟨_, _, rfl, .blank rfl (Nat.zero_le _) p2.calm, hs.page, hs.calm⟩

/-- Every call within the limits returns. -/
theorem perform_safe {gs : Glyphs} {x : Context × Call} {s : ImageRenderer × List ReceiptImage} (hs : Safe s.1) (hp : OnPaper x.1)
    (hw : Within x) (ho : ∀ t ∈ x.2.spans, Outfit.Span t) : ∃ s', Call.perform (imageRenderer gs) x s = .ok s' ∧ Safe s'.1 := by
  obtain ⟨c, call⟩ := x
  dsimp only at hp
  cases call
  case beginRender =>
    refine ⟨_, rfl, .blank rfl ?_ hs.calm, .blank rfl (Nat.zero_le _) hs.calm, hs.calm⟩
    show c.graphics.renderArea.w ≤ 649
    rw [hp.area]; decide
  case endRender =>
    obtain ⟨s', o, e, h⟩ := endRender_safe hs hp hw
    exact ⟨(s', s.2 ++ [o]), by simp only [Call.perform, imageRenderer, e, bind, Except.bind], h⟩
  case renderPage =>
    obtain ⟨h1, h2⟩ := hw
    dsimp only at h1 h2
    obtain ⟨p1, e1, q1⟩ := rotate_small hs.page (directionalRotation c.pageMode.direction .topLeft2Right)
    obtain ⟨p2, e2, q2⟩ := rotate_small q1 (directionalRotation .topLeft2Right c.pageMode.direction)
    have a1 := q1.width
    have a2 := q1.short
    have a3 : widest ≤ 65535 := Nat.le_refl _
    obtain ⟨p3, b, e3, q3⟩ := putPixels_small (x := c.graphics.renderArea.x) (y := c.graphics.renderArea.y) (mul := false) paperSides hs.paper q1.rect.length
      (pageSides.le a1 a2) (by simp only [U32]; omega) (.inl (by omega)) (by omega)
    refine ⟨({ s.1 with
      paper := p3
      page := p2 }, s.2), ?_, q3, q2, hs.calm⟩
    simp only [Call.perform, imageRenderer, renderPage, debugPage, hs.calm, Canvas.copy, e1, e2, e3, bind, Except.bind, pure, Except.pure,
      Bool.false_eq_true, if_false]
  case pageAreaChanged r w h =>
    obtain ⟨p1, e1, q1⟩ := rotate_small hs.page r
    obtain ⟨p2, e2, q2⟩ := growWidth_small q1 hw.1
    obtain ⟨p3, e3, q3⟩ := growHeight_small pageSides q2 hw.2
    refine ⟨({ s.1 with page := p3 }, s.2), ?_, hs.paper, q3, hs.calm⟩
    simp only [Call.perform, imageRenderer, pageAreaChanged, e1, e2, e3, bind, Except.bind, pure, Except.pure]
  case pageBegin => exact ⟨_, rfl, hs.paper, .blank rfl (Nat.zero_le _) hs.page.calm, hs.calm⟩
  case pageEnd => exact ⟨_, rfl, hs⟩
  case device d => exact ⟨_, rfl, hs⟩
  case graphics rs =>
    obtain ⟨s1, e1, q1⟩ := onCanvas_safe (c := c) hs (f := putRects c.text.color rs) (fun hS hp => putRects_small hS hp hw)
    exact ⟨(s1, s.2), by simp only [Call.perform, imageRenderer, e1, bind, Except.bind], q1⟩
  case image i =>
    obtain ⟨h1, h2, h3, h4, h5⟩ := hw
    obtain ⟨s1, e1, q1⟩ := onCanvas_safe (c := c) hs (f := (Canvas.putRenderImg · i)) (fun hS hp => putRenderImg_small hS hp h1 h2 h3 h4 h5)
    exact ⟨(s1, s.2), by simp only [Call.perform, imageRenderer, e1, bind, Except.bind], q1⟩
  case text l o m j =>
    obtain ⟨s1, e1, q1⟩ := onCanvas_safe (c := c) hs (f := renderSpans gs o m l)
      (fun hS hp => renderSpans_small hS hw.1 hp (fun t ht => ⟨ho t ht, hw.2 t ht⟩))
    exact ⟨(s1, s.2), by simp only [Call.perform, imageRenderer, e1, bind, Except.bind], q1⟩

theorem replay_safe {gs : Glyphs} {xs : List (Context × Call)} {s : ImageRenderer × List ReceiptImage} (hs : Safe s.1)
    (hx : ∀ x ∈ xs, OnPaper x.1 ∧ Within x ∧ ∀ t ∈ x.2.spans, Outfit.Span t) : ∃ s', replay (imageRenderer gs) xs s = .ok s' ∧ Safe s'.1 := by
  induction xs generalizing s with
  | nil => exact ⟨s, rfl, hs⟩
  | cons x xs ih =>
    obtain ⟨h1, h2, h3⟩ := hx x (by simp)
    obtain ⟨s1, e1, p1⟩ := perform_safe (gs := gs) hs h1 h2 h3
    obtain ⟨s2, e2, p2⟩ := ih p1 (fun y hy => hx y (by simp [hy]))
    refine ⟨s2, ?_, p2⟩
    simp only [replay, e1, bind, Except.bind, e2]

end ImageRenderer
end Thermal
