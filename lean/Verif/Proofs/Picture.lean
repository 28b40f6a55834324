import Verif.Spec.Picture
import Verif.Props.ImageOutput
import Verif.Proofs.Heights
/-
Drawing on a canvas that grows, as drawing on a sheet without a lower edge.
-/
namespace Thermal
open Spec Renderer

/-- A picture made row by row. -/
theorem Shows.of_rows {w h : Nat} {f g : Nat → Nat → RGBA} (hf : ∀ x y, x < w → y < h → f x y = g x y) :
    Shows ((List.range h).flatMap fun y => (List.range w).map fun x => f x y) w h g := by
  induction h with
  | zero => exact ⟨rfl, fun x y _ hy => absurd hy (Nat.not_lt_zero _)⟩
  | succ h ih =>
    obtain ⟨i1, i2⟩ := ih fun x y hx hy => hf x y hx (by omega)
    rw [List.range_succ, List.flatMap_append]
    refine ⟨by rw [List.length_append, i1]; simp [Nat.mul_succ], fun x y hx hy => ?_⟩
    by_cases hy' : y < h
    · rw [List.getElem?_append_left (by rw [i1]; exact rm_lt hx hy')]
      exact i2 x y hx hy'
    · have : y = h := by omega
      subst this
      rw [List.getElem?_append_right (by rw [i1, Nat.mul_comm]; omega), i1, Nat.mul_comm w y, Nat.add_sub_cancel_left]
      simp [List.getElem?_range hx, hf x y hx hy]

namespace Canvas

/-- The canvas shows the plane, as far as it is wide, and paper below. -/
structure View (c : Canvas) (P : Plane) : Prop where
  rect : c.Rect
  solid : c.Opaque
  paper : c.paperColor = ⟨255, 255, 255, 255⟩
  grows : c.autoGrow = true
  calm : c.debug = {}
  dots : ∀ x y, x < c.width → onPaper c.dot c.getHeight c.paperColor x y = P x y

theorem View.congr {c : Canvas} {P Q : Plane} (h : View c P) (hq : ∀ x y, x < c.width → P x y = Q x y) : View c Q :=
  { h with dots := fun x y hx => (h.dots x y hx).trans (hq x y hx) }

theorem View.errors {c : Canvas} {P : Plane} (h : View c P) (e : List Str) : View { c with errors := e } P :=
  ⟨h.rect, h.solid, h.paper, h.grows, h.calm, h.dots⟩

/-- What stays the same by drawing, except for the dots. -/
theorem View.of_kept {c c' : Canvas} {P Q : Plane} (h : View c P) (k : Kept c c')
    (hd : ∀ x y, x < c.width → onPaper c'.dot c'.getHeight c'.paperColor x y = Q x y) : View c' Q :=
  ⟨k.rect h.rect, k.ink h.rect h.solid (by rw [h.paper]), k.paper.trans h.paper, k.autoGrow.trans h.grows, k.debug.trans h.calm,
    fun x y hx => hd x y (by rw [← k.width]; exact hx)⟩

theorem expandToHeight_view {c c' : Canvas} {n : Nat} {P : Plane} (hv : View c P) (h : c.expandToHeight n = .ok c') : View c' P := by
  have k := expandToHeight_kept h
  refine hv.of_kept k fun x y hx => ?_
  rw [← hv.dots x y hx]
  obtain ⟨s1, s2, s3⟩ := expandToHeight_shows hv.rect.shows h
  have s2 := s2 (by omega)
  have hw : c'.width = c.width := by rw [s1]
  have hh : c'.getHeight = max c.getHeight n := getHeight_of (by omega) (by rw [hw]; exact s2.1)
  rw [k.paper, hh]
  by_cases hy : y < max c.getHeight n
  · show (if _ then _ else _) = _
    rw [if_pos hy, dot_of_shows hw s2 (by omega) hy]
  · unfold onPaper
    rw [if_neg hy, if_neg (by omega)]

theorem putPixels_view {c c' : Canvas} {x0 y0 w h : Nat} {px : List RGBA} {mul b : Bool} {P : Plane} (hv : View c P)
    (hp : c.putPixels x0 y0 w h px mul = .ok (c', b)) :
    View c' (fun x y => if px.length ≤ w * h ∧ inRect x0 y0 w h x y then (px[(y - y0) * w + (x - x0)]?).elim (P x y) (combine mul (P x y)) else P x y) := by
  cases b with
  | false =>
    have hp' := hp
    obtain ⟨m, rfl⟩ := putPixels_false hp
    refine (hv.errors _).congr fun x y hx => ?_
    rw [if_neg]
    rintro ⟨hl, hin⟩
    simp only [putPixels, bind_ok, mulU32_ok] at hp'
    obtain ⟨_, ⟨_, rfl⟩, hp'⟩ := hp'
    rw [if_neg (by omega)] at hp'
    split at hp'
    · rename_i hc
      rw [hv.grows] at hc
      simp only [Bool.or_eq_true, decide_eq_true_eq, Bool.not_true, Bool.and_false, Bool.false_eq_true, or_false] at hc
      have := hin.1
      have hx' : x < c.width := hx
      omega
    · simp only [bind_ok, pure_ok] at hp'
      obtain ⟨_, _, _, _, _, _, _, _, hp'⟩ := hp'
      exact absurd (congrArg Prod.snd hp') (by simp)
  | true =>
    obtain ⟨fw, fh, hput⟩ := putPixels_true hv.rect hp
    refine hv.of_kept hput.kept fun x y hx => ?_
    have hw : c'.width = c.width := by rw [hput.same]
    have hh : c'.getHeight = max c.getHeight (y0 + fh) := getHeight_of (by omega) (by rw [hw]; exact hput.rows)
    have hfh := hput.grow hv.grows
    have hfw := hput.columns
    have hin : inRect x0 y0 fw fh x y ↔ inRect x0 y0 w h x y := by unfold inRect; omega
    rw [hh, hput.kept.paper]
    by_cases hy : y < max c.getHeight (y0 + fh)
    · show (if _ then _ else _) = _
      rw [if_pos hy]
      have hd := hput.dots x y hx hy
      unfold Canvas.dot
      rw [List.getD_eq_getElem?_getD, hw, hd, Option.getD_some]
      dsimp only
      rw [hv.dots x y hx]
      by_cases hr : inRect x0 y0 w h x y
      · rw [if_pos (hin.2 hr), if_pos ⟨hput.length, hr⟩]
      · rw [if_neg (fun h => hr (hin.1 h)), if_neg (fun h => hr h.2)]
    · rw [if_neg (fun h => by have := h.2; unfold inRect at this; omega), ← hv.dots x y hx]
      unfold onPaper
      rw [if_neg hy, if_neg (by omega)]

/-- Drawing dots that are given by a function. -/
theorem putPixels_drawn {c c' : Canvas} {x0 y0 w h : Nat} {px : List RGBA} {b : Bool} {P : Plane} {f : Nat → Nat → RGBA} (hv : View c P)
    (hs : Shows px w h f) (hp : c.putPixels x0 y0 w h px true = .ok (c', b)) : View c' (drawn RGBA.multiply P f x0 y0 w h) := by
  refine (putPixels_view hv hp).congr fun x y _ => ?_
  unfold drawn
  by_cases hr : inRect x0 y0 w h x y
  · rw [if_pos ⟨Nat.le_of_eq hs.1, hr⟩, if_pos hr]
    obtain ⟨h1, h2, h3, h4⟩ := hr
    rw [hs.2 (x - x0) (y - y0) (by omega) (by omega)]
    rfl
  · rw [if_neg (fun h => hr h.2), if_neg hr]

theorem drawRect_view {c c' : Canvas} {x y w h : Nat} {color : RGBA} {P : Plane} (hv : View c P)
    (hp : c.drawRect x y w h color true = .ok c') : View c' (rectOn color P ⟨x, y, w, h⟩) := by
  simp only [drawRect, bind_ok, mulU32_ok, pure_ok] at hp
  obtain ⟨_, ⟨_, rfl⟩, ⟨c1, b⟩, h1, rfl⟩ := hp
  refine putPixels_drawn hv ⟨by simp, fun X Y hX hY => ?_⟩ h1
  have : Y * w + X < w * h := rm_lt hX hY
  rw [List.getElem?_replicate, if_pos this]

theorem flipPixels_view {c c' : Canvas} {x y w h : Nat} {P : Plane} (hv : View c P) (hp : c.flipPixels x y w h = .ok c') :
    View c' (if x + w ≤ c.width then flipped P x y w h else P) := by
  by_cases hfit : x + w ≤ c.width
  · rw [if_pos hfit]
    by_cases h0 : 0 < w ∧ 0 < h
    · obtain ⟨e, s⟩ := flipPixels_get hv.rect hv.solid (by rw [hv.paper]) h0.1 h0.2 hfit hp
      refine hv.of_kept (flipPixels_kept hp) fun X Y hX => ?_
      have hw : c'.width = c.width := by rw [e]
      have hh : c'.getHeight = max c.getHeight (y + h) := getHeight_of (by omega) (by rw [hw]; exact s.1)
      have e1 : ∀ X Y, X < c.width → flipped (onPaper c.dot c.getHeight c.paperColor) x y w h X Y = flipped P x y w h X Y := by
        intro X Y hX
        unfold flipped
        rw [hv.dots X Y hX, hv.dots X _ hX]
      rw [← e1 X Y hX, hh]
      by_cases hy : Y < max c.getHeight (y + h)
      · show (if _ then _ else _) = _
        rw [if_pos hy, dot_of_shows hw s (by omega) hy]
      · show (if _ then _ else _) = _
        rw [if_neg hy]
        unfold flipped
        rw [if_neg (by unfold inRect; omega)]
        unfold onPaper
        rw [if_neg (by omega), (flipPixels_kept hp).paper]
    · simp only [flipPixels, bind_ok, addU32_ok] at hp
      obtain ⟨_, ⟨_, rfl⟩, hp⟩ := hp
      rw [if_neg (by omega)] at hp
      simp only [bind_ok, addU32_ok, mulU32_ok, pure_ok] at hp
      obtain ⟨_, ⟨_, rfl⟩, c1, h1, _, _, sub, h2, sub2, h3, ⟨c2, b⟩, h4, rfl⟩ := hp
      refine (putPixels_view (expandToHeight_view hv h1) h4).congr fun X Y hX => ?_
      rw [if_neg (fun h => by have := h.2; unfold inRect at this; omega)]
      unfold flipped
      rw [if_neg (by unfold inRect; omega)]
  · rw [if_neg hfit]
    simp only [flipPixels, bind_ok, addU32_ok] at hp
    obtain ⟨_, ⟨_, rfl⟩, hp⟩ := hp
    rw [if_pos (by omega), pure_ok] at hp
    subst hp; exact hv

theorem putRenderImg_view {c c' : Canvas} {i : Image} {P : Plane} (hv : View c P) (hp : c.putRenderImg i = .ok c') :
    View c' (imageOn c.width P i) := by
  simp only [putRenderImg, bind_ok] at hp
  obtain ⟨px, h0, ⟨c1, b⟩, h1, hp⟩ := hp
  unfold debugImage at h0
  rw [hv.calm] at h0
  simp only [Bool.false_eq_true, if_false, ok_ok] at h0
  subst h0
  have hw : c1.width = c.width := (putPixels_kept h1).width
  have v1 : View c1 (if i.pixels.length ≤ i.w * i.h then drawn RGBA.multiply P (fun x y => i.pixels.getD (y * i.w + x) RGBA.blank) i.x i.y i.w i.h else P) := by
    refine (putPixels_view hv h1).congr fun x y _ => ?_
    by_cases hl : i.pixels.length ≤ i.w * i.h
    · rw [if_pos hl]
      unfold drawn
      by_cases hr : inRect i.x i.y i.w i.h x y
      · rw [if_pos ⟨hl, hr⟩, if_pos hr]
        dsimp only
        rw [List.getD_eq_getElem?_getD]
        cases i.pixels[(y - i.y) * i.w + (x - i.x)]? with
        | none => rfl
        | some p => rfl
      · rw [if_neg (fun h => hr h.2), if_neg hr]
    · rw [if_neg hl, if_neg (fun h => hl h.1)]
  dsimp only at hp
  unfold imageOn
  dsimp only
  cases hu : i.upsideDown with
  | true =>
    rw [hu] at hp
    rw [if_pos rfl] at hp
    have := flipPixels_view v1 hp
    rw [hw] at this
    simpa using this
  | false =>
    rw [hu] at hp
    simp only [Bool.false_eq_true, if_false, pure_ok] at hp
    subst hp
    simpa using v1

/-! ### Characters -/

theorem glyphLoop_get {g : Glyph} {rw_ rh : Nat} {bg color : RGBA} (hrw : rw_ < U32) (hrh : rh < U32) (hg : 0 < g.width) {cov : List Byte} {i : Nat} {cell : List RGBA} (hl : cell.length = rw_ * rh)
    {x y : Nat} (hx : x < rw_) (hy : y < rh) :
    (glyphLoop g rw_ rh color cov i cell)[y * rw_ + x]? =
      (cell[y * rw_ + x]?).map fun p =>
        if g.xOffset ≤ x ∧ g.yOffset ≤ y ∧ x - g.xOffset < g.width ∧ i ≤ (y - g.yOffset) * g.width + (x - g.xOffset) then
          (cov[(y - g.yOffset) * g.width + (x - g.xOffset) - i]?).elim p (p.blendWithAlpha color) else p := by
  induction cov generalizing i cell with
  | nil =>
    unfold glyphLoop
    simp
  | cons a rest ih =>
    unfold glyphLoop
    dsimp only
    generalize hc : (if satAdd (i % g.width) g.xOffset < rw_ ∧ satAdd (i / g.width) g.yOffset < rh then
      cell.modify (satAdd (i / g.width) g.yOffset * rw_ + satAdd (i % g.width) g.xOffset) (fun p => p.blendWithAlpha color a) else cell) = cell'
    have hl' : cell'.length = rw_ * rh := by rw [← hc]; split <;> simp [hl]
    rw [ih hl']
    have hlt : y * rw_ + x < cell.length := by rw [hl]; exact rm_lt hx hy
    have hdm := Nat.div_add_mod i g.width
    have hml := Nat.mod_lt i hg
    -- whether dot `i` of the coverage is the dot `(x, y)` of the cell
    by_cases hit : g.xOffset ≤ x ∧ g.yOffset ≤ y ∧ x - g.xOffset < g.width ∧ i = (y - g.yOffset) * g.width + (x - g.xOffset)
    · obtain ⟨h1, h2, h3, h4⟩ := hit
      have e1 : i % g.width = x - g.xOffset := by rw [h4, Nat.mul_comm, Nat.mul_add_mod, Nat.mod_eq_of_lt h3]
      have e2 : i / g.width = y - g.yOffset := by rw [h4, Nat.mul_comm, Nat.mul_add_div hg, Nat.div_eq_of_lt h3, Nat.add_zero]
      have s1 : satAdd (i % g.width) g.xOffset = x := by rw [e1]; unfold satAdd; omega
      have s2 : satAdd (i / g.width) g.yOffset = y := by rw [e2]; unfold satAdd; omega
      rw [s1, s2, if_pos ⟨hx, hy⟩] at hc
      rw [← hc, List.getElem?_modify, List.getElem?_eq_getElem hlt]
      simp only [Option.map_some, if_true, Option.map_eq_map]
      have k1 : ¬ (g.xOffset ≤ x ∧ g.yOffset ≤ y ∧ x - g.xOffset < g.width ∧ i + 1 ≤ (y - g.yOffset) * g.width + (x - g.xOffset)) := by
        rintro ⟨_, _, _, h⟩; omega
      have k2 : g.xOffset ≤ x ∧ g.yOffset ≤ y ∧ x - g.xOffset < g.width ∧ i ≤ (y - g.yOffset) * g.width + (x - g.xOffset) :=
        ⟨h1, h2, h3, by omega⟩
      simp only [if_neg k1, if_pos k2, show (y - g.yOffset) * g.width + (x - g.xOffset) - i = 0 by omega]
      simp
    · have hsame : cell'[y * rw_ + x]? = cell[y * rw_ + x]? := by
        rw [← hc]
        split
        · rename_i hin
          have hne : ¬ satAdd (i / g.width) g.yOffset * rw_ + satAdd (i % g.width) g.xOffset = y * rw_ + x := by
            intro heq
            obtain ⟨q1, q2⟩ := rm_inj hin.1 hx heq
            apply hit
            have u1 : satAdd (i % g.width) g.xOffset = i % g.width + g.xOffset := by unfold satAdd at hin ⊢; omega
            have u2 : satAdd (i / g.width) g.yOffset = i / g.width + g.yOffset := by unfold satAdd at hin ⊢; omega
            rw [u1] at q2; rw [u2] at q1
            have w1 : x - g.xOffset = i % g.width := by rw [← q2, Nat.add_sub_cancel]
            have w2 : y - g.yOffset = i / g.width := by rw [← q1, Nat.add_sub_cancel]
            refine ⟨by rw [← q2]; exact Nat.le_add_left _ _, by rw [← q1]; exact Nat.le_add_left _ _, by rw [w1]; exact hml, ?_⟩
            rw [w1, w2, Nat.mul_comm]
            exact hdm.symm
          rw [List.getElem?_modify]
          simp only [if_neg hne]
          simp
        · rfl
      rw [hsame]
      congr 1
      funext p
      generalize hk : (y - g.yOffset) * g.width + (x - g.xOffset) = k at *
      by_cases hle : g.xOffset ≤ x ∧ g.yOffset ≤ y ∧ x - g.xOffset < g.width ∧ i ≤ k
      · have : i < k := by
          rcases Nat.lt_or_eq_of_le hle.2.2.2 with h | h
          · exact h
          · exact absurd ⟨hle.1, hle.2.1, hle.2.2.1, h⟩ hit
        rw [if_pos hle, if_pos ⟨hle.1, hle.2.1, hle.2.2.1, this⟩, show k - i = k - (i + 1) + 1 by clear hdm hk; omega]
        rfl
      · rw [if_neg hle, if_neg]
        rintro ⟨h1, h2, h3, h4⟩
        exact hle ⟨h1, h2, h3, Nat.le_of_succ_le h4⟩

theorem cell_shows {g : Glyph} {rw_ rh : Nat} {bg color : RGBA} (hu : rw_ < U32) (hh : rh < U32) :
    Shows (if g.width > 0 then glyphLoop g rw_ rh color g.coverage 0 (List.replicate (rw_ * rh) bg) else List.replicate (rw_ * rh) bg) rw_ rh (glyphDot g bg color) := by
  have hlen : ∀ (cov : List Byte) (i : Nat) (cell : List RGBA), (glyphLoop g rw_ rh color cov i cell).length = cell.length := by
    intro cov
    induction cov with
    | nil => intro i cell; rfl
    | cons a rest ih =>
      intro i cell
      unfold glyphLoop
      dsimp only
      rw [ih]
      split <;> simp
  have hrep : ∀ x y, x < rw_ → y < rh → (List.replicate (rw_ * rh) bg)[y * rw_ + x]? = some bg := by
    intro x y hx hy
    rw [List.getElem?_replicate, if_pos (rm_lt hx hy)]
  split
  · rename_i hg
    refine ⟨by rw [hlen]; simp, fun x y hx hy => ?_⟩
    rw [glyphLoop_get (bg := bg) hu hh hg (by simp) hx hy, hrep x y hx hy, Option.map_some]
    unfold glyphDot
    simp only [Nat.zero_le, and_true, Nat.sub_zero]
  · refine ⟨by simp, fun x y hx hy => ?_⟩
    rw [hrep x y hx hy]
    unfold glyphDot
    rw [if_neg (by omega)]


theorem renderChar_shows {gs : Glyphs} {s : TextSpan} {ch : Char} {o : Option (List RGBA × Nat × Nat)}
    (hs : s.characterWidth ≠ 0 ∧ s.characterHeight ≠ 0 → enlargement s ≤ 1 → s.characterWidth = s.baseCharacterWidth ∧ s.characterHeight = s.baseCharacterHeight)
    (hb : (s.characterWidth ≤ s.baseCharacterWidth * enlargement s ∧ s.baseCharacterWidth * enlargement s ≤ 192) ∧
      s.characterHeight ≤ s.baseCharacterHeight * enlargement s ∧ s.baseCharacterHeight * enlargement s ≤ 192)
    (h : renderChar gs s.bold s.italic s.font ch s.baseCharacterWidth s.baseCharacterHeight s.characterWidth s.characterHeight
      s.backgroundColor s.textColor = .ok o) :
    match o with
    | none => (glyphOf gs s ch).control = true
    | some (px, w, h) => (glyphOf gs s ch).control = false ∧ w = s.characterWidth ∧ h = s.characterHeight ∧
        (s.characterWidth ≠ 0 ∧ s.characterHeight ≠ 0 → Shows px w h (cellDot gs s ch)) := by
  simp only [renderChar, bind_ok, divU_ok, mulU32_ok] at h
  obtain ⟨_, ⟨hw0, rfl⟩, _, ⟨hh0, rfl⟩, _, ⟨hw, rfl⟩, _, ⟨hh, rfl⟩, h⟩ := h
  have hg : gs.glyph s.bold s.italic s.font (max (s.characterHeight / s.baseCharacterHeight) (s.characterWidth / s.baseCharacterWidth)) ch = glyphOf gs s ch := rfl
  rw [hg] at h
  have he : max (s.characterHeight / s.baseCharacterHeight) (s.characterWidth / s.baseCharacterWidth) = enlargement s := rfl
  rw [he] at h hw hh
  split at h
  · rename_i hc
    rw [pure_ok] at h; subst h; exact hc
  · rename_i hc
    have hc : (glyphOf gs s ch).control = false := by simpa using hc
    have hcell := cell_shows (g := glyphOf gs s ch) (bg := s.backgroundColor) (color := s.textColor) hw hh
    generalize hcc : (if (glyphOf gs s ch).width > 0 then glyphLoop (glyphOf gs s ch) (s.baseCharacterWidth * enlargement s) (s.baseCharacterHeight * enlargement s) s.textColor (glyphOf gs s ch).coverage 0 (List.replicate (s.baseCharacterWidth * enlargement s * (s.baseCharacterHeight * enlargement s)) s.backgroundColor) else List.replicate (s.baseCharacterWidth * enlargement s * (s.baseCharacterHeight * enlargement s)) s.backgroundColor) = cell at *
    split at h
    · rename_i hk
      simp only [bind_ok, pure_ok, scaleBitmap, mulU32_ok] at h
      obtain ⟨_, ⟨_, ⟨_, rfl⟩, rfl⟩, rfl⟩ := h
      refine ⟨hc, rfl, rfl, fun _ => ?_⟩
      have hd : ∀ x y, x < s.characterWidth → y < s.characterHeight →
          cell.getD (Canvas.source y (s.baseCharacterHeight * enlargement s) s.characterHeight * (s.baseCharacterWidth * enlargement s) + Canvas.source x (s.baseCharacterWidth * enlargement s) s.characterWidth) RGBA.blank = cellDot gs s ch x y := by
        intro x y hx hy
        rw [List.getD_eq_getElem?_getD, hcell.2 _ _ (F32.source_lt hx hb.1.1 hb.1.2) (F32.source_lt hy hb.2.1 hb.2.2)]
        unfold cellDot
        rw [if_neg (by omega)]
        rfl
      exact Thermal.Shows.of_rows hd
    · rename_i hk
      rw [pure_ok] at h; subst h
      refine ⟨hc, rfl, rfl, fun hn => ?_⟩
      obtain ⟨e1, e2⟩ := hs hn (by omega)
      have hone : enlargement s = 1 := by
        unfold enlargement at hk ⊢
        rw [e1, e2, Nat.div_self (by omega), Nat.div_self (by omega)]
        rfl
      rw [hone, Nat.mul_one, Nat.mul_one, ← e1, ← e2] at hcell
      refine Thermal.Shows.of_get hcell fun x y _ _ => ?_
      unfold cellDot
      rw [if_pos (by omega)]

/-- Characters are not empty, and enlarged unless they have the size of the font. -/
theorem _root_.Thermal.Outfit.Span.measure {s : TextSpan} (h : Outfit.Span s) :
    0 < s.characterWidth ∧ 0 < s.characterHeight ∧
      (enlargement s ≤ 1 → s.characterWidth = s.baseCharacterWidth ∧ s.characterHeight = s.baseCharacterHeight) ∧
      (s.characterWidth ≤ s.baseCharacterWidth * enlargement s ∧ s.baseCharacterWidth * enlargement s ≤ 192) ∧
      s.characterHeight ≤ s.baseCharacterHeight * enlargement s ∧ s.baseCharacterHeight * enlargement s ≤ 192 := by
  have key : ∀ n ∈ sizes, 0 < n ∧ n ≤ 8 := by decide
  have kc : ∀ p ∈ cells, 0 < p.1 ∧ 0 < p.2 ∧ p.1 ≤ 24 ∧ p.2 ≤ 24 := by decide
  obtain ⟨b1, b2, b3, b4⟩ := kc _ h.cell
  dsimp only at b1 b2 b3 b4
  obtain ⟨w1, w3⟩ := key _ h.width
  obtain ⟨w2, w4⟩ := key _ h.height
  have he : enlargement s = max s.stretchHeight s.stretchWidth := by
    unfold enlargement
    rw [h.wide, h.high, Nat.mul_div_cancel_left _ b1, Nat.mul_div_cancel_left _ b2]
  refine ⟨by rw [h.wide]; exact Nat.mul_pos b1 w1, by rw [h.high]; exact Nat.mul_pos b2 w2, fun he => ?_,
    ⟨by rw [h.wide, he]; exact Nat.mul_le_mul_left _ (by omega), Nat.le_trans (Nat.mul_le_mul b3 (by rw [he]; omega : _ ≤ 8)) (by omega)⟩,
    by rw [h.high, he]; exact Nat.mul_le_mul_left _ (by omega), Nat.le_trans (Nat.mul_le_mul b4 (by rw [he]; omega : _ ≤ 8)) (by omega)⟩
  have e1 : s.stretchWidth = 1 := by omega
  have e2 : s.stretchHeight = 1 := by omega
  rw [h.wide, h.high, e1, e2, Nat.mul_one, Nat.mul_one]
  exact ⟨rfl, rfl⟩

theorem renderChars_view {gs : Glyphs} {s : TextSpan} (hs : Outfit.Span s) {y : Nat} {text : Str} {x : Nat} {c c' : Canvas} {P : Plane}
    (hv : View c P) (h : renderChars gs s y text x c = .ok c') : View c' (charsOn gs s y text x P) := by
  induction text generalizing x c P with
  | nil => simp only [renderChars, ok_ok] at h; subst h; exact hv
  | cons ch rest ih =>
    simp only [renderChars, bind_ok] at h
    obtain ⟨b, hb, h⟩ := h
    obtain ⟨m1, m2, m3, m4⟩ := hs.measure
    have hsh := renderChar_shows (fun _ => m3) m4 hb
    rw [if_neg (by simp; omega)] at h
    simp only [bind_ok, addU32_ok] at h
    obtain ⟨c1, h1, _, ⟨_, rfl⟩, h2⟩ := h
    refine ih ?_ h2
    rcases b with _ | ⟨px, w, hh⟩
    · dsimp only at hsh
      simp only [putChar, ok_ok] at h1
      subst h1
      rw [if_pos hsh]; exact hv
    · dsimp only at hsh
      obtain ⟨e0, rfl, rfl, e3⟩ := hsh
      simp only [putChar, bind_ok, pure_ok, debugText] at h1
      obtain ⟨px', hp, ⟨c2, b⟩, h1, rfl⟩ := h1
      rw [hv.calm] at hp
      simp only [Bool.false_eq_true, if_false, ok_ok] at hp
      subst hp
      rw [if_neg (by rw [e0]; exact Bool.false_ne_true)]
      exact putPixels_drawn hv (e3 ⟨by omega, by omega⟩) h1

theorem renderSpan_view {gs : Glyphs} {s : TextSpan} (hs : Outfit.Span s) {xo mh : Nat} (hm : mh ≤ 255) {c c' : Canvas} {P : Plane}
    (hv : View c P) (h : renderSpan gs c xo mh s = .ok c') : View c' (spanOn gs c.width xo mh P s) := by
  have hw : c'.width = c.width := (renderSpan_kept h).width
  unfold renderSpan at h
  unfold spanOn
  cases hd : s.dimensions with
  | none =>
    rw [hd] at h
    simp only [ok_ok] at h
    subst h; exact hv
  | some d =>
    rw [hd] at h
    simp only [bind_ok, addU32_ok] at h
    obtain ⟨_, ⟨_, rfl⟩, off, hoff, _, ⟨_, rfl⟩, c1, h1, c2, h2, c3, h3, c4, h4, h5⟩ := h
    obtain ⟨hle, rfl⟩ := spanOffset_eq hm hoff
    have v1 := renderChars_view hs hv h1
    have w1 := (renderChars_kept h1).width
    unfold debugBaseline at h2
    rw [v1.calm] at h2
    simp only [Bool.false_eq_true, if_false, ok_ok] at h2
    subst h2
    dsimp only
    generalize charsOn gs s (d.y + baselineOf s.font (mh - s.characterHeight)) s.text (d.x + xo) P = P1 at v1 ⊢
    have hb : baseline s.font s.characterHeight = baselineOf s.font s.characterHeight := baseline_eq (by omega)
    have v3 : View c3 (if s.underline > 0 then rectOn s.textColor P1 ⟨d.x + xo, d.y + baselineOf s.font (mh - s.characterHeight) + 3 + baselineOf s.font s.characterHeight, d.w, 1⟩ else P1) ∧ c3.width = c1.width := by
      unfold drawUnderline at h3
      split at h3
      · rename_i hu
        simp only [bind_ok, addU32_ok] at h3
        obtain ⟨_, ⟨_, rfl⟩, _, ⟨_, rfl⟩, h3⟩ := h3
        rw [if_pos hu, ← hb]
        exact ⟨drawRect_view v1 h3, (drawRect_kept h3).width⟩
      · rename_i hu
        rw [if_neg hu]
        rw [ok_ok] at h3; subst h3; exact ⟨v1, rfl⟩
    obtain ⟨v3, w3⟩ := v3
    generalize (if s.underline > 0 then rectOn s.textColor P1 ⟨d.x + xo, d.y + baselineOf s.font (mh - s.characterHeight) + 3 + baselineOf s.font s.characterHeight, d.w, 1⟩ else P1) = P2 at v3 ⊢
    have v4 : View c4 (if s.strikethrough > 0 then rectOn s.textColor P2 ⟨d.x + xo, d.y + baselineOf s.font (mh - s.characterHeight) + s.characterHeight * 2 / 5, d.w, s.strikethrough⟩ else P2) ∧ c4.width = c3.width := by
      unfold drawStrike at h4
      split at h4
      · rename_i hu
        simp only [bind_ok, addU32_ok] at h4
        obtain ⟨_, ⟨_, rfl⟩, h4⟩ := h4
        rw [F32.strike_exact (by omega)] at h4
        rw [if_pos hu]
        exact ⟨drawRect_view v3 h4, (drawRect_kept h4).width⟩
      · rename_i hu
        rw [if_neg hu]
        rw [ok_ok] at h4; subst h4; exact ⟨v3, rfl⟩
    obtain ⟨v4, w4⟩ := v4
    generalize (if s.strikethrough > 0 then rectOn s.textColor P2 ⟨d.x + xo, d.y + baselineOf s.font (mh - s.characterHeight) + s.characterHeight * 2 / 5, d.w, s.strikethrough⟩ else P2) = P3 at v4 ⊢
    split at h5
    · rename_i hu
      have := flipPixels_view v4 h5
      rw [w4, w3, w1] at this
      simpa [hu] using this
    · rename_i hu
      rw [pure_ok] at h5; subst h5
      simpa [hu] using v4

end Canvas

namespace ImageRenderer
open Canvas

theorem putRects_view {color : RGBA} {rs : List Rectangle} {c c' : Canvas} {P : Plane} (hv : View c P) (h : putRects color rs c = .ok c') :
    View c' (rs.foldl (rectOn color) P) := by
  induction rs generalizing c P with
  | nil => simp only [putRects, ok_ok] at h; subst h; exact hv
  | cons r rs ih =>
    simp only [putRects, bind_ok, putRect] at h
    obtain ⟨c1, h1, h2⟩ := h
    exact ih (drawRect_view hv h1) h2

theorem renderSpans_view {gs : Glyphs} {ss : List TextSpan} (hs : ∀ s ∈ ss, Outfit.Span s) {xo mh w : Nat} (hm : mh ≤ 255) {c c' : Canvas} {P : Plane}
    (hw : c.width = w) (hv : View c P) (h : renderSpans gs xo mh ss c = .ok c') : View c' (ss.foldl (spanOn gs w xo mh) P) := by
  induction ss generalizing c P with
  | nil => simp only [renderSpans, ok_ok] at h; subst h; exact hv
  | cons r rs ih =>
    simp only [renderSpans, bind_ok] at h
    obtain ⟨c1, h1, h2⟩ := h
    have := renderSpan_view (hs r (by simp)) hm hv h1
    rw [hw] at this
    exact ih (fun s hm => hs s (by simp [hm])) ((renderSpan_kept h1).width.trans hw) this h2

/-- One call on the paper, in standard mode. -/
theorem perform_view {gs : Glyphs} {x : Context × Call} {s s' : ImageRenderer × List ReceiptImage} {P : Plane} {w : Nat}
    (hw : s.1.paper.width = w) (hv : View s.1.paper P) (hx : x.1.pageMode.enabled = false) (hs : x.2.Wears Outfit.Span)
    (hn : x.2 ≠ .beginRender ∧ x.2 ≠ .endRender ∧ x.2 ≠ .renderPage) (h : Call.perform (imageRenderer gs) x s = .ok s') :
    s'.1.paper.width = w ∧ View s'.1.paper (callOn gs w P x) ∧ s'.2 = s.2 := by
  obtain ⟨c, x⟩ := x
  obtain ⟨s, outs⟩ := s
  obtain ⟨n1, n2, n3⟩ := hn
  dsimp only at hv hx hs n1 n2 n3 hw
  cases x <;> simp only [Call.perform, imageRenderer, bind_ok, ok_ok] at h
  case beginRender => exact absurd rfl n1
  case endRender => exact absurd rfl n2
  case renderPage => exact absurd rfl n3
  case pageBegin => obtain ⟨t, rfl, rfl⟩ := h; exact ⟨hw, hv, rfl⟩
  case pageEnd => obtain ⟨t, rfl, rfl⟩ := h; exact ⟨hw, hv, rfl⟩
  case device => obtain ⟨t, rfl, rfl⟩ := h; exact ⟨hw, hv, rfl⟩
  case pageAreaChanged =>
    obtain ⟨t, ht, rfl⟩ := h
    simp only [ImageRenderer.pageAreaChanged, bind_ok, pure_ok] at ht
    obtain ⟨p1, h1, p2, h2, p3, h3, rfl⟩ := ht
    exact ⟨hw, hv, rfl⟩
  case graphics rs =>
    obtain ⟨t, ht, rfl⟩ := h
    simp only [onCanvas, hx, Bool.false_eq_true, if_false, bind_ok, pure_ok] at ht
    obtain ⟨p, hp, rfl⟩ := ht
    exact ⟨(putRects_kept hp).width.trans hw, putRects_view hv hp, rfl⟩
  case image i =>
    obtain ⟨t, ht, rfl⟩ := h
    simp only [onCanvas, hx, Bool.false_eq_true, if_false, bind_ok, pure_ok] at ht
    obtain ⟨p, hp, rfl⟩ := ht
    have := putRenderImg_view hv hp
    rw [hw] at this
    exact ⟨(putRenderImg_kept hp).width.trans hw, this, rfl⟩
  case text l xo mh j =>
    obtain ⟨t, ht, rfl⟩ := h
    simp only [onCanvas, hx, Bool.false_eq_true, if_false, bind_ok, pure_ok] at ht
    obtain ⟨p, hp, rfl⟩ := ht
    exact ⟨(renderSpans_kept hp).width.trans hw, renderSpans_view hs.1 (by have := lineHeight_le hs.1; rw [← hs.2] at this; omega) hw hv hp, rfl⟩

theorem replay_view {gs : Glyphs} {xs : List (Context × Call)} {s s' : ImageRenderer × List ReceiptImage} {P : Plane} {w : Nat}
    (hw : s.1.paper.width = w) (hv : View s.1.paper P) (hx : ∀ x ∈ xs, x.1.pageMode.enabled = false) (hs : ∀ x ∈ xs, x.2.Wears Outfit.Span)
    (hn : ∀ x ∈ xs, x.2 ≠ .beginRender ∧ x.2 ≠ .endRender ∧ x.2 ≠ .renderPage) (h : replay (imageRenderer gs) xs s = .ok s') :
    s'.1.paper.width = w ∧ View s'.1.paper (xs.foldl (callOn gs w) P) ∧ s'.2 = s.2 := by
  induction xs generalizing s P with
  | nil => simp only [replay, ok_ok] at h; subst h; exact ⟨hw, hv, rfl⟩
  | cons x xs ih =>
    simp only [replay, bind_ok] at h
    obtain ⟨s1, h1, h2⟩ := h
    obtain ⟨a, b, c⟩ := perform_view hw hv (hx x (by simp)) (hs x (by simp)) (hn x (by simp)) h1
    obtain ⟨a', b', c'⟩ := ih a b (fun y hy => hx y (by simp [hy])) (fun y hy => hs y (by simp [hy])) (fun y hy => hn y (by simp [hy])) h2
    exact ⟨a', b', c'.trans c⟩

/-- The image: the plane with margins, cut off below everything that is printed. -/
theorem endRender_view {s s' : ImageRenderer} {c : Context} {o : ReceiptImage} {P : Plane} (hw : s.paper.width = 609) (hv : View s.paper P) (hc : OnPaper c)
    (h : s.endRender c = .ok (s', o)) : o.width = 649 ∧ o.height = max s.paper.getHeight c.graphics.renderArea.y ∧
      (∀ x y, x < 609 → o.height ≤ y → P x y = ⟨255, 255, 255, 255⟩) ∧
      ∀ x y, x < 609 → y < o.height → o.bytes[3 * (y * 649 + 20 + x)]? = some (P x y).r ∧ o.bytes[3 * (y * 649 + 20 + x) + 1]? = some (P x y).g ∧
        o.bytes[3 * (y * 649 + 20 + x) + 2]? = some (P x y).b := by
  simp only [endRender, bind_ok, pure_ok, hc.paper] at h
  obtain ⟨p1, h1, p2, h2, ⟨p3, w, hh, bytes⟩, h3, h4⟩ := h
  obtain ⟨px, e1, s1⟩ := Canvas.expandToWidth_shows (n := 649) hv.rect (by omega)
  rw [e1, ok_ok] at h1
  have hp1w : p1.width = 649 := by rw [← h1]
  have hp1c : p1.paperColor = ⟨255, 255, 255, 255⟩ := by rw [← h1]; exact hv.paper
  have s1' : Shows p1.bytes p1.width s.paper.getHeight (Canvas.centred s.paper.dot ((649 - s.paper.width) / 2) s.paper.width s.paper.paperColor) := by
    rw [hp1w, ← h1]; exact s1
  obtain ⟨f1, f2, f3⟩ := Canvas.expandToHeight_shows s1' h2
  have f2 := f2 (by omega)
  have hp2w : p2.width = 649 := by rw [f1]; exact hp1w
  have hp2h : p2.getHeight = max s.paper.getHeight c.graphics.renderArea.y :=
    Canvas.getHeight_of (by omega) (by rw [hp2w, ← hp1w]; exact f2.1)
  simp only [Canvas.consumeRgb, bind_ok, pure_ok, Prod.mk.injEq] at h3
  obtain ⟨_, _, rfl, rfl, rfl, rfl⟩ := h3
  simp only [Prod.mk.injEq] at h4
  obtain ⟨rfl, rfl⟩ := h4
  refine ⟨hp2w, hp2h, fun x y hx hy => ?_, fun x y hx hy => ?_⟩
  · dsimp only at hy
    rw [← hv.dots x y (by omega), hv.paper]
    unfold onPaper
    rw [if_neg (by omega)]
  · dsimp only at hy ⊢
    rw [hp2h] at hy
    have hdot := f2.2 (20 + x) y (by omega) hy
    rw [hp1w, hp1c, ← hv.paper] at hdot
    have e : onPaper (Canvas.centred s.paper.dot ((649 - s.paper.width) / 2) s.paper.width s.paper.paperColor) s.paper.getHeight s.paper.paperColor (20 + x) y
        = P x y := by
      rw [← hv.dots x y (by omega)]
      unfold onPaper
      split
      · unfold Canvas.centred
        rw [hw, if_pos (by omega), show 20 + x - (649 - 609) / 2 = x by omega]
      · rfl
    rw [e, ← Nat.add_assoc] at hdot
    exact rgb_get p2.bytes _ _ hdot

end ImageRenderer
end Thermal
