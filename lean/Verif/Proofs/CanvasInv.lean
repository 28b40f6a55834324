import Verif.Proofs.CanvasMore
import Verif.Proofs.Graphics
/-
What every drawing operation keeps: the width, complete rows, the height or more, opaque dots.
-/
namespace Thermal
open Spec

namespace RGBA

theorem multiply_a (c fg : RGBA) : (c.multiply fg).a = c.a := by
  unfold multiply; split <;> rfl

theorem blend_a {c : RGBA} (fg : RGBA) (h : c.a = 255) : (c.blend fg).a = 255 := by
  unfold blend blendWithAlpha
  split <;> split <;> first | rfl | exact h

end RGBA

namespace Canvas

theorem combine_a {mul : Bool} {c : RGBA} (fg : RGBA) (h : c.a = 255) : (combine mul c fg).a = 255 := by
  unfold combine
  cases mul
  · rw [if_neg (by decide)]; exact RGBA.blend_a fg h
  · rw [if_pos rfl, RGBA.multiply_a, h]

/-- From `c` to `c'` only dots and messages changed, and rows were appended. -/
structure Kept (c c' : Canvas) : Prop where
  width : c'.width = c.width
  autoGrow : c'.autoGrow = c.autoGrow
  debug : c'.debug = c.debug
  paper : c'.paperColor = c.paperColor
  rect : c.Rect → c'.Rect
  height : c.Rect → c.getHeight ≤ c'.getHeight
  ink : c.Rect → c.Opaque → c.paperColor.a = 255 → c'.Opaque

theorem Kept.rfl' (c : Canvas) : Kept c c := ⟨rfl, rfl, rfl, rfl, id, fun _ => Nat.le_refl _, fun _ h _ => h⟩

theorem Kept.trans {a b c : Canvas} (h1 : Kept a b) (h2 : Kept b c) : Kept a c where
  width := h2.width.trans h1.width
  autoGrow := h2.autoGrow.trans h1.autoGrow
  debug := h2.debug.trans h1.debug
  paper := h2.paper.trans h1.paper
  rect h := h2.rect (h1.rect h)
  height h := Nat.le_trans (h1.height h) (h2.height (h1.rect h))
  ink h ho hp := h2.ink (h1.rect h) (h1.ink h ho hp) (by rw [h1.paper, hp])

theorem Kept.errors (c : Canvas) (e : List Str) : Kept c { c with errors := e } :=
  ⟨rfl, rfl, rfl, rfl, id, fun _ => Nat.le_refl _, fun _ h _ => h⟩

theorem expandToHeight_kept {c c' : Canvas} {n : Nat} (h : c.expandToHeight n = .ok c') : Kept c c' := by
  have h' := h
  simp only [expandToHeight, bind_ok, mulU32_ok, pure_ok] at h
  obtain ⟨_, ⟨_, rfl⟩, h⟩ := h
  by_cases hge : c.bytes.length ≥ c.width * n
  · rw [if_pos hge] at h; subst h; exact .rfl' c
  · rw [if_neg hge] at h
    subst h
    refine ⟨rfl, rfl, rfl, rfl, fun hr => (expandToHeight_shows hr.shows h').2.2, fun _ => ?_, fun _ ho hp p hm => ?_⟩
    · unfold getHeight
      dsimp only
      split
      · exact Nat.le_refl _
      · exact Nat.div_le_div_right (by rw [List.length_append]; omega)
    · rcases List.mem_append.1 hm with hm | hm
      · exact ho p hm
      · rw [List.eq_of_mem_replicate hm, hp]

theorem onPaper_opaque {c : Canvas} (hr : c.Rect) (ho : c.Opaque) (hp : c.paperColor.a = 255) {X Y : Nat} (hX : X < c.width) :
    (onPaper c.dot c.getHeight c.paperColor X Y).a = 255 := by
  unfold onPaper
  split
  · rename_i hY
    exact ho _ (List.mem_of_getElem? (hr.shows.2 X Y hX hY))
  · exact hp

theorem Put.kept {c c' : Canvas} {x y w h fw fh : Nat} {pixels : List RGBA} {mul : Bool}
    (hp : Put c c' x y w h fw fh pixels mul) : Kept c c' := by
  have hw : c'.width = c.width := by rw [hp.same]
  have hpos : 0 < c.width := by have := hp.inside; omega
  refine ⟨hw, by rw [hp.same], by rw [hp.same], by rw [hp.same], fun _ => ⟨_, by rw [hw]; exact hp.rows⟩, fun _ => ?_, fun hr ho hc p hm => ?_⟩
  · rw [getHeight_of (c := c') (by omega) (by rw [hw]; exact hp.rows)]; omega
  · obtain ⟨k, hk⟩ := List.getElem?_of_mem hm
    have hkl : k < c.width * max c.getHeight (y + fh) := by
      rw [← hp.rows]
      exact (List.getElem?_eq_some_iff.1 hk).1
    have hX := Nat.mod_lt k hpos
    have hY : k / c.width < max c.getHeight (y + fh) := by
      rw [Nat.div_lt_iff_lt_mul hpos, Nat.mul_comm]; exact hkl
    have := hp.dots (k % c.width) (k / c.width) hX hY
    rw [show k / c.width * c.width + k % c.width = k by rw [Nat.mul_comm]; exact Nat.div_add_mod ..] at this
    rw [this] at hk
    have hk := (Option.some.inj hk).symm
    have ho := onPaper_opaque hr ho hc (X := k % c.width) (Y := k / c.width) hX
    subst hk
    split
    · cases pixels[(k / c.width - y) * w + (k % c.width - x)]? with
      | none => exact ho
      | some q => exact combine_a q ho
    · exact ho

/-- Without complete rows nothing is claimed beyond the width. -/
theorem putPixels_same {c c' : Canvas} {x y w h : Nat} {pixels : List RGBA} {mul b : Bool}
    (hp : c.putPixels x y w h pixels mul = .ok (c', b)) :
    c'.width = c.width ∧ c'.autoGrow = c.autoGrow ∧ c'.debug = c.debug ∧ c'.paperColor = c.paperColor := by
  simp only [putPixels, bind_ok, mulU32_ok] at hp
  obtain ⟨_, ⟨_, rfl⟩, hp⟩ := hp
  split at hp
  · rw [pure_ok] at hp; have hp := congrArg Prod.fst hp; dsimp only at hp; subst hp; exact ⟨rfl, rfl, rfl, rfl⟩
  · split at hp
    · rw [pure_ok] at hp; have hp := congrArg Prod.fst hp; dsimp only at hp; subst hp; exact ⟨rfl, rfl, rfl, rfl⟩
    · simp only [bind_ok, pure_ok] at hp
      obtain ⟨_, _, _, _, c1, h1, _, _, hp⟩ := hp
      have k := expandToHeight_kept h1
      have hp := congrArg Prod.fst hp
      dsimp only at hp
      subst hp
      exact ⟨k.width, k.autoGrow, k.debug, k.paper⟩

theorem putPixels_kept {c c' : Canvas} {x y w h : Nat} {pixels : List RGBA} {mul b : Bool}
    (hp : c.putPixels x y w h pixels mul = .ok (c', b)) : Kept c c' := by
  cases b with
  | false => obtain ⟨m, rfl⟩ := putPixels_false hp; exact .errors c _
  | true =>
    obtain ⟨h1, h2, h3, h4⟩ := putPixels_same hp
    have key : c.Rect → Kept c c' := fun hr => by
      obtain ⟨fw, fh, hput⟩ := putPixels_true hr hp
      exact hput.kept
    exact ⟨h1, h2, h3, h4, fun hr => (key hr).rect hr, fun hr => (key hr).height hr, fun hr => (key hr).ink hr⟩

theorem drawRect_kept {c c' : Canvas} {x y w h : Nat} {color : RGBA} {mul : Bool}
    (hp : c.drawRect x y w h color mul = .ok c') : Kept c c' := by
  simp only [drawRect, bind_ok, pure_ok] at hp
  obtain ⟨_, _, ⟨c1, b⟩, h1, rfl⟩ := hp
  exact putPixels_kept h1

theorem flipPixels_kept {c c' : Canvas} {x y w h : Nat} (hp : c.flipPixels x y w h = .ok c') : Kept c c' := by
  simp only [flipPixels, bind_ok] at hp
  obtain ⟨_, _, hp⟩ := hp
  split at hp
  · rw [pure_ok] at hp; subst hp; exact .rfl' c
  · simp only [bind_ok, pure_ok] at hp
    obtain ⟨_, _, c1, h1, _, _, _, _, _, _, ⟨c2, b⟩, h2, rfl⟩ := hp
    exact (expandToHeight_kept h1).trans (putPixels_kept h2)

theorem putRenderImg_kept {c c' : Canvas} {i : Image} (hp : c.putRenderImg i = .ok c') : Kept c c' := by
  simp only [putRenderImg, bind_ok] at hp
  obtain ⟨_, _, ⟨c1, b⟩, h1, hp⟩ := hp
  dsimp only at hp
  split at hp
  · exact (putPixels_kept h1).trans (flipPixels_kept hp)
  · rw [pure_ok] at hp; subst hp; exact putPixels_kept h1

theorem putChar_kept {c c' : Canvas} {b : Option (List RGBA × Nat × Nat)} {x y : Nat} (hp : c.putChar b x y = .ok c') : Kept c c' := by
  unfold putChar at hp
  split at hp
  · rw [ok_ok] at hp; subst hp; exact .rfl' c
  · simp only [bind_ok, pure_ok] at hp
    obtain ⟨_, _, ⟨c1, b⟩, h1, rfl⟩ := hp
    exact putPixels_kept h1

theorem renderChars_kept {gs : Glyphs} {span : TextSpan} {y : Nat} {t : Str} {x : Nat} {c c' : Canvas}
    (hp : renderChars gs span y t x c = .ok c') : Kept c c' := by
  induction t generalizing x c with
  | nil => simp only [renderChars, ok_ok] at hp; subst hp; exact .rfl' c
  | cons ch rest ih =>
    simp only [renderChars, bind_ok] at hp
    obtain ⟨b, _, hp⟩ := hp
    split at hp
    · exact ih hp
    · simp only [bind_ok] at hp
      obtain ⟨c1, h1, _, _, hp⟩ := hp
      exact (putChar_kept h1).trans (ih hp)

theorem renderSpan_kept {gs : Glyphs} {c c' : Canvas} {xo mh : Nat} {span : TextSpan} (hp : renderSpan gs c xo mh span = .ok c') :
    Kept c c' := by
  unfold renderSpan at hp
  split at hp
  · rw [ok_ok] at hp; subst hp; exact .rfl' c
  · simp only [bind_ok] at hp
    obtain ⟨_, _, _, _, _, _, c1, h1, c2, h2, c3, h3, c4, h4, hp⟩ := hp
    have k2 : Kept c1 c2 := by
      unfold debugBaseline at h2
      split at h2
      · simp only [bind_ok] at h2; obtain ⟨_, _, _, _, h2⟩ := h2; exact drawRect_kept h2
      · rw [ok_ok] at h2; subst h2; exact .rfl' _
    have k3 : Kept c2 c3 := by
      unfold drawUnderline at h3
      split at h3
      · simp only [bind_ok] at h3; obtain ⟨_, _, _, _, h3⟩ := h3; exact drawRect_kept h3
      · rw [ok_ok] at h3; subst h3; exact .rfl' _
    have k4 : Kept c3 c4 := by
      unfold drawStrike at h4
      split at h4
      · simp only [bind_ok] at h4; obtain ⟨_, _, h4⟩ := h4; exact drawRect_kept h4
      · rw [ok_ok] at h4; subst h4; exact .rfl' _
    have k := ((renderChars_kept h1).trans k2).trans (k3.trans k4)
    split at hp
    · exact k.trans (flipPixels_kept hp)
    · rw [pure_ok] at hp; subst hp; exact k

/-! ### Operations that do not fail -/

theorem cropPixels_defined {pixels : List RGBA} {w h mw mh : Nat} {ch : Bool} (hl : pixels.length = w * h) (hu : w * h < U32) :
    ∃ r, cropPixels pixels w h mw mh ch = .ok r := by
  unfold cropPixels
  generalize hnw : (if w > mw then mw else w) = nw
  generalize hnh : (if ch = true then (if h > mh then mh else h) else h) = nh
  have e1 : nw ≤ w := by rw [← hnw]; split <;> omega
  have e2 : nh ≤ h := by
    rw [← hnh]
    split
    · split <;> omega
    · exact Nat.le_refl _
  have h1 : mulU32 nw nh = .ok (nw * nh) := by
    rw [mulU32_ok]
    exact ⟨Nat.lt_of_le_of_lt (Nat.mul_le_mul e1 e2) hu, rfl⟩
  obtain ⟨px, h2, _⟩ := forRange_inv (n := nh) (s := ([] : List RGBA)) (body := cropRow pixels w nw) (fun _ _ => True) trivial
    fun y acc hy _ => by
      have hrow : y * w + w ≤ w * h := by
        have : (y + 1) * w ≤ h * w := Nat.mul_le_mul_right _ (by omega)
        rw [Nat.add_mul, Nat.one_mul, Nat.mul_comm h] at this; exact this
      have m : mulU32 y w = .ok (y * w) := by rw [mulU32_ok]; exact ⟨by omega, rfl⟩
      have s : slice pixels (y * w) (y * w + nw) = .ok ((pixels.take (y * w + nw)).drop (y * w)) := by
        unfold slice; rw [if_pos (by omega)]
      exact ⟨_, by unfold cropRow; rw [m]; show (slice pixels (y * w) (y * w + nw) >>= _) = _; rw [s]; rfl, trivial⟩
  exact ⟨_, by dsimp only; rw [h1]; show (forRange nh [] (cropRow pixels w nw) >>= _) = _; rw [h2]; rfl⟩

theorem putLoop_defined {op : RGBA → RGBA → RGBA} {W x y fw fh H : Nat} {px : List RGBA} {k : Nat} {bytes : List RGBA} (hfw : 0 < fw)
    (hfit : x + fw ≤ W) (hH : y + fh ≤ H) (hb : bytes.length = W * H) (hu : W * H < U32) (hk : k + px.length ≤ fw * fh)
    (hx : x + fw < U32) (hy : y + fh < U32) :
    ∃ r, putLoop op W x fw px (x + k % fw) (y + k / fw) bytes = .ok r := by
  induction px generalizing k bytes with
  | nil => exact ⟨bytes, rfl⟩
  | cons p rest ih =>
    rw [List.length_cons] at hk
    have hlt := Nat.mod_lt k hfw
    have hdm := Nat.div_add_mod k fw
    have hrow : k / fw < fh := by rw [Nat.div_lt_iff_lt_mul hfw, Nat.mul_comm]; omega
    have hpos : (y + k / fw) * W + (x + k % fw) < W * H := rm_lt (by omega) (by omega)
    have m1 : mulU32 (y + k / fw) W = .ok ((y + k / fw) * W) := by
      rw [mulU32_ok]; exact ⟨Nat.lt_of_le_of_lt (Nat.le_add_right _ (x + k % fw)) (by omega), rfl⟩
    have m2 : addU32 ((y + k / fw) * W) (x + k % fw) = .ok ((y + k / fw) * W + (x + k % fw)) := by
      rw [addU32_ok]; exact ⟨by omega, rfl⟩
    have m3 : idx bytes ((y + k / fw) * W + (x + k % fw)) = .ok (bytes[(y + k / fw) * W + (x + k % fw)]'(by omega)) := by
      unfold idx; rw [List.getElem?_eq_getElem (by omega)]
    have m4 := setIdx_ok (l := bytes) (op (bytes[(y + k / fw) * W + (x + k % fw)]'(by omega)) p) (i := (y + k / fw) * W + (x + k % fw)) (by omega)
    have m5 : addU32 x fw = .ok (x + fw) := by rw [addU32_ok]; exact ⟨by omega, rfl⟩
    have m6 : subU (x + fw) 1 = .ok (x + fw - 1) := by rw [subU_ok]; exact ⟨by omega, rfl⟩
    unfold putLoop
    rw [m1]; show ∃ r, (addU32 _ _ >>= _) = _
    rw [m2]; show ∃ r, (idx _ _ >>= _) = _
    rw [m3]; show ∃ r, (setIdx _ _ _ >>= _) = _
    rw [m4]; show ∃ r, (addU32 _ _ >>= _) = _
    rw [m5]; show ∃ r, (subU _ _ >>= _) = _
    rw [m6]
    show ∃ r, (if x + k % fw = x + fw - 1 then (addU32 (y + k / fw) 1 >>= _) else (addU32 (x + k % fw) 1 >>= _)) = _
    have hb' : (applyW bytes [((y + k / fw) * W + (x + k % fw), fun _ => op (bytes[(y + k / fw) * W + (x + k % fw)]'(by omega)) p)]).length = W * H := by
      rw [applyW_length]; exact hb
    by_cases hlast : x + k % fw = x + fw - 1
    · rw [if_pos hlast]
      have m7 : addU32 (y + k / fw) 1 = .ok (y + k / fw + 1) := by rw [addU32_ok]; exact ⟨by omega, rfl⟩
      rw [m7]
      have e1 : (k + 1) % fw = 0 := by
        have : k + 1 = fw * (k / fw) + fw := by omega
        rw [this, Nat.mul_add_mod, Nat.mod_self]
      have e2 : (k + 1) / fw = k / fw + 1 := by
        have : k + 1 = fw * (k / fw) + fw := by omega
        rw [this, Nat.mul_add_div hfw, Nat.div_self hfw]
      have := ih (k := k + 1) hb' (by omega)
      rw [e1, e2, Nat.add_zero, ← Nat.add_assoc] at this
      exact this
    · rw [if_neg hlast]
      have m7 : addU32 (x + k % fw) 1 = .ok (x + k % fw + 1) := by rw [addU32_ok]; exact ⟨by omega, rfl⟩
      rw [m7]
      have hm : k % fw + 1 < fw := by omega
      have e1 : (k + 1) % fw = k % fw + 1 := by
        have : k + 1 = fw * (k / fw) + (k % fw + 1) := by omega
        rw [this, Nat.mul_add_mod, Nat.mod_eq_of_lt hm]
      have e2 : (k + 1) / fw = k / fw := by
        have : k + 1 = fw * (k / fw) + (k % fw + 1) := by omega
        rw [this, Nat.mul_add_div hfw, Nat.div_eq_of_lt hm, Nat.add_zero]
      have := ih (k := k + 1) hb' (by omega)
      rw [e1, e2, ← Nat.add_assoc] at this
      exact this

/-- Drawing a complete picture whose coordinates fit into 32 bits does not fail. -/
theorem putPixels_defined {c : Canvas} {x y w h : Nat} {pixels : List RGBA} {mul : Bool} (hr : c.Rect) (hl : pixels.length = w * h)
    (hwh : w * h < U32) (hx : x + w < U32) (hyw : y + w < U32) (hyh : y + h < U32) (hs : c.width * max c.getHeight (y + h) < U32) :
    ∃ r, c.putPixels x y w h pixels mul = .ok r := by
  have m1 : mulU32 w h = .ok (w * h) := by rw [mulU32_ok]; exact ⟨hwh, rfl⟩
  unfold putPixels
  rw [m1]
  show ∃ r, (if w * h < pixels.length then _ else _) = _
  rw [if_neg (by omega)]
  split
  · exact ⟨_, rfl⟩
  · rename_i hin
    have hxw : x < c.width := by
      simp only [Bool.or_eq_true, decide_eq_true_eq, not_or] at hin; omega
    have hfit : ∃ r, c.fitPixels x y w h pixels = .ok r := by
      have a1 : addU32 x w = .ok (x + w) := by rw [addU32_ok]; exact ⟨hx, rfl⟩
      have a2 : ∃ b, c.needsCropH y w = .ok b := by
        unfold needsCropH
        split
        · exact ⟨_, rfl⟩
        · have : addU32 y w = .ok (y + w) := by rw [addU32_ok]; exact ⟨hyw, rfl⟩
          rw [this]; exact ⟨_, rfl⟩
      obtain ⟨b, a2⟩ := a2
      unfold fitPixels
      rw [a1]; show ∃ r, (c.needsCropH y w >>= _) = _
      rw [a2]; show ∃ r, (if (decide (x + w > c.width) || b) = true then _ else _) = _
      split
      · exact cropPixels_defined hl hwh
      · exact ⟨_, rfl⟩
    obtain ⟨⟨fw, fh, px⟩, hf⟩ := hfit
    obtain ⟨e1, e2, e3, e4, e5, e6, e6', e7⟩ := fitPixels_eq hxw (by omega) hf
    rw [hf]
    show ∃ r, (addU32 y fh >>= _) = _
    have a3 : addU32 y fh = .ok (y + fh) := by rw [addU32_ok]; exact ⟨by omega, rfl⟩
    rw [a3]
    show ∃ r, (c.expandToHeight (y + fh) >>= _) = _
    have hle : c.width * (y + fh) ≤ c.width * max c.getHeight (y + h) := Nat.mul_le_mul_left _ (by omega)
    have a4 : ∃ c1, c.expandToHeight (y + fh) = .ok c1 := by
      have : mulU32 c.width (y + fh) = .ok (c.width * (y + fh)) := by rw [mulU32_ok]; exact ⟨by omega, rfl⟩
      unfold expandToHeight
      rw [this]; exact ⟨_, rfl⟩
    obtain ⟨c1, a4⟩ := a4
    rw [a4]
    obtain ⟨s1, s2, _⟩ := expandToHeight_shows hr.shows a4
    have s2 := s2 (by omega)
    have hw1 : c1.width = c.width := by rw [s1]
    show ∃ r, (putLoop _ c1.width x fw px x y c1.bytes >>= _) = _
    have hloop : ∃ b, putLoop (if mul = true then RGBA.multiply else RGBA.blend) c1.width x fw px x y c1.bytes = .ok b := by
      rw [hw1]
      by_cases hfw : fw = 0
      · rw [hfw, Nat.zero_mul] at e6
        rw [List.length_eq_zero_iff.1 (show px.length = 0 by omega)]
        exact ⟨_, rfl⟩
      · have := putLoop_defined (op := if mul = true then RGBA.multiply else RGBA.blend) (W := c.width) (x := x) (y := y) (fw := fw) (fh := fh) (px := px) (k := 0) (bytes := c1.bytes)
          (by omega) (by omega) (Nat.le_max_right c.getHeight (y + fh)) s2.1
          (Nat.lt_of_le_of_lt (Nat.mul_le_mul_left _ (by omega : max c.getHeight (y + fh) ≤ max c.getHeight (y + h))) hs)
          (by omega) (by omega) (by omega)
        rw [Nat.zero_mod, Nat.zero_div, Nat.add_zero, Nat.add_zero] at this
        exact this
    obtain ⟨b, hloop⟩ := hloop
    rw [hloop]
    exact ⟨_, rfl⟩

end Canvas
end Thermal
