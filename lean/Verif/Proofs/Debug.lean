import Verif.Props.Sheets
/-
The same drawing with and without a debug profile: what stays the same.
-/
namespace Thermal
open Spec

namespace Canvas

/-! ### Lengths -/

theorem setIdx_length {α : Type} {l l' : List α} {i : Nat} {x : α} (h : setIdx l i x = .ok l') : l'.length = l.length := by
  rw [(setIdx_eq h).2, applyW_length]

theorem blendAt_length {l l' : List RGBA} {i : Nat} {c : RGBA} (h : blendAt l i c = .ok l') : l'.length = l.length := by
  simp only [blendAt, bind_ok] at h
  obtain ⟨_, _, h⟩ := h
  exact setIdx_length h

theorem drawBorder_length {l l' : List RGBA} {w h : Nat} {c : RGBA} (e : drawBorder l w h c = .ok l') : l'.length = l.length := by
  simp only [drawBorder, bind_ok] at e
  obtain ⟨_, _, _, _, l1, e1, e2⟩ := e
  have h1 : l1.length = l.length := forRange_ind (fun _ (s : List RGBA) => s.length = l.length) rfl (fun i s s' _ hs hb => by
    simp only [bind_ok] at hb
    obtain ⟨_, b1, b2⟩ := hb
    rw [blendAt_length b2, blendAt_length b1, hs]) e1
  exact forRange_ind (fun _ (s : List RGBA) => s.length = l.length) h1 (fun i s s' _ hs hb => by
    simp only [bind_ok] at hb
    obtain ⟨_, _, _, b1, b2⟩ := hb
    rw [blendAt_length b2, blendAt_length b1, hs]) e2

theorem debugImage_length {c : Canvas} {i : Image} {px} (h : c.debugImage i = .ok px) : px.length = i.pixels.length := by
  unfold debugImage at h
  split at h
  · exact drawBorder_length h
  · rw [ok_ok] at h; rw [h]

theorem debugText_length {c : Canvas} {px px' : List RGBA} {w h : Nat} (e : c.debugText px w h = .ok px') : px'.length = px.length := by
  unfold debugText at e
  split at e
  · exact drawBorder_length e
  · rw [ok_ok] at e; rw [e]

theorem expandToHeight_length {c c' : Canvas} {n : Nat} (h : c.expandToHeight n = .ok c') : c'.bytes.length = max c.bytes.length (c.width * n) := by
  simp only [expandToHeight, bind_ok, mulU32_ok, pure_ok] at h
  obtain ⟨_, ⟨_, rfl⟩, rfl⟩ := h
  split
  · omega
  · simp only [List.length_append, List.length_replicate]; omega

/-- The height of what is drawn. -/
def fitH (c : Canvas) (x y w h : Nat) : Nat :=
  if (decide (x + w > c.width) || (!c.autoGrow && decide (y + w > c.getHeight))) && !c.autoGrow then min h (c.getHeight - y) else h

theorem fitPixels_height {c : Canvas} {x y w h : Nat} {px : List RGBA} {fw fh : Nat} {px'} (e : c.fitPixels x y w h px = .ok (fw, fh, px')) :
    fh = c.fitH x y w h := by
  simp only [fitPixels, bind_ok, addU32_ok] at e
  obtain ⟨_, ⟨_, rfl⟩, b, hb, e⟩ := e
  have hb' : b = (!c.autoGrow && decide (y + w > c.getHeight)) := by
    unfold needsCropH at hb
    split at hb
    · rename_i hg; rw [ok_ok] at hb; rw [← hb, hg]; rfl
    · rename_i hg
      simp only [bind_ok, pure_ok, addU32_ok] at hb
      obtain ⟨_, ⟨_, rfl⟩, rfl⟩ := hb
      have : c.autoGrow = false := by simpa using hg
      rw [this]; rfl
  subst hb'
  unfold fitH
  split at e
  · rename_i hc
    rw [hc]
    simp only [cropPixels, bind_ok, pure_ok] at e
    obtain ⟨_, _, _, _, e⟩ := e
    simp only [Prod.mk.injEq] at e
    rw [← e.2.1]
    cases hg : c.autoGrow
    · simp only [Bool.not_false, Bool.and_true, if_true]
      repeat' split
      all_goals omega
    · simp
  · rename_i hc
    simp only [Bool.not_eq_true] at hc
    rw [hc]
    simp only [pure_ok, Prod.mk.injEq] at e
    simp [← e.2.1]

/-- Nothing is drawn. -/
def misses (c : Canvas) (x y w h n : Nat) : Bool := decide (w * h < n) || (decide (x ≥ c.width) || (decide (y ≥ c.getHeight) && !c.autoGrow))

theorem putPixels_rows {c c' : Canvas} {x y w h : Nat} {px : List RGBA} {mul b : Bool} (e : c.putPixels x y w h px mul = .ok (c', b)) :
    c'.bytes.length = if c.misses x y w h px.length then c.bytes.length else max c.bytes.length (c.width * (y + c.fitH x y w h)) := by
  simp only [putPixels, bind_ok, mulU32_ok] at e
  obtain ⟨_, ⟨_, rfl⟩, e⟩ := e
  unfold misses
  split at e
  · rename_i hs
    rw [pure_ok] at e
    have e := congrArg Prod.fst e
    dsimp only at e
    subst e
    rw [decide_eq_true hs]; simp
  · rename_i hs
    rw [decide_eq_false hs]
    split at e
    · rename_i hm
      rw [pure_ok] at e
      have e := congrArg Prod.fst e
      dsimp only at e
      subst e
      rw [hm]; simp
    · rename_i hm
      simp only [Bool.not_eq_true] at hm
      rw [hm]
      simp only [bind_ok, pure_ok, addU32_ok] at e
      obtain ⟨⟨fw, fh, px'⟩, ef, _, ⟨_, rfl⟩, c1, h1, bytes, hl, e⟩ := e
      have e := congrArg Prod.fst e
      dsimp only at e hl h1
      subst e
      rw [fitPixels_height ef] at h1
      dsimp only
      rw [putLoop_length hl, expandToHeight_length h1]
      simp

theorem misses_congr {c d : Canvas} (hw : d.width = c.width) (hg : d.autoGrow = c.autoGrow) (hl : c.autoGrow = false → c.bytes.length = d.bytes.length)
    (x y w h n : Nat) : d.misses x y w h n = c.misses x y w h n := by
  unfold misses
  rw [hw, hg]
  cases hc : c.autoGrow
  · rw [show d.getHeight = c.getHeight by unfold getHeight; rw [hw, hl hc]]
  · simp

theorem fitH_congr {c d : Canvas} (hw : d.width = c.width) (hg : d.autoGrow = c.autoGrow) (hl : c.autoGrow = false → c.bytes.length = d.bytes.length)
    (x y w h : Nat) : d.fitH x y w h = c.fitH x y w h := by
  unfold fitH
  rw [hw, hg]
  cases hc : c.autoGrow
  · rw [show d.getHeight = c.getHeight by unfold getHeight; rw [hw, hl hc]]
  · simp

/-! ### Two canvases -/

/-- `d` is `c` drawn with the debug profile `D`: it may only be longer, and only if it grows and text is debugged. -/
structure Under (D : Debug) (c d : Canvas) : Prop where
  width : d.width = c.width
  grow : d.autoGrow = c.autoGrow
  color : d.paperColor = c.paperColor
  calm : c.debug = {}
  debug : d.debug = D
  le : c.bytes.length ≤ d.bytes.length
  eq : D.text = false ∨ c.autoGrow = false → c.bytes.length = d.bytes.length

variable {D : Debug} {c d c' d' : Canvas}

theorem Under.kept (u : Under D c d) (kc : Kept c c') (kd : Kept d d') (le : c'.bytes.length ≤ d'.bytes.length)
    (eq : D.text = false ∨ c.autoGrow = false → c'.bytes.length = d'.bytes.length) : Under D c' d' :=
  ⟨by rw [kd.width, u.width, kc.width], by rw [kd.autoGrow, u.grow, kc.autoGrow], by rw [kd.paper, u.color, kc.paper], by rw [kc.debug, u.calm],
    by rw [kd.debug, u.debug], le, by rw [kc.autoGrow]; exact eq⟩

theorem Under.put (u : Under D c d) {x y w h : Nat} {px qx : List RGBA} (hl : qx.length = px.length) {mul mul' b b' : Bool}
    (hc : c.putPixels x y w h px mul = .ok (c', b)) (hd : d.putPixels x y w h qx mul' = .ok (d', b')) : Under D c' d' := by
  have ec := putPixels_rows hc
  have ed := putPixels_rows hd
  rw [hl, misses_congr u.width u.grow (fun h => u.eq (.inr h)), fitH_congr u.width u.grow (fun h => u.eq (.inr h)), u.width] at ed
  refine u.kept (putPixels_kept hc) (putPixels_kept hd) ?_ ?_
  · rw [ec, ed]
    have := u.le
    split <;> omega
  · intro he
    rw [ec, ed, u.eq he]

theorem Under.expandHeight (u : Under D c d) {n : Nat} (hc : c.expandToHeight n = .ok c') (hd : d.expandToHeight n = .ok d') : Under D c' d' := by
  refine u.kept (expandToHeight_kept hc) (expandToHeight_kept hd) ?_ ?_
  · rw [expandToHeight_length hc, expandToHeight_length hd, u.width]
    have := u.le
    omega
  · intro he
    rw [expandToHeight_length hc, expandToHeight_length hd, u.width, u.eq he]

theorem Under.rect (u : Under D c d) {x y w h : Nat} {col col' : RGBA} {mul mul' : Bool}
    (hc : c.drawRect x y w h col mul = .ok c') (hd : d.drawRect x y w h col' mul' = .ok d') : Under D c' d' := by
  simp only [drawRect, bind_ok, pure_ok, mulU32_ok] at hc hd
  obtain ⟨_, ⟨_, rfl⟩, ⟨c1, b⟩, h1, rfl⟩ := hc
  obtain ⟨_, ⟨_, rfl⟩, ⟨d1, b'⟩, h2, rfl⟩ := hd
  exact u.put (by simp) h1 h2

theorem swapRows_length {px r : List RGBA} {w h : Nat} (e : swapRows px w h = .ok r) : r.length = px.length :=
  forRange_ind (fun _ (s : List RGBA) => s.length = px.length) rfl (fun i s s' _ hs hb =>
    forRange_ind (fun _ (s : List RGBA) => s.length = px.length) hs (fun j t t' _ ht hb => by
      rw [← ht]
      simp only [swapIdx, bind_ok] at hb
      obtain ⟨_, _, _, _, l, h1, h2⟩ := hb
      rw [setIdx_length h2, setIdx_length h1]) hb) e

theorem collect_length {c : Canvas} {x y w h : Nat} {sub : List RGBA} (e : forRange h [] (c.collectRow x y w) = .ok sub) : sub.length = h * w := by
  refine forRange_ind (fun i (s : List RGBA) => s.length = i * w) (by simp) (fun i s s' _ hs hb => ?_) e
  simp only [collectRow, bind_ok, pure_ok] at hb
  obtain ⟨_, _, st, _, row, hr, rfl⟩ := hb
  rw [List.length_append, hs, (slice_eq hr).2.2.1, Nat.add_mul]
  omega

theorem Under.flip (u : Under D c d) {x y w h : Nat} (hc : c.flipPixels x y w h = .ok c') (hd : d.flipPixels x y w h = .ok d') : Under D c' d' := by
  simp only [flipPixels, bind_ok, u.width] at hc hd
  obtain ⟨r, e1, hc⟩ := hc
  obtain ⟨r', e2, hd⟩ := hd
  rw [e1, ok_ok] at e2
  subst e2
  split at hc
  · rename_i hw
    rw [if_pos hw, pure_ok] at hd
    rw [pure_ok] at hc
    subst hc hd
    exact u
  · rename_i hw
    rw [if_neg hw] at hd
    simp only [bind_ok, pure_ok] at hc hd
    obtain ⟨b, eb, c1, h1, _, _, s1, g1, t1, i1, ⟨c2, _⟩, p1, rfl⟩ := hc
    obtain ⟨b', eb', d1, h2, _, _, s2, g2, t2, i2, ⟨d2, _⟩, p2, rfl⟩ := hd
    rw [eb, ok_ok] at eb'
    subst eb'
    refine (u.expandHeight h1 h2).put ?_ p1 p2
    rw [swapRows_length i1, swapRows_length i2, collect_length g1, collect_length g2]

theorem Under.image (u : Under D c d) {i : Image} (hc : c.putRenderImg i = .ok c') (hd : d.putRenderImg i = .ok d') : Under D c' d' := by
  simp only [putRenderImg, bind_ok] at hc hd
  obtain ⟨px, e1, ⟨c1, b⟩, h1, hc⟩ := hc
  obtain ⟨qx, e2, ⟨d1, b'⟩, h2, hd⟩ := hd
  have u1 := u.put (by rw [debugImage_length e1, debugImage_length e2]) h1 h2
  dsimp only at hc hd
  split at hc
  · rename_i hu
    rw [if_pos hu] at hd
    exact u1.flip hc hd
  · rename_i hu
    rw [if_neg hu, pure_ok] at hd
    rw [pure_ok] at hc
    subst hc hd
    exact u1

theorem Under.char (u : Under D c d) {b : Option (List RGBA × Nat × Nat)} {x y : Nat} (hc : c.putChar b x y = .ok c') (hd : d.putChar b x y = .ok d') :
    Under D c' d' := by
  unfold putChar at hc hd
  split at hc
  · rw [ok_ok] at hc
    dsimp only at hd
    rw [ok_ok] at hd
    subst hc hd
    exact u
  · simp only [bind_ok, pure_ok] at hc hd
    obtain ⟨px, e1, ⟨c1, b⟩, h1, rfl⟩ := hc
    obtain ⟨qx, e2, ⟨d1, b'⟩, h2, rfl⟩ := hd
    exact u.put (by rw [debugText_length e1, debugText_length e2]) h1 h2

theorem Under.chars (u : Under D c d) {gs : Glyphs} {span : TextSpan} {y : Nat} {t : Str} {x : Nat}
    (hc : renderChars gs span y t x c = .ok c') (hd : renderChars gs span y t x d = .ok d') : Under D c' d' := by
  induction t generalizing x c d with
  | nil => simp only [renderChars, ok_ok] at hc hd; subst hc hd; exact u
  | cons ch rest ih =>
    simp only [renderChars, bind_ok] at hc hd
    obtain ⟨b, e1, hc⟩ := hc
    obtain ⟨b', e2, hd⟩ := hd
    rw [e1, ok_ok] at e2
    subst e2
    split at hc
    · rename_i hz
      rw [if_pos hz] at hd
      exact ih u hc hd
    · rename_i hz
      rw [if_neg hz] at hd
      simp only [bind_ok] at hc hd
      obtain ⟨c1, h1, x1, a1, hc⟩ := hc
      obtain ⟨d1, h2, x2, a2, hd⟩ := hd
      rw [a1, ok_ok] at a2
      subst a2
      exact ih (u.char h1 h2) hc hd

/-- The baseline is only drawn with the debug profile. -/
theorem Under.baseline (u : Under D c d) {span : TextSpan} {x y w : Nat} (hc : c.debugBaseline span x y w = .ok c')
    (hd : d.debugBaseline span x y w = .ok d') : Under D c' d' := by
  unfold debugBaseline at hc hd
  rw [u.calm, if_neg (by simp), ok_ok] at hc
  subst hc
  rw [u.debug] at hd
  split at hd
  · rename_i ht
    simp only [bind_ok, drawRect, pure_ok, mulU32_ok] at hd
    obtain ⟨_, _, Y, _, _, ⟨_, rfl⟩, ⟨d1, b⟩, h1, rfl⟩ := hd
    have k := putPixels_kept h1
    have e := putPixels_rows h1
    refine u.kept (.rfl' c) k ?_ ?_
    · rw [e]
      have := u.le
      split <;> omega
    · rintro (hf | hf)
      · rw [hf] at ht; cases ht
      · rw [u.eq (.inr hf), e]
        split
        · rfl
        · rename_i hm
          simp only [misses, Bool.not_eq_true, Bool.or_eq_false_iff, Bool.and_eq_false_iff, decide_eq_false_iff_not, u.grow, hf, Bool.not_false,
            Bool.true_eq_false, or_false] at hm
          have hy := hm.2.2
          have hfit : d.fitH x Y w 1 ≤ 1 := by unfold fitH; split <;> omega
          have hlen : d.width * d.getHeight ≤ d.bytes.length := by
            unfold getHeight
            split
            · omega
            · exact Nat.mul_div_le _ _
          have : d.width * (Y + d.fitH x Y w 1) ≤ d.width * d.getHeight := Nat.mul_le_mul_left _ (by omega)
          omega
  · rw [ok_ok] at hd
    subst hd
    exact u

theorem Under.span (u : Under D c d) {gs : Glyphs} {xo mh : Nat} {s : TextSpan} (hc : renderSpan gs c xo mh s = .ok c')
    (hd : renderSpan gs d xo mh s = .ok d') : Under D c' d' := by
  unfold renderSpan at hc hd
  split at hc
  · rename_i hn
    simp only [hn, ok_ok] at hd
    rw [ok_ok] at hc
    subst hc hd
    exact u
  · rename_i r hn
    simp only [hn, bind_ok] at hc hd
    obtain ⟨x, e1, o, e2, y, e3, c1, h1, c2, h2, c3, h3, c4, h4, hc⟩ := hc
    obtain ⟨x', e1', o', e2', y', e3', d1, g1, d2, g2, d3, g3, d4, g4, hd⟩ := hd
    rw [e1, ok_ok] at e1'; subst e1'
    rw [e2, ok_ok] at e2'; subst e2'
    rw [e3, ok_ok] at e3'; subst e3'
    have u2 := (u.chars h1 g1).baseline h2 g2
    have u3 : Under D c3 d3 := by
      unfold drawUnderline at h3 g3
      split at h3
      · rename_i hu
        rw [if_pos hu] at g3
        simp only [bind_ok] at h3 g3
        obtain ⟨a, ea, b, eb, h3⟩ := h3
        obtain ⟨a', ea', b', eb', g3⟩ := g3
        rw [ea, ok_ok] at ea'; subst ea'
        rw [eb, ok_ok] at eb'; subst eb'
        exact u2.rect h3 g3
      · rename_i hu
        rw [if_neg hu, ok_ok] at g3
        rw [ok_ok] at h3
        subst h3 g3
        exact u2
    have u4 : Under D c4 d4 := by
      unfold drawStrike at h4 g4
      split at h4
      · rename_i hu
        rw [if_pos hu] at g4
        simp only [bind_ok] at h4 g4
        obtain ⟨a, ea, h4⟩ := h4
        obtain ⟨a', ea', g4⟩ := g4
        rw [ea, ok_ok] at ea'; subst ea'
        exact u3.rect h4 g4
      · rename_i hu
        rw [if_neg hu, ok_ok] at g4
        rw [ok_ok] at h4
        subst h4 g4
        exact u3
    split at hc
    · rename_i hu
      rw [if_pos hu] at hd
      exact u4.flip hc hd
    · rename_i hu
      rw [if_neg hu, pure_ok] at hd
      rw [pure_ok] at hc
      subst hc hd
      exact u4

/-! ### Pages -/

theorem rotate_rows {c c' : Canvas} {r : Rotation} (h : ImageRenderer.rotate r c = .ok c') :
    c'.width = (match (generalizing := false) r with | .R90 | .R270 => c.getHeight | _ => c.width) ∧ c'.autoGrow = c.autoGrow ∧ c'.paperColor = c.paperColor ∧
      c'.debug = c.debug ∧ c'.bytes.length = (match (generalizing := false) r with | .R0 => c.bytes.length | _ => c.width * c.getHeight) := by
  have key : ∀ {n m : Nat} {px : List RGBA} {f : Nat → Nat → Nat} {g : Nat → Nat → Nat},
      (forRange n (List.replicate (c.width * c.getHeight) RGBA.blank) fun r y => forRange m r fun r x => do
        let v ← idx c.bytes (f y x)
        setIdx r (g y x) v) = .ok px → px.length = c.width * c.getHeight := by
    intro n m px f g h
    exact forRange_ind (fun _ (s : List RGBA) => s.length = c.width * c.getHeight) (by simp) (fun i s s' _ hs hb =>
      forRange_ind (fun _ (s : List RGBA) => s.length = c.width * c.getHeight) hs (fun j t t' _ ht hb => by
        simp only [bind_ok] at hb
        obtain ⟨_, _, hb⟩ := hb
        rw [setIdx_length hb, ht]) hb) h
  cases r
  case R0 => simp only [ImageRenderer.rotate, ok_ok] at h; subst h; exact ⟨rfl, rfl, rfl, rfl, rfl⟩
  case R90 =>
    simp only [ImageRenderer.rotate, rotate90, bind_ok, pure_ok] at h
    obtain ⟨px, e, rfl⟩ := h
    exact ⟨rfl, rfl, rfl, rfl, key e⟩
  case R180 =>
    simp only [ImageRenderer.rotate, rotate180, bind_ok, pure_ok] at h
    obtain ⟨px, e, rfl⟩ := h
    exact ⟨rfl, rfl, rfl, rfl, key e⟩
  case R270 =>
    simp only [ImageRenderer.rotate, rotate270, bind_ok, pure_ok] at h
    obtain ⟨px, e, rfl⟩ := h
    exact ⟨rfl, rfl, rfl, rfl, key e⟩

/-- A locked canvas has the same shape with and without a debug profile. -/
theorem Under.height (u : Under D c d) (hl : D.text = false ∨ c.autoGrow = false) : d.getHeight = c.getHeight := by
  unfold getHeight
  rw [u.width, u.eq hl]

theorem Under.rotated (u : Under D c d) (hl : c.autoGrow = false) {r : Rotation} (hc : ImageRenderer.rotate r c = .ok c')
    (hd : ImageRenderer.rotate r d = .ok d') : Under D c' d' := by
  obtain ⟨a1, a2, a3, a4, a5⟩ := rotate_rows hc
  obtain ⟨b1, b2, b3, b4, b5⟩ := rotate_rows hd
  have he := u.eq (.inr hl)
  have hh := u.height (.inr hl)
  have : c'.bytes.length = d'.bytes.length := by rw [a5, b5, hh, u.width, he]
  exact ⟨by rw [a1, b1, hh, u.width], by rw [b2, u.grow, a2], by rw [b3, u.color, a3], by rw [a4, u.calm], by rw [b4, u.debug], by omega, fun _ => this⟩

theorem insertAt_length {l l' xs : List RGBA} {i : Nat} (h : insertAt l i xs = .ok l') : l'.length = l.length + xs.length := by
  unfold insertAt at h
  split at h
  · rw [ok_ok] at h
    subst h
    simp only [List.length_append, List.length_take, List.length_drop]
    omega
  · cases h

theorem expandToWidth_rows {c c' : Canvas} {n : Nat} (h : c.expandToWidth n = .ok c') :
    c'.width = (if n < c.width then c.width else n) ∧ c'.autoGrow = c.autoGrow ∧ c'.paperColor = c.paperColor ∧ c'.debug = c.debug ∧
      c'.bytes.length = if n < c.width then c.bytes.length else c.bytes.length + c.getHeight * (n - c.width) := by
  unfold expandToWidth at h
  split at h
  · rename_i hn
    rw [pure_ok] at h
    subst h
    simp [if_pos hn]
  · rename_i hn
    simp only [bind_ok, pure_ok] at h
    obtain ⟨_, _, ⟨b, i⟩, e, rfl⟩ := h
    refine ⟨by rw [if_neg hn], rfl, rfl, rfl, ?_⟩
    rw [if_neg hn]
    have := forRange_ind (fun k (s : List RGBA × Nat) => s.1.length = c.bytes.length + k * (n - c.width)) (by simp) (fun k s s' _ hs hb => by
      simp only [marginRow, bind_ok, pure_ok] at hb
      obtain ⟨l1, h1, l2, h2, rfl⟩ := hb
      dsimp only
      rw [insertAt_length h2, insertAt_length h1, hs, Nat.add_mul]
      simp only [List.length_replicate]
      omega) e
    exact this

theorem Under.expandWidth (u : Under D c d) {n : Nat} (hc : c.expandToWidth n = .ok c') (hd : d.expandToWidth n = .ok d') : Under D c' d' := by
  obtain ⟨a1, a2, a3, a4, a5⟩ := expandToWidth_rows hc
  obtain ⟨b1, b2, b3, b4, b5⟩ := expandToWidth_rows hd
  rw [u.width] at b1 b5
  refine ⟨by rw [a1, b1], by rw [b2, u.grow, a2], by rw [b3, u.color, a3], by rw [a4, u.calm], by rw [b4, u.debug], ?_, ?_⟩
  · rw [a5, b5]
    have := u.le
    split
    · exact this
    · have : c.getHeight ≤ d.getHeight := by
        unfold getHeight
        rw [u.width]
        split
        · exact Nat.le_refl _
        · exact Nat.div_le_div_right u.le
      exact Nat.add_le_add u.le (Nat.mul_le_mul_right _ this)
  · rw [a2]
    intro hl
    rw [a5, b5, u.height hl, u.eq hl]

theorem Under.grownWidth (u : Under D c d) {n : Nat} (hc : ImageRenderer.growWidth c n = .ok c') (hd : ImageRenderer.growWidth d n = .ok d') : Under D c' d' := by
  unfold ImageRenderer.growWidth at hc hd
  rw [u.width] at hd
  split at hc
  · rename_i hn
    rw [if_pos hn] at hd
    exact u.expandWidth hc hd
  · rename_i hn
    rw [if_neg hn, ok_ok] at hd
    rw [ok_ok] at hc
    subst hc hd
    exact u

theorem Under.grownHeight (u : Under D c d) (hl : c.autoGrow = false) {n : Nat} (hc : ImageRenderer.growHeight c n = .ok c')
    (hd : ImageRenderer.growHeight d n = .ok d') : Under D c' d' := by
  unfold ImageRenderer.growHeight at hc hd
  rw [u.height (.inr hl)] at hd
  split at hc
  · rename_i hn
    rw [if_pos hn] at hd
    exact u.expandHeight hc hd
  · rename_i hn
    rw [if_neg hn, ok_ok] at hd
    rw [ok_ok] at hc
    subst hc hd
    exact u

theorem Under.spans (u : Under D c d) {gs : Glyphs} {xo mh : Nat} {l : List TextSpan} (hc : ImageRenderer.renderSpans gs xo mh l c = .ok c')
    (hd : ImageRenderer.renderSpans gs xo mh l d = .ok d') : Under D c' d' := by
  induction l generalizing c d with
  | nil => simp only [ImageRenderer.renderSpans, ok_ok] at hc hd; subst hc hd; exact u
  | cons s ss ih =>
    simp only [ImageRenderer.renderSpans, bind_ok] at hc hd
    obtain ⟨c1, h1, hc⟩ := hc
    obtain ⟨d1, h2, hd⟩ := hd
    exact ih (u.span h1 h2) hc hd

theorem Under.rects (u : Under D c d) {col col' : RGBA} {l : List Rectangle} (hc : ImageRenderer.putRects col l c = .ok c')
    (hd : ImageRenderer.putRects col' l d = .ok d') : Under D c' d' := by
  induction l generalizing c d with
  | nil => simp only [ImageRenderer.putRects, ok_ok] at hc hd; subst hc hd; exact u
  | cons s ss ih =>
    simp only [ImageRenderer.putRects, bind_ok] at hc hd
    obtain ⟨c1, h1, hc⟩ := hc
    obtain ⟨d1, h2, hd⟩ := hd
    exact ih (u.rect h1 h2) hc hd

end Canvas
end Thermal
