import Verif.Proofs.CanvasInv
/-
C40-C47: the canvas of the image renderer.
-/
namespace Thermal
open Spec Canvas

/-! ### C40: the canvas stays rectangular -/

/-- Calls of the public operations of a canvas, and writes to its public settings. -/
inductive CanvasOp where
  | rotate90 | rotate180 | rotate270
  | setWidth (w : Nat) | reset | empty
  | configure (autoGrow : Bool) (debug : Debug) (paper : RGBA)
  | drawRect (x y w h : Nat) (color : RGBA) (multiply : Bool)
  | putRect (r : Rectangle) (color : RGBA)
  | putPixels (x y w h : Nat) (pixels : List RGBA) (multiply : Bool)
  | flipPixels (x y w h : Nat)
  | putRenderImg (i : Image)
  | renderSpan (xOffset maxHeight : Nat) (span : TextSpan)
  | expandToHeight (h : Nat) | expandToWidth (w : Nat) | addTopMargin (h : Nat)
  | consumeRgb

/-- The effect of a call. -/
def CanvasOp.apply (gs : Glyphs) (c : Canvas) : CanvasOp → Rs Canvas
  | .rotate90 => c.rotate90
  | .rotate180 => c.rotate180
  | .rotate270 => c.rotate270
  | .setWidth w => .ok (c.setWidth w)
  | .reset => .ok c.reset
  | .empty => .ok c.empty
  | .configure g d p => .ok { c with
      autoGrow := g
      debug := d
      paperColor := p }
  | .drawRect x y w h color m => c.drawRect x y w h color m
  | .putRect r color => c.putRect r color
  | .putPixels x y w h px m => (c.putPixels x y w h px m).map (·.1)
  | .flipPixels x y w h => c.flipPixels x y w h
  | .putRenderImg i => c.putRenderImg i
  | .renderSpan xo mh s => Canvas.renderSpan gs c xo mh s
  | .expandToHeight h => c.expandToHeight h
  | .expandToWidth w => c.expandToWidth w
  | .addTopMargin h => c.addTopMargin h
  | .consumeRgb => c.consumeRgb.map (·.1)

/-- A sequence of calls. -/
def CanvasOp.run (gs : Glyphs) : List CanvasOp → Canvas → Rs Canvas
  | [], c => .ok c
  | o :: os, c => do run gs os (← o.apply gs c)

theorem map_ok {α β : Type} {f : α → β} {x : Rs α} {y : β} : Except.map f x = .ok y ↔ ∃ a, x = .ok a ∧ f a = y := by
  cases x <;> simp [Except.map]

theorem addTopMargin_ok {c c' : Canvas} {n : Nat} (h : c.addTopMargin n = .ok c') :
    c' = { c with bytes := List.replicate (c.width * n) c.paperColor ++ c.bytes } := by
  simp only [addTopMargin, bind_ok, mulU32_ok, pure_ok, insertAt] at h
  obtain ⟨_, ⟨_, rfl⟩, b, hb, rfl⟩ := h
  rw [if_pos (Nat.zero_le _), ok_ok] at hb
  subst hb
  simp

theorem CanvasOp.rect {gs : Glyphs} {c c' : Canvas} {o : CanvasOp} (hr : c.Rect) (h : o.apply gs c = .ok c') : c'.Rect := by
  cases o <;> simp only [CanvasOp.apply, ok_ok, map_ok] at h
  case rotate90 =>
    obtain ⟨px, h1, h2⟩ := Canvas.rotate90_shows hr
    rw [h1, ok_ok] at h; subst h; exact ⟨_, h2.1⟩
  case rotate180 =>
    obtain ⟨px, h1, h2⟩ := Canvas.rotate180_shows hr
    rw [h1, ok_ok] at h; subst h; exact ⟨_, h2.1⟩
  case rotate270 =>
    obtain ⟨px, h1, h2⟩ := Canvas.rotate270_shows hr
    rw [h1, ok_ok] at h; subst h; exact ⟨_, h2.1⟩
  case setWidth => subst h; exact ⟨0, rfl⟩
  case reset => subst h; exact ⟨0, rfl⟩
  case empty => subst h; exact ⟨0, rfl⟩
  case configure => subst h; exact hr
  case drawRect => exact (drawRect_kept h).rect hr
  case putRect => exact (drawRect_kept h).rect hr
  case putPixels => obtain ⟨⟨c1, b⟩, h1, rfl⟩ := h; exact (putPixels_kept h1).rect hr
  case flipPixels => exact (flipPixels_kept h).rect hr
  case putRenderImg => exact (putRenderImg_kept h).rect hr
  case renderSpan => exact (renderSpan_kept h).rect hr
  case expandToHeight => exact (expandToHeight_kept h).rect hr
  case expandToWidth w =>
    by_cases hw : w < c.width
    · unfold Canvas.expandToWidth at h; rw [if_pos hw, pure_ok] at h; subst h; exact hr
    · obtain ⟨px, h1, h2⟩ := expandToWidth_shows (n := w) hr (by omega)
      rw [h1, ok_ok] at h; subst h; exact ⟨_, h2.1⟩
  case addTopMargin n =>
    have := addTopMargin_ok h
    subst this
    refine ⟨n + c.getHeight, ?_⟩
    rw [List.length_append, List.length_replicate, hr.length, Nat.mul_add]
  case consumeRgb =>
    obtain ⟨⟨c1, r⟩, h1, rfl⟩ := h
    simp only [Canvas.consumeRgb, bind_ok, pure_ok] at h1
    obtain ⟨_, _, h1⟩ := h1
    have := congrArg Prod.fst h1
    dsimp only at this; subst this
    exact ⟨0, rfl⟩

theorem CanvasOp.run_rect {gs : Glyphs} {ops : List CanvasOp} {c c' : Canvas} (hr : c.Rect) (h : run gs ops c = .ok c') : c'.Rect := by
  induction ops generalizing c with
  | nil => simp only [run, ok_ok] at h; subst h; exact hr
  | cons o os ih =>
    simp only [run, bind_ok] at h
    obtain ⟨c1, h1, h2⟩ := h
    exact ih (o.rect hr h1) h2

/-- After any sequence of calls on a new canvas there are exactly width * height dots. -/
theorem C40_rectangular (gs : Glyphs) (width : Nat) (ops : List CanvasOp) (c : Canvas)
    (h : CanvasOp.run gs ops (Canvas.new width) = .ok c) : c.bytes.length = c.width * c.getHeight :=
  (CanvasOp.run_rect ⟨0, rfl⟩ h).length

/-- Hence the image taken from it has three bytes for each of its width * height dots. -/
theorem C40_output (gs : Glyphs) (width : Nat) (ops : List CanvasOp) (c c' : Canvas) (w h : Nat) (bytes : List Byte)
    (hrun : CanvasOp.run gs ops (Canvas.new width) = .ok c) (hc : c.consumeRgb = .ok (c', w, h, bytes)) :
    w = c.width ∧ h = c.getHeight ∧ bytes.length = 3 * (w * h) ∧
      ∀ x y, x < w → y < h → bytes[3 * (y * w + x)]? = some (c.dot x y).r ∧ bytes[3 * (y * w + x) + 1]? = some (c.dot x y).g ∧
        bytes[3 * (y * w + x) + 2]? = some (c.dot x y).b := by
  have hr := CanvasOp.run_rect ⟨0, rfl⟩ hrun
  simp only [Canvas.consumeRgb, bind_ok, pure_ok, Prod.mk.injEq] at hc
  obtain ⟨_, _, _, rfl, rfl, rfl⟩ := hc
  have get : ∀ (l : List RGBA) (k : Nat) (p : RGBA), l[k]? = some p →
      (l.flatMap fun p => [p.r, p.g, p.b])[3 * k]? = some p.r ∧ (l.flatMap fun p => [p.r, p.g, p.b])[3 * k + 1]? = some p.g ∧
        (l.flatMap fun p => [p.r, p.g, p.b])[3 * k + 2]? = some p.b := by
    intro l
    induction l with
    | nil => intro k p h; simp at h
    | cons q t ih =>
      intro k p h
      cases k with
      | zero => simp at h; subst h; simp
      | succ k =>
        have := ih k p (by simpa using h)
        rw [List.flatMap_cons]
        simpa [Nat.mul_add, Nat.add_assoc] using this
  refine ⟨rfl, rfl, ?_, fun x y hx hy => get _ _ _ (hr.shows.2 x y hx hy)⟩
  rw [← hr.length]
  generalize c.bytes = l
  induction l with
  | nil => rfl
  | cons p t ih => rw [List.flatMap_cons, List.length_append, ih, show (p :: t).length = t.length + 1 from rfl]; show 3 + _ = _; omega

/-- Two rectangles and a quarter turn: a canvas of 6 dots. -/
example (gs : Glyphs) : ∃ c, CanvasOp.run gs [.drawRect 1 0 1 2 ⟨0, 0, 0, 255⟩ true, .putRect ⟨0, 1, 2, 2⟩ ⟨9, 9, 9, 255⟩, .rotate90]
    (Canvas.new 2) = .ok c ∧ c.width = 3 ∧ c.getHeight = 2 ∧ c.bytes.length = 6 := by
  refine ⟨_, rfl, ?_⟩; decide +kernel

/-! ### C41: rotations -/

theorem rotate90_of {c : Canvas} {w h : Nat} {f : Nat → Nat → RGBA} (hw : 0 < w) (hc : c.width = w) (hs : Shows c.bytes w h f) :
    ∃ px, c.rotate90 = .ok { c with
      bytes := px
      width := h } ∧ Shows px h w (fun x y => f y (h - 1 - x)) := by
  subst hc
  have hr : c.Rect := ⟨h, hs.1⟩
  have hh := getHeight_of hw hs.1
  obtain ⟨px, h1, h2⟩ := Canvas.rotate90_shows hr
  rw [hh] at h1 h2
  refine ⟨px, h1, Thermal.Shows.of_get h2 fun x y hx hy => ?_⟩
  have := hr.shows.2 y (h - 1 - x) hy (by omega)
  rw [hs.2 y (h - 1 - x) hy (by omega)] at this
  exact (Option.some.inj this).symm

theorem rotate270_of {c : Canvas} {w h : Nat} {f : Nat → Nat → RGBA} (hw : 0 < w) (hc : c.width = w) (hs : Shows c.bytes w h f) :
    ∃ px, c.rotate270 = .ok { c with
      bytes := px
      width := h } ∧ Shows px h w (fun x y => f (w - 1 - y) x) := by
  subst hc
  have hr : c.Rect := ⟨h, hs.1⟩
  have hh := getHeight_of hw hs.1
  obtain ⟨px, h1, h2⟩ := Canvas.rotate270_shows hr
  rw [hh] at h1 h2
  refine ⟨px, h1, Thermal.Shows.of_get h2 fun x y hx hy => ?_⟩
  have := hr.shows.2 (c.width - 1 - y) x (by omega) (by omega)
  rw [hs.2 (c.width - 1 - y) x (by omega) (by omega)] at this
  exact (Option.some.inj this).symm

theorem rotate180_of {c : Canvas} {w h : Nat} {f : Nat → Nat → RGBA} (hw : 0 < w) (hc : c.width = w) (hs : Shows c.bytes w h f) :
    ∃ px, c.rotate180 = .ok { c with bytes := px } ∧ Shows px w h (fun x y => f (w - 1 - x) (h - 1 - y)) := by
  subst hc
  have hr : c.Rect := ⟨h, hs.1⟩
  have hh := getHeight_of hw hs.1
  obtain ⟨px, h1, h2⟩ := Canvas.rotate180_shows hr
  rw [hh] at h2
  refine ⟨px, h1, Thermal.Shows.of_get h2 fun x y hx hy => ?_⟩
  have := hr.shows.2 (c.width - 1 - x) (h - 1 - y) (by omega) (by omega)
  rw [hs.2 (c.width - 1 - x) (h - 1 - y) (by omega) (by omega)] at this
  exact (Option.some.inj this).symm

theorem dot_of_shows {c : Canvas} {w h : Nat} {f : Nat → Nat → RGBA} (hc : c.width = w) (hs : Shows c.bytes w h f) {x y : Nat}
    (hx : x < w) (hy : y < h) : c.dot x y = f x y := by
  subst hc
  unfold Canvas.dot
  rw [List.getD_eq_getElem?_getD, hs.2 x y hx hy]; rfl

/-- A quarter turn moves the dot at `(x, y)` to `(h - 1 - y, x)`. -/
theorem C41_rotate_90 (c : Canvas) (hr : c.Rect) : ∃ c', c.rotate90 = .ok c' ∧ c'.Rect ∧ c'.width = c.getHeight ∧
    (0 < c.getHeight → c'.getHeight = c.width) ∧
    ∀ x y, x < c.width → y < c.getHeight → c'.dot (c.getHeight - 1 - y) x = c.dot x y := by
  obtain ⟨px, h1, h2⟩ := Canvas.rotate90_shows hr
  refine ⟨_, h1, ⟨_, h2.1⟩, rfl, fun hh => getHeight_of hh h2.1, fun x y hx hy => ?_⟩
  rw [dot_of_shows (c := { c with bytes := px, width := c.getHeight }) (w := c.getHeight) rfl h2 (by omega) hx]
  show c.dot x (c.getHeight - 1 - (c.getHeight - 1 - y)) = _
  rw [show c.getHeight - 1 - (c.getHeight - 1 - y) = y by omega]

/-- A half turn moves the dot at `(x, y)` to `(w - 1 - x, h - 1 - y)`. -/
theorem C41_rotate_180 (c : Canvas) (hr : c.Rect) : ∃ c', c.rotate180 = .ok c' ∧ c'.Rect ∧ c'.width = c.width ∧
    c'.getHeight = c.getHeight ∧
    ∀ x y, x < c.width → y < c.getHeight → c'.dot (c.width - 1 - x) (c.getHeight - 1 - y) = c.dot x y := by
  obtain ⟨px, h1, h2⟩ := Canvas.rotate180_shows hr
  refine ⟨_, h1, ⟨_, h2.1⟩, rfl, ?_, fun x y hx hy => ?_⟩
  · unfold Canvas.getHeight
    dsimp only
    rw [h2.1, hr.length]
  · rw [dot_of_shows (c := { c with bytes := px }) (w := c.width) rfl h2 (by omega) (by omega)]
    show c.dot (c.width - 1 - (c.width - 1 - x)) (c.getHeight - 1 - (c.getHeight - 1 - y)) = _
    rw [show c.getHeight - 1 - (c.getHeight - 1 - y) = y by omega, show c.width - 1 - (c.width - 1 - x) = x by omega]

/-- Three quarter turns move the dot at `(x, y)` to `(y, w - 1 - x)`. -/
theorem C41_rotate_270 (c : Canvas) (hr : c.Rect) : ∃ c', c.rotate270 = .ok c' ∧ c'.Rect ∧ c'.width = c.getHeight ∧
    (0 < c.getHeight → c'.getHeight = c.width) ∧
    ∀ x y, x < c.width → y < c.getHeight → c'.dot y (c.width - 1 - x) = c.dot x y := by
  obtain ⟨px, h1, h2⟩ := Canvas.rotate270_shows hr
  refine ⟨_, h1, ⟨_, h2.1⟩, rfl, fun hh => getHeight_of hh h2.1, fun x y hx hy => ?_⟩
  rw [dot_of_shows (c := { c with bytes := px, width := c.getHeight }) (w := c.getHeight) rfl h2 hy (by omega)]
  show c.dot (c.width - 1 - (c.width - 1 - x)) y = _
  rw [show c.width - 1 - (c.width - 1 - x) = x by omega]

theorem width_pos {c : Canvas} (hh : 0 < c.getHeight) : 0 < c.width := by
  unfold Canvas.getHeight at hh
  split at hh <;> omega

/-- On a canvas with dots: four quarter turns, a quarter turn and three, and two half turns give back the same canvas. -/
theorem C41_inverse (c : Canvas) (hr : c.Rect) (hh : 0 < c.getHeight) :
    (c.rotate90 >>= Canvas.rotate90 >>= Canvas.rotate90 >>= Canvas.rotate90) = .ok c ∧ (c.rotate90 >>= Canvas.rotate270) = .ok c ∧
      (c.rotate270 >>= Canvas.rotate90) = .ok c ∧ (c.rotate180 >>= Canvas.rotate180) = .ok c ∧ (c.rotate90 >>= Canvas.rotate90) = c.rotate180 := by
  have hw := width_pos hh
  obtain ⟨p1, a1, s1⟩ := rotate90_of hw rfl hr.shows
  obtain ⟨p2, a2, s2⟩ := rotate90_of (c := { c with bytes := p1, width := c.getHeight }) hh rfl s1
  obtain ⟨p3, a3, s3⟩ := rotate90_of (c := { c with bytes := p2, width := c.width }) hw rfl s2
  obtain ⟨p4, a4, s4⟩ := rotate90_of (c := { c with bytes := p3, width := c.getHeight }) hh rfl s3
  obtain ⟨q2, b2, t2⟩ := rotate270_of (c := { c with bytes := p1, width := c.getHeight }) hh rfl s1
  obtain ⟨q3, b3, t3⟩ := rotate270_of hw rfl hr.shows
  obtain ⟨q4, b4, t4⟩ := rotate90_of (c := { c with bytes := q3, width := c.getHeight }) hh rfl t3
  obtain ⟨q5, b5, t5⟩ := rotate180_of hw rfl hr.shows
  obtain ⟨q6, b6, t6⟩ := rotate180_of (c := { c with bytes := q5 }) hw rfl t5
  have back : ∀ px f, Shows px c.width c.getHeight f → (∀ x y, x < c.width → y < c.getHeight → f x y = c.dot x y) →
      ({ c with bytes := px } : Canvas) = c := by
    intro px f hs hf
    have : px = c.bytes := Thermal.Shows.ext (Thermal.Shows.of_get hs hf) hr.shows
    subst this; rfl
  refine ⟨?_, ?_, ?_, ?_, ?_⟩
  · rw [a1]; show (Canvas.rotate90 _ >>= Canvas.rotate90 >>= Canvas.rotate90) = _
    rw [a2]; show (Canvas.rotate90 _ >>= Canvas.rotate90) = _
    rw [a3]; show Canvas.rotate90 _ = _
    rw [a4]
    congr 1
    refine back p4 _ s4 fun x y hx hy => ?_
    congr 1 <;> omega
  · rw [a1]; show Canvas.rotate270 _ = _
    rw [b2]
    congr 1
    refine back q2 _ t2 fun x y hx hy => ?_
    congr 1; omega
  · rw [b3]; show Canvas.rotate90 _ = _
    rw [b4]
    congr 1
    refine back q4 _ t4 fun x y hx hy => ?_
    congr 1; omega
  · rw [b5]; show Canvas.rotate180 _ = _
    rw [b6]
    congr 1
    refine back q6 _ t6 fun x y hx hy => ?_
    congr 1 <;> omega
  · rw [a1]; show Canvas.rotate90 _ = _
    rw [a2, b5]
    have : p2 = q5 := Thermal.Shows.ext (Thermal.Shows.of_get s2 fun x y hx hy => rfl) t5
    rw [this]

/-- The 2 x 3 picture 1 2 / 3 4 / 5 6 turned by 90 degrees is 5 3 1 / 6 4 2. -/
example : let p (n : Byte) : RGBA := ⟨n, n, n, 255⟩
    Canvas.rotate90 { Canvas.new 2 with bytes := [p 1, p 2, p 3, p 4, p 5, p 6] } =
      .ok { Canvas.new 3 with bytes := [p 5, p 3, p 1, p 6, p 4, p 2] } := by decide +kernel

/-- The condition of `C41_inverse` is needed: turning an empty canvas loses its width. -/
theorem C41_empty (w : Nat) (hw : 0 < w) :
    ((Canvas.new w).rotate90 >>= Canvas.rotate270) = .ok (Canvas.new 0) ∧ Canvas.new 0 ≠ Canvas.new w := by
  refine ⟨?_, fun h => ?_⟩
  · have hh : (Canvas.new w).getHeight = 0 := by
      unfold Canvas.getHeight Canvas.new; dsimp only; split
      · rfl
      · exact Nat.zero_div _
    have : (Canvas.new w).rotate90 = .ok (Canvas.new 0) := by
      unfold Canvas.rotate90
      dsimp only
      rw [hh]; rfl
    rw [this]; rfl
  · have := congrArg Canvas.width h
    simp only [Canvas.new] at this
    omega

/-! ### C42: drawing touches only the target rectangle -/

/-- After drawing a `w` x `h` picture at `(x0, y0)`, each dot outside that rectangle is what it was, or paper when it lies in
an appended row. -/
theorem C42_outside (c c' : Canvas) (x0 y0 w h : Nat) (pixels : List RGBA) (multiply : Bool) (hr : c.Rect)
    (hp : c.putPixels x0 y0 w h pixels multiply = .ok (c', true)) (x y : Nat) (hx : x < c'.width) (hy : y < c'.getHeight)
    (hout : ¬ inRect x0 y0 w h x y) : c'.dot x y = onPaper c.dot c.getHeight c.paperColor x y := by
  obtain ⟨fw, fh, hput⟩ := putPixels_true hr hp
  have hw : c'.width = c.width := by rw [hput.same]
  have hpos : 0 < c'.width := by omega
  rw [getHeight_of hpos (by rw [hw]; exact hput.rows)] at hy
  rw [hw] at hx
  have := hput.dots x y hx hy
  unfold Canvas.dot
  rw [List.getD_eq_getElem?_getD, hw, this]
  show (if inRect x0 y0 fw fh x y then _ else _) = _
  have h1 := hput.fhle
  have h2 := hput.columns
  rw [if_neg]
  · rfl
  · unfold inRect at hout ⊢; omega

/-- Each dot of the canvas inside the rectangle is the combination of what was there with that dot of the picture. -/
theorem C42_inside (c c' : Canvas) (x0 y0 w h : Nat) (pixels : List RGBA) (multiply : Bool) (hr : c.Rect)
    (hl : pixels.length = w * h) (hp : c.putPixels x0 y0 w h pixels multiply = .ok (c', true)) (x y : Nat) (hx : x < c'.width)
    (hy : y < c'.getHeight) (hin : inRect x0 y0 w h x y) :
    ∃ p, pixels[(y - y0) * w + (x - x0)]? = some p ∧
      c'.dot x y = (if multiply then RGBA.multiply (onPaper c.dot c.getHeight c.paperColor x y) p
        else RGBA.blend (onPaper c.dot c.getHeight c.paperColor x y) p) := by
  obtain ⟨fw, fh, hput⟩ := putPixels_true hr hp
  have hw : c'.width = c.width := by rw [hput.same]
  have hpos : 0 < c'.width := by omega
  rw [getHeight_of hpos (by rw [hw]; exact hput.rows)] at hy
  rw [hw] at hx
  have hd := hput.dots x y hx hy
  have h1 := hput.fhle
  have h2 := hput.columns
  obtain ⟨i1, i2, i3, i4⟩ := hin
  have hfh : y < y0 + fh := by
    cases hg : c.autoGrow with
    | true => rw [hput.grow hg]; exact i4
    | false => rcases hput.either hg with h | h <;> omega
  have hlt : (y - y0) * w + (x - x0) < pixels.length := by rw [hl]; exact rm_lt (by omega) (by omega)
  refine ⟨pixels[(y - y0) * w + (x - x0)], List.getElem?_eq_getElem hlt, ?_⟩
  unfold Canvas.dot
  rw [List.getD_eq_getElem?_getD, hw, hd]
  show (if inRect x0 y0 fw fh x y then _ else _) = _
  rw [if_pos (show inRect x0 y0 fw fh x y from ⟨i1, by omega, i3, hfh⟩), List.getElem?_eq_getElem hlt]
  cases multiply <;> rfl

/-- When the picture is refused, nothing is drawn: only a message is added. -/
theorem C42_refused (c c' : Canvas) (x0 y0 w h : Nat) (pixels : List RGBA) (multiply : Bool)
    (hp : c.putPixels x0 y0 w h pixels multiply = .ok (c', false)) : ∃ m, c' = { c with errors := c.errors ++ [m] } :=
  putPixels_false hp

/-- A complete picture is drawn whenever its corner is on the canvas (or below it, if the canvas may grow) and the sizes
involved fit into 32 bits; otherwise, sizes permitting, it is refused. -/
theorem C42_drawn_iff (c : Canvas) (x0 y0 w h : Nat) (pixels : List RGBA) (multiply : Bool) (hr : c.Rect)
    (hl : pixels.length = w * h) (hwh : w * h < U32) (hx : x0 + w < U32) (hyw : y0 + w < U32) (hyh : y0 + h < U32)
    (hs : c.width * max c.getHeight (y0 + h) < U32) :
    ∃ c' b, c.putPixels x0 y0 w h pixels multiply = .ok (c', b) ∧
      (b = true ↔ x0 < c.width ∧ (y0 < c.getHeight ∨ c.autoGrow = true)) := by
  obtain ⟨⟨c', b⟩, hp⟩ := putPixels_defined (mul := multiply) hr hl hwh hx hyw hyh hs
  refine ⟨c', b, hp, ?_⟩
  simp only [putPixels, bind_ok, mulU32_ok] at hp
  obtain ⟨_, ⟨_, rfl⟩, hp⟩ := hp
  rw [if_neg (show ¬ w * h < pixels.length by omega)] at hp
  split at hp
  · rename_i hc
    rw [pure_ok] at hp
    have := congrArg Prod.snd hp
    dsimp only at this
    subst this
    constructor
    · intro h; cases h
    · rintro ⟨h1, h2⟩
      rw [Bool.or_eq_true, Bool.and_eq_true, decide_eq_true_eq, decide_eq_true_eq] at hc
      rcases hc with hc | ⟨hc1, hc2⟩
      · omega
      · rcases h2 with h2 | h2
        · omega
        · rw [h2] at hc2; cases hc2
  · rename_i hc
    simp only [bind_ok, pure_ok] at hp
    obtain ⟨_, _, _, _, _, _, _, _, hp⟩ := hp
    have := congrArg Prod.snd hp
    dsimp only at this
    subst this
    refine ⟨fun _ => ?_, fun _ => rfl⟩
    rw [Bool.or_eq_true, Bool.and_eq_true, decide_eq_true_eq, decide_eq_true_eq, not_or, not_and] at hc
    refine ⟨by omega, ?_⟩
    by_cases hy : y0 < c.getHeight
    · exact .inl hy
    · have := hc.2 (by omega)
      cases hg : c.autoGrow with
      | true => exact .inr rfl
      | false => rw [hg] at this; exact absurd rfl this

/-- A 2 x 2 picture at (2, 1) of a 3 x 1 canvas: one column of it fits, two rows are appended. -/
example : let k : RGBA := ⟨0, 0, 0, 255⟩
    let p : RGBA := ⟨255, 255, 255, 255⟩
    let g : RGBA := ⟨9, 9, 9, 255⟩
    Canvas.putPixels { Canvas.new 3 with bytes := [g, g, g] } 2 1 2 2 [k, p, k, p] true =
      .ok ({ Canvas.new 3 with bytes := [g, g, g, p, p, k, p, p, k] }, true) := by decide +kernel

/-! ### C43: drawing never changes the width and never lowers the height -/

/-- The drawing operations. -/
def CanvasOp.drawing : CanvasOp → Bool
  | .drawRect .. | .putRect .. | .putPixels .. | .flipPixels .. | .putRenderImg _ | .renderSpan .. | .expandToHeight _ => true
  | _ => false

theorem C43_width_kept (gs : Glyphs) (c c' : Canvas) (o : CanvasOp) (hd : o.drawing = true) (h : o.apply gs c = .ok c') :
    c'.width = c.width ∧ c'.autoGrow = c.autoGrow ∧ c'.paperColor = c.paperColor ∧ (c.Rect → c.getHeight ≤ c'.getHeight) := by
  have k : Kept c c' := by
    cases o <;> simp only [CanvasOp.apply, ok_ok, map_ok, CanvasOp.drawing, Bool.false_eq_true] at h hd
    case drawRect => exact drawRect_kept h
    case putRect => exact drawRect_kept h
    case putPixels => obtain ⟨⟨c1, b⟩, h1, rfl⟩ := h; exact putPixels_kept h1
    case flipPixels => exact flipPixels_kept h
    case putRenderImg => exact putRenderImg_kept h
    case renderSpan => exact renderSpan_kept h
    case expandToHeight => exact expandToHeight_kept h
  exact ⟨k.width, k.autoGrow, k.paper, k.height⟩

/-- How far a drawing lets the canvas grow: to the bottom of the picture, not further; and it does grow that far when it may. -/
theorem C43_growth (c c' : Canvas) (x0 y0 w h : Nat) (pixels : List RGBA) (multiply : Bool) (hr : c.Rect)
    (hp : c.putPixels x0 y0 w h pixels multiply = .ok (c', true)) :
    c'.getHeight ≤ max c.getHeight (y0 + h) ∧ (c.autoGrow = true → c'.getHeight = max c.getHeight (y0 + h)) := by
  obtain ⟨fw, fh, hput⟩ := putPixels_true hr hp
  have hw : c'.width = c.width := by rw [hput.same]
  have hin := hput.inside
  rw [getHeight_of (by omega : 0 < c'.width) (by rw [hw]; exact hput.rows)]
  have h1 := hput.fhle
  refine ⟨by omega, fun hg => ?_⟩
  rw [hput.grow hg]

/-! ### C44: a locked canvas does not grow -/

/-- Part of C44: with growing disabled the height stays when the picture is not higher than wide, or crosses the right edge,
or lies above the bottom edge.  Missing: pictures higher than wide that cross only the bottom edge (see C44_grows). -/
theorem C44_locked_partial (c c' : Canvas) (x0 y0 w h : Nat) (pixels : List RGBA) (multiply b : Bool) (hr : c.Rect)
    (hg : c.autoGrow = false) (hp : c.putPixels x0 y0 w h pixels multiply = .ok (c', b))
    (hc : h ≤ w ∨ x0 + w > c.width ∨ y0 + h ≤ c.getHeight) : c'.getHeight = c.getHeight := by
  cases b with
  | false => obtain ⟨m, rfl⟩ := putPixels_false hp; rfl
  | true =>
    obtain ⟨fw, fh, hput⟩ := putPixels_true hr hp
    have hw : c'.width = c.width := by rw [hput.same]
    have hin := hput.inside
    rw [getHeight_of (by omega : 0 < c'.width) (by rw [hw]; exact hput.rows)]
    have h1 := hput.fhle
    have h2 := hput.locked hg
    have h3 := hput.lower hg
    by_cases hcr : y0 + w > c.getHeight ∨ x0 + w > c.width
    · have := h2 hcr; omega
    · omega

/-- A locked canvas with one row grows to three rows when a 1 x 3 picture is drawn on it: the code compares `y + width` with
the height of the canvas. -/
theorem C44_grows : ∃ c c' : Canvas, ∃ pixels, c.Rect ∧ c.autoGrow = false ∧ c.getHeight = 1 ∧
    c.putPixels 0 0 1 3 pixels true = .ok (c', true) ∧ c'.getHeight = 3 :=
  let p : RGBA := ⟨255, 255, 255, 255⟩
  ⟨{ Canvas.new 2 with
      bytes := [p, p]
      autoGrow := false },
    { Canvas.new 2 with
      bytes := [p, p, p, p, p, p]
      autoGrow := false }, [p, p, p], ⟨1, rfl⟩, rfl, by decide +kernel, by decide +kernel, by decide +kernel⟩

example : let p : RGBA := ⟨255, 255, 255, 255⟩
    let k : RGBA := ⟨0, 0, 0, 255⟩
    Canvas.putPixels { Canvas.new 2 with bytes := [p, p], autoGrow := false } 0 0 2 2 [k, k, k, k] true =
      .ok ({ Canvas.new 2 with bytes := [k, k], autoGrow := false }, true) := by decide +kernel

/-! ### C45: widening centres -/

/-- Widening to `n` columns puts `(n - w) / 2` (rounded down) columns of paper to the left of the content and the rest to its
right; a smaller `n` changes nothing. -/
theorem C45_centred (c : Canvas) (n : Nat) (hr : c.Rect) :
    (n < c.width → c.expandToWidth n = .ok c) ∧
    (c.width ≤ n → ∃ c', c.expandToWidth n = .ok c' ∧ c'.Rect ∧ c'.width = n ∧ (0 < n → c'.getHeight = c.getHeight) ∧
      (∀ x y, x < c.width → y < c.getHeight → c'.dot ((n - c.width) / 2 + x) y = c.dot x y) ∧
      ∀ x y, x < n → y < c.getHeight → x < (n - c.width) / 2 ∨ (n - c.width) / 2 + c.width ≤ x → c'.dot x y = c.paperColor) := by
  refine ⟨fun h => by unfold Canvas.expandToWidth; rw [if_pos h]; rfl, fun hn => ?_⟩
  obtain ⟨px, h1, h2⟩ := expandToWidth_shows hr hn
  refine ⟨_, h1, ⟨_, h2.1⟩, rfl, fun hpos => getHeight_of hpos h2.1, fun x y hx hy => ?_, fun x y hx hy ho => ?_⟩
  · rw [dot_of_shows (c := { c with bytes := px, width := n }) (w := n) rfl h2 (by omega) hy]
    unfold centred
    rw [if_pos (by omega), Nat.add_sub_cancel_left]
  · rw [dot_of_shows (c := { c with bytes := px, width := n }) (w := n) rfl h2 hx hy]
    unfold centred
    rw [if_neg (by omega)]

example : let p : RGBA := ⟨255, 255, 255, 255⟩
    let k : RGBA := ⟨0, 0, 0, 255⟩
    Canvas.expandToWidth { Canvas.new 1 with bytes := [k, k] } 4 =
      .ok { Canvas.new 4 with bytes := [p, k, p, p, p, k, p, p] } := by decide +kernel

/-! ### C46: flipping -/

theorem flipPixels_get {c c' : Canvas} {x0 y0 w h : Nat} (hr : c.Rect) (ho : c.Opaque) (hp : c.paperColor.a = 255) (hw : 0 < w)
    (hh : 0 < h) (hfit : x0 + w ≤ c.width) (hf : c.flipPixels x0 y0 w h = .ok c') :
    c' = { c with bytes := c'.bytes } ∧ Shows c'.bytes c.width (max c.getHeight (y0 + h))
      (flipped (onPaper c.dot c.getHeight c.paperColor) x0 y0 w h) := by
  simp only [flipPixels, bind_ok, addU32_ok] at hf
  obtain ⟨_, ⟨_, rfl⟩, hf⟩ := hf
  rw [if_neg (show ¬ x0 + w > c.width by omega)] at hf
  simp only [bind_ok, addU32_ok, mulU32_ok, pure_ok] at hf
  obtain ⟨_, ⟨_, rfl⟩, c1, h1, _, _, sub, h2, sub2, h3, ⟨c2, b⟩, h4, rfl⟩ := hf
  dsimp only at *
  have hpos : 0 < c.width := by omega
  obtain ⟨s1, s2, s3⟩ := expandToHeight_shows hr.shows h1
  have s2 := s2 hpos
  have hw1 : c1.width = c.width := by rw [s1]
  have hH1 : c1.getHeight = max c.getHeight (y0 + h) := getHeight_of (by omega) (by rw [hw1]; exact s2.1)
  have k1 := expandToHeight_kept h1
  have ho1 := k1.ink hr ho hp
  have t1 := collect_shows (c := c1) (H := max c.getHeight (y0 + h)) (by rw [hw1]; exact s2) (by omega) (by omega) h2
  have t2 := swapRows_shows t1 h3
  have hb : b = true := by
    cases b with
    | true => rfl
    | false =>
      exfalso
      simp only [putPixels, bind_ok, mulU32_ok] at h4
      obtain ⟨_, ⟨_, rfl⟩, h4⟩ := h4
      rw [if_neg (show ¬ w * h < sub2.length by rw [t2.1]; omega), if_neg] at h4
      · simp only [bind_ok, pure_ok] at h4
        obtain ⟨_, _, _, _, _, _, _, _, h4⟩ := h4
        exact absurd (congrArg Prod.snd h4) (by simp)
      · rw [Bool.or_eq_true, Bool.and_eq_true, decide_eq_true_eq, decide_eq_true_eq]
        omega
  subst hb
  obtain ⟨fw, fh, hput⟩ := putPixels_true s3 h4
  have hfw : fw = w := by have := hput.columns; omega
  have hfh : fh = h := by
    cases hg : c1.autoGrow with
    | true => exact hput.grow hg
    | false => rcases hput.either hg with h | h <;> omega
  subst hfw hfh
  have hmax : max c1.getHeight (y0 + fh) = max c.getHeight (y0 + fh) := by omega
  refine ⟨?_, by rw [hput.rows, hw1, hmax], fun x y hx hy => ?_⟩
  · have := hput.same; rw [s1] at this; exact this
  · have hd := hput.dots x y (by omega) (by omega)
    rw [hw1] at hd
    rw [hd]
    congr 1
    have hold : onPaper c1.dot c1.getHeight c1.paperColor x y = onPaper c.dot c.getHeight c.paperColor x y := by
      unfold onPaper
      rw [if_pos (show y < c1.getHeight by omega), dot_of_shows hw1 s2 hx hy]
      rfl
    dsimp only
    rw [hold]
    unfold flipped
    by_cases hin : inRect x0 y0 fw fh x y
    · rw [if_pos hin, if_pos hin]
      obtain ⟨i1, i2, i3, i4⟩ := hin
      rw [t2.2 (x - x0) (y - y0) (by omega) (by omega)]
      dsimp only [Option.elim]
      have hval : (onPaper c.dot c.getHeight c.paperColor (x0 + (x - x0)) (y0 + (fh - 1 - (y - y0)))).a = 255 :=
        onPaper_opaque hr ho hp (by omega)
      have : combine false (onPaper c.dot c.getHeight c.paperColor x y) (onPaper c.dot c.getHeight c.paperColor (x0 + (x - x0)) (y0 + (fh - 1 - (y - y0)))) =
          onPaper c.dot c.getHeight c.paperColor (x0 + (x - x0)) (y0 + (fh - 1 - (y - y0))) := blend_opaque _ _ hval
      rw [this, show x0 + (x - x0) = x by omega]
    · rw [if_neg hin, if_neg hin]

/-- Flipping reverses the rows of the rectangle and leaves every other dot as it is (the canvas is first extended with paper
down to the bottom of the rectangle).  The dots of a canvas are opaque in every state the renderer reaches (C46_opaque). -/
theorem C46_flip (c c' : Canvas) (x0 y0 w h : Nat) (hr : c.Rect) (ho : c.Opaque) (hp : c.paperColor.a = 255) (hw : 0 < w)
    (hh : 0 < h) (hfit : x0 + w ≤ c.width) (hf : c.flipPixels x0 y0 w h = .ok c') :
    c'.width = c.width ∧ c'.getHeight = max c.getHeight (y0 + h) ∧ c'.errors = c.errors ∧
      ∀ x y, x < c'.width → y < c'.getHeight →
        c'.dot x y = flipped (onPaper c.dot c.getHeight c.paperColor) x0 y0 w h x y := by
  obtain ⟨e, s⟩ := flipPixels_get hr ho hp hw hh hfit hf
  have hw' : c'.width = c.width := by rw [e]
  have hH : c'.getHeight = max c.getHeight (y0 + h) := getHeight_of (by omega) (by rw [hw']; exact s.1)
  refine ⟨hw', hH, by rw [e], fun x y hx hy => ?_⟩
  rw [dot_of_shows hw' s (by omega) (by omega)]

/-- Flipping twice gives back the same canvas, when the rectangle lies on it. -/
theorem C46_twice (c c1 c2 : Canvas) (x0 y0 w h : Nat) (hr : c.Rect) (ho : c.Opaque) (hp : c.paperColor.a = 255) (hw : 0 < w)
    (hh : 0 < h) (hfit : x0 + w ≤ c.width) (hbot : y0 + h ≤ c.getHeight) (h1 : c.flipPixels x0 y0 w h = .ok c1)
    (h2 : c1.flipPixels x0 y0 w h = .ok c2) : c2 = c := by
  obtain ⟨e1, s1⟩ := flipPixels_get hr ho hp hw hh hfit h1
  have k := flipPixels_kept h1
  have hw1 : c1.width = c.width := k.width
  have hr1 := k.rect hr
  rw [Nat.max_eq_left hbot] at s1
  have hH1 : c1.getHeight = c.getHeight := getHeight_of (by omega) (by rw [hw1]; exact s1.1)
  obtain ⟨e2, s2⟩ := flipPixels_get hr1 (k.ink hr ho hp) (by rw [k.paper]; exact hp) hw hh (by omega) h2
  rw [hw1, hH1, Nat.max_eq_left hbot] at s2
  have : c2.bytes = c.bytes := by
    refine Thermal.Shows.ext (Thermal.Shows.of_get s2 fun x y hx hy => ?_) hr.shows
    unfold flipped onPaper
    have d : ∀ x y, x < c.width → y < c.getHeight → c1.dot x y = flipped (onPaper c.dot c.getHeight c.paperColor) x0 y0 w h x y :=
      fun x y hx hy => dot_of_shows hw1 s1 hx hy
    by_cases hin : inRect x0 y0 w h x y
    · obtain ⟨i1, i2, i3, i4⟩ := hin
      rw [if_pos (show inRect x0 y0 w h x y from ⟨i1, i2, i3, i4⟩), if_pos (by omega), d _ _ hx (by omega)]
      unfold flipped onPaper
      rw [if_pos (show inRect x0 y0 w h x (y0 + (h - 1 - (y - y0))) from ⟨i1, i2, by omega, by omega⟩)]
      rw [if_pos (by omega)]
      congr 1; omega
    · rw [if_neg hin, if_pos hy, d _ _ hx hy]
      unfold flipped onPaper
      rw [if_neg hin, if_pos hy]
  rw [e2, this, e1]

/-- Every canvas operation keeps opaque dots opaque while the paper colour is opaque. -/
theorem C46_opaque (gs : Glyphs) (c c' : Canvas) (o : CanvasOp) (hr : c.Rect) (ho : c.Opaque) (hp : c.paperColor.a = 255)
    (h : o.apply gs c = .ok c') : c'.Opaque := by
  have moved : ∀ (px : List RGBA) (w h : Nat) (f : Nat → Nat → RGBA), 0 < w → Shows px w h f →
      (∀ x y, x < w → y < h → (f x y).a = 255) → ∀ p ∈ px, p.a = 255 := by
    intro px w h f hw hs hf p hm
    obtain ⟨k, hk⟩ := List.getElem?_of_mem hm
    have hkl : k < w * h := by rw [← hs.1]; exact (List.getElem?_eq_some_iff.1 hk).1
    have h1 := Nat.mod_lt k hw
    have h2 : k / w < h := by rw [Nat.div_lt_iff_lt_mul hw, Nat.mul_comm]; exact hkl
    have := hs.2 (k % w) (k / w) h1 h2
    rw [show k / w * w + k % w = k by rw [Nat.mul_comm]; exact Nat.div_add_mod .., hk] at this
    rw [Option.some.inj this]; exact hf _ _ h1 h2
  have dot : ∀ x y, x < c.width → y < c.getHeight → (c.dot x y).a = 255 := fun x y hx hy =>
    ho _ (List.mem_of_getElem? (hr.shows.2 x y hx hy))
  have nil : ∀ px : List RGBA, px.length = 0 → ∀ p ∈ px, p.a = 255 := by
    intro px h p hm; rw [List.length_eq_zero_iff.1 h] at hm; cases hm
  cases o <;> simp only [CanvasOp.apply, ok_ok, map_ok] at h
  case rotate90 =>
    obtain ⟨px, h1, h2⟩ := Canvas.rotate90_shows hr
    rw [h1, ok_ok] at h; subst h
    by_cases hh : 0 < c.getHeight
    · exact moved px _ _ _ hh h2 fun x y hx hy => dot _ _ hy (by omega)
    · exact nil px (by rw [h2.1, show c.getHeight = 0 by omega, Nat.zero_mul])
  case rotate180 =>
    obtain ⟨px, h1, h2⟩ := Canvas.rotate180_shows hr
    rw [h1, ok_ok] at h; subst h
    by_cases hh : 0 < c.width
    · exact moved px _ _ _ hh h2 fun x y hx hy => dot _ _ (by omega) (by omega)
    · exact nil px (by rw [h2.1, show c.width = 0 by omega, Nat.zero_mul])
  case rotate270 =>
    obtain ⟨px, h1, h2⟩ := Canvas.rotate270_shows hr
    rw [h1, ok_ok] at h; subst h
    by_cases hh : 0 < c.getHeight
    · exact moved px _ _ _ hh h2 fun x y hx hy => dot _ _ (by omega) (by omega)
    · exact nil px (by rw [h2.1, show c.getHeight = 0 by omega, Nat.zero_mul])
  case setWidth => subst h; exact nil _ rfl
  case reset => subst h; exact nil _ rfl
  case empty => subst h; exact nil _ rfl
  case configure => subst h; exact ho
  case drawRect => exact (drawRect_kept h).ink hr ho hp
  case putRect => exact (drawRect_kept h).ink hr ho hp
  case putPixels => obtain ⟨⟨c1, b⟩, h1, rfl⟩ := h; exact (putPixels_kept h1).ink hr ho hp
  case flipPixels => exact (flipPixels_kept h).ink hr ho hp
  case putRenderImg => exact (putRenderImg_kept h).ink hr ho hp
  case renderSpan => exact (renderSpan_kept h).ink hr ho hp
  case expandToHeight => exact (expandToHeight_kept h).ink hr ho hp
  case expandToWidth w =>
    by_cases hw : w < c.width
    · unfold Canvas.expandToWidth at h; rw [if_pos hw, pure_ok] at h; subst h; exact ho
    · obtain ⟨px, h1, h2⟩ := expandToWidth_shows (n := w) hr (by omega)
      rw [h1, ok_ok] at h; subst h
      by_cases hh : 0 < w
      · refine moved px _ _ _ hh h2 fun x y hx hy => ?_
        unfold centred
        split
        · exact dot _ _ (by omega) hy
        · exact hp
      · exact nil px (by rw [h2.1, show w = 0 by omega, Nat.zero_mul])
  case addTopMargin n =>
    have := addTopMargin_ok h
    subst this
    intro p hm
    rcases List.mem_append.1 hm with hm | hm
    · rw [List.eq_of_mem_replicate hm, hp]
    · exact ho p hm
  case consumeRgb =>
    obtain ⟨⟨c1, r⟩, h1, rfl⟩ := h
    simp only [Canvas.consumeRgb, bind_ok, pure_ok] at h1
    obtain ⟨_, _, h1⟩ := h1
    have := congrArg Prod.fst h1
    dsimp only at this; subst this
    exact nil _ rfl

/-- Flipping the right column of 1 2 / 3 4 / 5 6 gives 1 6 / 3 4 / 5 2. -/
example : let p (n : Byte) : RGBA := ⟨n, n, n, 255⟩
    let c := { Canvas.new 2 with bytes := [p 1, p 2, p 3, p 4, p 5, p 6] }
    c.flipPixels 1 0 1 3 = .ok { c with bytes := [p 1, p 6, p 3, p 4, p 5, p 2] } := by decide +kernel

/-! ### C47: cropping -/

/-- Cropping keeps the top left corner: `min w mw` columns and, when the height is cropped, `min h mh` rows of it. -/
theorem C47_crop (pixels : List RGBA) (w h mw mh : Nat) (cropHeight : Bool) (f : Nat → Nat → RGBA) (hs : Shows pixels w h f)
    (hu : w * h < U32) :
    ∃ px, Canvas.cropPixels pixels w h mw mh cropHeight = .ok (min w mw, (if cropHeight then min h mh else h), px) ∧
      Shows px (min w mw) (if cropHeight then min h mh else h) f := by
  obtain ⟨⟨nw, nh, px⟩, hc⟩ := cropPixels_defined (mw := mw) (mh := mh) (ch := cropHeight) hs.1 hu
  obtain ⟨e1, e2, e3, e4⟩ := cropPixels_eq hc
  subst e1 e2
  refine ⟨px, hc, e3, fun x y hx hy => ?_⟩
  have hh : (if cropHeight = true then min h mh else h) ≤ h := by split <;> omega
  rw [(e4 x y hx hy).1, hs.2 x y (by omega) (by omega)]

example : let p (n : Byte) : RGBA := ⟨n, n, n, 255⟩
    Canvas.cropPixels [p 1, p 2, p 3, p 4, p 5, p 6] 2 3 1 2 true = .ok (1, 2, [p 1, p 3]) := by decide +kernel

end Thermal
