import Verif.Props.Layout
import Verif.Props.Geometry
import Verif.Props.Jobs
import Verif.Proofs.PenArith
import Verif.Spec.Drawing
/-
C51, C52, C53: where barcodes, 2D codes and images are drawn.
-/
namespace Thermal
open Renderer

/-! ### C51 -/

theorem bars_cons (left start y w h p : Nat) (m : Byte) (ms : List Byte) (k : Nat) :
    Spec.bars left start y w h p (m :: ms) k =
      (if m > 0 ∧ start + (k + 1) * w ≤ p then [⟨left + start + k * w, y, w, h⟩] else []) ++ Spec.bars left start y w h p ms (k + 1) := by
  unfold Spec.bars
  rw [List.zipIdx_cons, List.filter_cons]
  by_cases hm : m > 0 ∧ start + (k + 1) * w ≤ p <;> simp [hm]

theorem bars_none (left start y w h p : Nat) (ms : List Byte) : ∀ k, (p < start + (k + 1) * w) → Spec.bars left start y w h p ms k = [] := by
  induction ms with
  | nil => intro k _; rfl
  | cons m ms ih =>
    intro k hk
    rw [bars_cons, if_neg (by omega), ih (k + 1) (by rw [Nat.add_mul (k+1)]; omega)]; rfl

/-- Once a module does not fit, no other set module is drawn. -/
theorem barcodeLoop_stuck {b : Barcode} {ps : List Byte} {c0 c : Context} {acc : List Rectangle} {r} {u : Nat}
    (hc : c = c0.putX (c0.baseX + u)) (hu : c0.getWidth - u < b.pointWidth.toNat) (h : barcodeLoop b ps c acc = .ok r) : r.2 = acc := by
  induction ps generalizing c acc u with
  | nil => simp only [barcodeLoop, ok_ok] at h; subst h; rfl
  | cons p ps ih =>
    simp only [barcodeLoop] at h
    have ha : c.availableWidth < b.pointWidth.toNat := by rw [hc, available_putX]; exact hu
    by_cases hp : p > 0
    · rw [if_pos ⟨hp, ha⟩] at h
      exact ih hc hu h
    · rw [if_neg (fun h => hp h.1), bind_ok] at h
      obtain ⟨c2, h2, h⟩ := h
      rw [if_neg hp] at h
      rw [offsetX_ok] at h2
      obtain ⟨_, rfl⟩ := h2
      refine ih (u := u + b.pointWidth.toNat) ?_ (by omega) h
      subst hc
      rw [getX_putX, putX_putX, Nat.add_assoc]

theorem barcodeLoop_bars {b : Barcode} (hw : 0 < b.pointWidth.toNat) {ps : List Byte} {c0 c : Context} {acc : List Rectangle} {r}
    {start k : Nat} (hc : c = c0.putX (c0.baseX + (start + k * b.pointWidth.toNat))) (h : barcodeLoop b ps c acc = .ok r) :
    r.2 = acc ++ Spec.bars c0.baseX start c0.getY b.pointWidth.toNat b.pointHeight.toNat c0.getWidth ps k := by
  induction ps generalizing c acc k with
  | nil => simp only [barcodeLoop, ok_ok] at h; subst h; simp [Spec.bars]
  | cons p ps ih =>
    have hav : c.availableWidth = c0.getWidth - (start + k * b.pointWidth.toNat) := by rw [hc, available_putX]
    by_cases hfit : start + (k + 1) * b.pointWidth.toNat ≤ c0.getWidth
    · have hfit' : ¬ c.availableWidth < b.pointWidth.toNat := by
        rw [hav]; rw [Nat.add_mul, Nat.one_mul] at hfit; omega
      simp only [barcodeLoop] at h
      rw [if_neg (fun h => hfit' h.2), bind_ok] at h
      obtain ⟨c2, h2, h⟩ := h
      rw [offsetX_ok] at h2
      obtain ⟨_, rfl⟩ := h2
      rw [ih (k := k + 1) ?_ h, bars_cons]
      · subst hc
        rw [getX_putX, getY_putX]
        by_cases hp : p > 0
        · rw [if_pos hp, if_pos ⟨hp, hfit⟩, List.append_assoc, ← Nat.add_assoc]
        · rw [if_neg hp, if_neg (fun h => hp h.1)]; rfl
      · subst hc
        rw [getX_putX, putX_putX, Nat.add_assoc, Nat.add_assoc, Nat.add_mul, Nat.one_mul]
    · rw [bars_none _ _ _ _ _ _ _ _ (by omega), List.append_nil]
      refine barcodeLoop_stuck hc ?_ h
      rw [Nat.add_mul, Nat.one_mul] at hfit; omega

theorem barcodeLoop_getY {b : Barcode} {ps : List Byte} {c : Context} {acc : List Rectangle} {r}
    (h : barcodeLoop b ps c acc = .ok r) : r.1.getY = c.getY ∧ r.1.baseX = c.baseX := by
  induction ps generalizing c acc with
  | nil => simp only [barcodeLoop, ok_ok] at h; subst h; exact ⟨rfl, rfl⟩
  | cons p ps ih =>
    simp only [barcodeLoop] at h
    split at h
    · exact ih h
    · simp only [bind_ok] at h
      obtain ⟨c3, h3, h⟩ := h
      rw [offsetX_ok] at h3
      obtain ⟨_, rfl⟩ := h3
      have := ih h
      rw [getY_putX, baseX_putX] at this
      exact this

theorem barcodeText_calls {r r' : Recording} {b} (h : barcodeText recorder r b = .ok r') :
    ∃ calls, r'.child = r.child ++ calls ∧ ∀ x ∈ calls, ∃ l o m j, x.2 = .text l o m j := by
  simp only [barcodeText, bind_ok, pure_ok] at h
  obtain ⟨r1, h1, c, _, rfl⟩ := h
  obtain ⟨calls, e1, e2, _⟩ := C29_text_kept _ _ h1
  refine ⟨calls, e1, fun x hx => ?_⟩
  obtain ⟨l, o, m, j, h, _⟩ := e2 x hx
  exact ⟨l, o, m, j, h⟩

/-- C51. Printing a barcode hands over its text, if asked for, and one list of rectangles, which is exactly the set modules
that end within the print width: module `i` at `start + i * width` dots from the left of the print area, `start` being the
justification of the whole code (C32), all with the same top, width and height.  The pen ends below the bars. -/
theorem C51_bars (r r' : Recording) (b : Barcode) (hs : r.spanBuffer = []) (hw : 0 < b.pointWidth.toNat)
    (h : processBarcode recorder r b = .ok r') :
    ∃ above c gs below y, r'.child = r.child ++ above ++ [(c, .graphics gs)] ++ below ∧
      (∀ x ∈ above ++ below, ∃ l o m j, x.2 = .text l o m j) ∧
      gs = Spec.bars r.context.baseX (r.context.justification (b.points.length * b.pointWidth.toNat)) y
        b.pointWidth.toNat b.pointHeight.toNat r.context.getWidth b.points ∧
      r.context.getY ≤ y ∧ y + b.pointHeight.toNat ≤ r'.context.getY ∧
      (r.context.barcode.humanReadable ≠ .above → r.context.barcode.humanReadable ≠ .both → y = r.context.getY ∧ above = []) := by
  simp only [processBarcode, bind_ok] at h
  obtain ⟨r1, h1, r2, h2, h3⟩ := h
  have q1 := barcodeAbove_quiet hs h1
  have q3 := barcodeBelow_quiet (((barcodeBars_quiet h2).3.trans q1.3).trans hs) h3
  have a : ∃ calls, r1.child = r.child ++ calls ∧ (∀ x ∈ calls, ∃ l o m j, x.2 = .text l o m j) ∧
      (r.context.barcode.humanReadable ≠ .above → r.context.barcode.humanReadable ≠ .both → r1 = r ∧ calls = []) := by
    unfold barcodeAbove at h1
    split at h1
    · rename_i hb
      obtain ⟨calls, e1, e2⟩ := barcodeText_calls h1
      exact ⟨calls, e1, e2, fun h5 h6 => by rcases hb with hb | hb <;> contradiction⟩
    · rw [ok_ok] at h1; subst h1; exact ⟨[], by simp⟩
  have z : ∃ calls, r'.child = r2.child ++ calls ∧ ∀ x ∈ calls, ∃ l o m j, x.2 = .text l o m j := by
    unfold barcodeBelow at h3
    split at h3
    · simp only [bind_ok] at h3
      obtain ⟨c, _, h3⟩ := h3
      have := barcodeText_calls h3
      exact this
    · rw [ok_ok] at h3; subst h3; exact ⟨[], by simp⟩
  obtain ⟨above, e1, e2, e5⟩ := a
  obtain ⟨below, e3, e4⟩ := z
  simp only [barcodeBars, bind_ok, pure_ok, recorder, ok_ok, mulU32_ok] at h2
  obtain ⟨_, ⟨_, rfl⟩, c1, h4, ⟨c2, gs⟩, h5, s, rfl, c3, h6, rfl⟩ := h2
  have hx := setX_ok h4
  have hb := barcodeLoop_bars hw (c0 := r1.context) (k := 0) (start := r1.context.justification (b.points.length * b.pointWidth.toNat)) (by rw [hx, Nat.zero_mul, Nat.add_zero]) h5
  have hy := barcodeLoop_getY h5
  rw [offsetY_ok] at h6
  obtain ⟨_, rfl⟩ := h6
  have hj : ∀ w, r1.context.justification w = r.context.justification w := by
    intro w
    obtain ⟨_, _, _, _, hh, _, _⟩ := q1.4
    rw [hh]; rfl
  refine ⟨above, c2, gs, below, r1.context.getY, ?_, ?_, ?_, PenDown.getY q1.4, ?_, ?_⟩
  · rw [e3]
    show r1.child ++ _ ++ below = _
    rw [e1]
  · intro x hx
    rcases List.mem_append.1 hx with hx | hx
    · exact e2 x hx
    · exact e4 x hx
  · simp only [List.nil_append] at hb
    rw [hb, PenDown.baseX q1.4, PenDown.getWidth q1.4, hj]
  · have := PenDown.getY q3.4
    dsimp only at this
    rw [getY_putY] at this
    simp only [Context.resetX, getY_putX] at this
    rw [hy.1, hx, getY_putX] at this
    exact this
  · intro h7 h8
    obtain ⟨e, e'⟩ := e5 h7 h8
    rw [e]; exact ⟨rfl, e'⟩

/-- C51. No bar lies outside the print area. -/
theorem C51_inside (left start y w h p : Nat) (modules : List Byte) :
    ∀ g ∈ Spec.bars left start y w h p modules, left ≤ g.x ∧ g.x + g.w ≤ left + p ∧ g.y = y ∧ g.w = w ∧ g.h = h := by
  intro g hg
  simp only [Spec.bars, List.mem_map, List.mem_filter, decide_eq_true_eq] at hg
  obtain ⟨m, ⟨_, _, hm⟩, rfl⟩ := hg
  rw [Nat.add_mul, Nat.one_mul] at hm
  dsimp only
  omega

/-- A barcode of five modules, in the default context. -/
example : ∃ r', processBarcode recorder (Renderer.new []) ⟨[1, 0, 1, 1, 0], 3, 40, .none, TextSpan.new [] Context.new⟩ = .ok r' ∧
    r'.child.map (·.2) = [.graphics [⟨0, 60, 3, 40⟩, ⟨6, 60, 3, 40⟩, ⟨9, 60, 3, 40⟩]] := by
  refine ⟨_, rfl, ?_⟩; decide +kernel

/-! ### C52 -/

theorem grid_cons (x y w h n : Nat) (m : Byte) (ms : List Byte) (k : Nat) :
    Spec.grid x y w h n (m :: ms) k =
      (if m > 0 then [⟨x + (k % n) * w, y + (k / n) * h, w, h⟩] else []) ++ Spec.grid x y w h n ms (k + 1) := by
  unfold Spec.grid
  rw [List.zipIdx_cons, List.filter_cons]
  by_cases hm : m > 0 <;> simp [hm]

/-- The pen before module `k` of a 2D code. -/
structure At2d (q : Code2D) (c0 : Context) (o y0 k : Nat) (c : Context) : Prop where
  base : c.baseX = c0.baseX
  width : c.getWidth = c0.getWidth
  first : k = 0 → c.getX = c0.baseX + o ∧ c.getY = y0
  later : 0 < k → c.getX = c0.baseX + o + ((k - 1) % q.width + 1) * q.pointWidth ∧ c.getY = y0 + ((k - 1) / q.width) * q.pointHeight

theorem succ_mod_wrap {k w : Nat} (hw : 2 ≤ w) (hk : 0 < k) (h : k % w = 0) : (k - 1) / w + 1 = k / w := by
  obtain ⟨m, rfl⟩ := Nat.dvd_of_mod_eq_zero h
  obtain ⟨n, rfl⟩ : ∃ n, m = n + 1 := ⟨m - 1, by rcases m with _ | m <;> omega⟩
  have e : w * (n + 1) - 1 = w * n + (w - 1) := by rw [Nat.mul_add, Nat.mul_one]; omega
  rw [e, Nat.mul_add_div (by omega), Nat.mul_div_cancel_left _ (by omega), Nat.div_eq_of_lt (show w - 1 < w by omega)]

theorem succ_mod_same {k w : Nat} (hw : 2 ≤ w) (hk : 0 < k) (h : k % w ≠ 0) : (k - 1) / w = k / w ∧ (k - 1) % w + 1 = k % w := by
  have e := Nat.div_add_mod k w
  have hlt := Nat.mod_lt k (by omega : w > 0)
  have e2 : k - 1 = w * (k / w) + (k % w - 1) := by omega
  constructor
  · rw [e2, Nat.mul_add_div (by omega), Nat.div_eq_of_lt (show k % w - 1 < w by omega)]; rfl
  · rw [e2, Nat.mul_add_mod, Nat.mod_eq_of_lt (show k % w - 1 < w by omega)]; omega

theorem row_start {k w : Nat} (hw : 2 ≤ w) : (k + 1) % w = 1 ↔ k % w = 0 := by
  have hlt := Nat.mod_lt k (by omega : w > 0)
  rw [Nat.add_mod, Nat.mod_eq_of_lt (by omega : 1 < w)]
  constructor
  · intro h
    by_cases hc : k % w + 1 < w
    · rw [Nat.mod_eq_of_lt hc] at h; omega
    · have : k % w + 1 = w := by omega
      rw [this, Nat.mod_self] at h; omega
  · intro h; rw [h, Nat.zero_add, Nat.mod_eq_of_lt (by omega)]

theorem code2dRow_ok {q : Code2D} (hw : 2 ≤ q.width) {c0 c c' : Context} {o y0 k : Nat} (hc : At2d q c0 o y0 k c)
    (h : code2dRow q o (k + 1) c = .ok c') :
    c'.baseX = c0.baseX ∧ c'.getWidth = c0.getWidth ∧ c'.getX = c0.baseX + o + (k % q.width) * q.pointWidth ∧
      c'.getY = y0 + (k / q.width) * q.pointHeight := by
  unfold code2dRow at h
  obtain ⟨hb, hwd, h0, h1⟩ := hc
  by_cases hk : k = 0
  · subst hk
    rw [if_pos rfl, ok_ok] at h; subst h
    obtain ⟨e1, e2⟩ := h0 rfl
    exact ⟨hb, hwd, by rw [e1, Nat.zero_mod, Nat.zero_mul]; rfl, by rw [e2, Nat.zero_div, Nat.zero_mul]; rfl⟩
  · obtain ⟨e1, e2⟩ := h1 (by omega)
    rw [if_neg (by omega), if_neg (by omega)] at h
    by_cases hm : k % q.width = 0
    · rw [if_pos ((row_start hw).2 hm), bind_ok] at h
      obtain ⟨c1, h2, h3⟩ := h
      have := setX_ok h2
      rw [offsetY_ok] at h3
      obtain ⟨_, rfl⟩ := h3
      subst this
      refine ⟨by rw [baseX_putY, baseX_putX, hb], by rw [getWidth_putY, getWidth_putX, hwd], ?_, ?_⟩
      · rw [getX_putY, getX_putX, hm, Nat.zero_mul, hb]; rfl
      · rw [getY_putY, getY_putX, e2, ← succ_mod_wrap hw (by omega) hm, Nat.add_mul, Nat.one_mul, Nat.add_assoc]
    · rw [if_neg (fun h => hm ((row_start hw).1 h)), ok_ok] at h
      subst h
      obtain ⟨e3, e4⟩ := succ_mod_same hw (by omega) hm
      exact ⟨hb, hwd, by rw [e1, e4], by rw [e2, e3]⟩

theorem code2dLoop_grid {q : Code2D} (hw : 2 ≤ q.width) {c0 : Context} {o y0 : Nat} (hfit : o + q.width * q.pointWidth ≤ c0.getWidth)
    {ps : List Byte} {c : Context} {acc : List Rectangle} {k : Nat} {r} (hc : At2d q c0 o y0 k c)
    (h : code2dLoop q o ps (k + 1) c acc = .ok r) :
    r.2 = acc ++ Spec.grid (c0.baseX + o) y0 q.pointWidth q.pointHeight q.width ps k ∧ At2d q c0 o y0 (k + ps.length) r.1 := by
  induction ps generalizing c acc k with
  | nil => simp only [code2dLoop, ok_ok] at h; subst h; exact ⟨by simp [Spec.grid], hc⟩
  | cons p ps ih =>
    simp only [code2dLoop] at h
    rw [bind_ok] at h
    obtain ⟨c1, h1, h⟩ := h
    obtain ⟨hb, hwd, ex, ey⟩ := code2dRow_ok hw hc h1
    have hlt := Nat.mod_lt k (by omega : q.width > 0)
    have hroom : ¬ c1.availableWidth < q.pointWidth := by
      rw [available_eq, hb, hwd, ex]
      have : (k % q.width) * q.pointWidth + q.pointWidth ≤ q.width * q.pointWidth := by
        rw [← Nat.succ_mul]; exact Nat.mul_le_mul_right _ hlt
      omega
    have next : ∀ c2, c1.offsetX q.pointWidth = .ok c2 → At2d q c0 o y0 (k + 1) c2 := by
      intro c2 h2
      rw [offsetX_ok] at h2
      obtain ⟨_, rfl⟩ := h2
      refine ⟨by rw [baseX_putX, hb], by rw [getWidth_putX, hwd], fun h => by omega, fun _ => ⟨?_, ?_⟩⟩
      · rw [getX_putX, ex, Nat.add_sub_cancel, Nat.add_mul, Nat.one_mul, Nat.add_assoc]
      · rw [getY_putX, ey, Nat.add_sub_cancel]
    have e : k + (p :: ps).length = k + 1 + ps.length := by simp only [List.length_cons]; omega
    rw [grid_cons, e]
    by_cases hp : p > 0
    · rw [if_pos hp, if_neg hroom, bind_ok] at h
      obtain ⟨c2, h2, h⟩ := h
      obtain ⟨e1, e2⟩ := ih (next c2 h2) h
      refine ⟨?_, e2⟩
      rw [e1, if_pos hp, ex, ey, List.append_assoc]
    · rw [if_neg hp, bind_ok] at h
      obtain ⟨c2, h2, h⟩ := h
      obtain ⟨e1, e2⟩ := ih (next c2 h2) h
      refine ⟨?_, e2⟩
      rw [e1, if_neg hp]; rfl

/-- C52. A 2D code at least two modules wide that fits on the line is handed over as one list of rectangles, which is exactly
its set modules on a grid: column `i mod width`, row `i / width`, from the justified (C32) left edge and the pen's `y`.  The
pen ends at the left margin. -/
theorem C52_grid (r r' : Recording) (q : Code2D) (hw : 2 ≤ q.width) (hfit : q.width * q.pointWidth ≤ r.context.getWidth)
    (h : processCode2d recorder r q = .ok r') :
    r'.child = r.child ++ [(r'.context, .graphics (Spec.grid (r.context.baseX + r.context.justification (q.width * q.pointWidth))
        r.context.getY q.pointWidth q.pointHeight q.width q.points))] ∧ r'.context.getX = r.context.baseX := by
  simp only [processCode2d, bind_ok, pure_ok, recorder, ok_ok, mulU32_ok] at h
  obtain ⟨_, ⟨_, rfl⟩, c1, h4, ⟨c2, gs⟩, h5, s, rfl, rfl⟩ := h
  have hx := setX_ok h4
  have hj := (C32_justification r.context (q.width * q.pointWidth)).2.1 hfit
  have hc : At2d q r.context (r.context.justification (q.width * q.pointWidth)) r.context.getY 0 c1 := by
    subst hx
    exact ⟨baseX_putX _ _, getWidth_putX _ _, fun _ => ⟨getX_putX _ _, getY_putX _ _⟩, fun h => absurd h (by omega)⟩
  obtain ⟨e1, e2⟩ := code2dLoop_grid hw hj hc h5
  simp only [List.nil_append] at e1
  subst e1
  refine ⟨rfl, ?_⟩
  show (Context.resetX c2).getX = _
  unfold Context.resetX
  rw [getX_putX]; exact e2.base

/-- A code of three columns and two rows, in the default context. -/
example : ∃ r', processCode2d recorder (Renderer.new []) ⟨[1, 0, 1, 0, 1, 1], 3, 4, 4⟩ = .ok r' ∧
    r'.child.map (·.2) = [.graphics [⟨0, 60, 4, 4⟩, ⟨8, 60, 4, 4⟩, ⟨4, 64, 4, 4⟩, ⟨8, 64, 4, 4⟩]] := by
  refine ⟨_, rfl, ?_⟩; decide +kernel

/-- The width is needed: a code one module wide is drawn as a row. -/
theorem C52_needs_two : ∃ (r r' : Recording) (q : Code2D), q.width = 1 ∧ processCode2d recorder r q = .ok r' ∧
    r'.child.map (·.2) ≠ [.graphics (Spec.grid 0 60 4 4 1 q.points)] ∧ r.context.getY = 60 :=
  ⟨Renderer.new [], _, ⟨[1, 1], 1, 4, 4⟩, rfl, rfl, by decide +kernel, rfl⟩

/-! ### C53 -/

/-- C53. A block image outside page mode is drawn at the justified (C32) left edge and the pen's `y`, and the pen ends at the
left margin, lower by the image's height. -/
theorem C53_block (r r' : Recording) (i : Image) (hf : i.flow = .block) (hp : r.context.pageMode.enabled = false)
    (h : processImage recorder r i = .ok r') :
    ∃ c, r'.child = r.child ++ [(c, .image { i with x := r.context.justification i.w, y := r.context.getY })] ∧
      r'.context.getX = 0 ∧ r'.context.getY = r.context.getY + i.h := by
  have hb : r.context.baseX = 0 := by unfold Context.baseX; rw [hp]; rfl
  simp only [processImage, imageBefore, hf, hp, bind_ok, recorder, ok_ok, pure_ok, Bool.false_eq_true, if_false] at h
  obtain ⟨c1, h1, s, rfl, c2, h2, rfl⟩ := h
  have hx := setX_ok h1
  have hp1 : c1.pageMode.enabled = false := by
    subst hx; unfold Context.putX; rw [hp]; exact hp
  simp only [imageAfter, hp1, bind_ok, pure_ok, offsetY_ok, Bool.false_eq_true, if_false] at h2
  obtain ⟨c3, ⟨_, rfl⟩, rfl⟩ := h2
  subst hx
  refine ⟨r.context.putX (r.context.baseX + r.context.justification i.w), ?_, ?_, ?_⟩
  · dsimp only
    rw [getX_putX, getY_putX, hb, Nat.zero_add, hf]
  · dsimp only [Context.resetX]
    rw [getX_putX, baseX_putY, baseX_putX, hb]
  · dsimp only [Context.resetX]
    rw [getY_putX, getY_putY, getY_putX]

/-- C53. A block image in page mode, and an image without flow, is drawn at the pen, which stays where it is. -/
theorem C53_still (r r' : Recording) (i : Image) (hf : i.flow = .none ∨ (i.flow = .block ∧ r.context.pageMode.enabled = true))
    (h : processImage recorder r i = .ok r') :
    r'.child = r.child ++ [(r.context, .image { i with x := r.context.getX, y := r.context.getY })] ∧ r'.context = r.context := by
  rcases hf with hf | ⟨hf, hp⟩
  · simp only [processImage, imageBefore, imageAfter, hf, bind_ok, recorder, ok_ok, pure_ok] at h
    obtain ⟨c1, rfl, s, rfl, c2, rfl, rfl⟩ := h
    exact ⟨by rw [← hf], rfl⟩
  · simp only [processImage, imageBefore, imageAfter, hf, hp, bind_ok, recorder, ok_ok, pure_ok, if_true] at h
    obtain ⟨c1, rfl, s, rfl, h2⟩ := h
    simp only [hp, if_true, pure_ok] at h2
    obtain ⟨c2, rfl, rfl⟩ := h2
    exact ⟨by rw [← hf], rfl⟩

/-- C53. An inline image is drawn at the pen if it fits on the rest of the line, else at the start of the next line, one line
spacing lower; the pen then moves right by the width of the image. -/
theorem C53_inline (r r' : Recording) (i : Image) (hf : i.flow = .inline) (h : processImage recorder r i = .ok r') :
    ∃ c x y, r'.child = r.child ++ [(c, .image { i with x := x, y := y })] ∧
      (i.w ≤ r.context.availableWidth → x = r.context.getX ∧ y = r.context.getY) ∧
      (r.context.availableWidth < i.w → x = r.context.baseX ∧ y = r.context.getY + r.context.text.lineSpacing.toNat) ∧
      r'.context.getX = x + i.w ∧ r'.context.getY = y := by
  simp only [processImage, imageBefore, imageAfter, hf, bind_ok, recorder, ok_ok, pure_ok, offsetX_ok] at h
  obtain ⟨c1, h1, s, rfl, c2, ⟨_, rfl⟩, rfl⟩ := h
  refine ⟨c1, c1.getX, c1.getY, by rw [← hf], ?_, ?_, ?_, ?_⟩
  · intro hw
    rw [if_neg (by omega), pure_ok] at h1
    subst h1; exact ⟨rfl, rfl⟩
  · intro hw
    rw [if_pos hw] at h1
    simp only [Context.newline, bind_ok, mulU32_ok, offsetY_ok] at h1
    obtain ⟨v, ⟨_, rfl⟩, _, rfl⟩ := h1
    simp only [Context.resetX]
    rw [getX_putY, getX_putX, getY_putY, getY_putX]
    exact ⟨rfl, by simp⟩
  · dsimp only; rw [getX_putX]
  · dsimp only; rw [getY_putX]

/-- A block image and an inline image after it. -/
example : ∃ r1 r2, processImage recorder (Renderer.new []) ⟨[⟨0, 0, 0, 255⟩, ⟨0, 0, 0, 0⟩], 0, 0, 2, 1, .block, false⟩ = .ok r1 ∧
    processImage recorder r1 ⟨[⟨0, 0, 0, 255⟩, ⟨0, 0, 0, 0⟩], 0, 0, 2, 1, .inline, false⟩ = .ok r2 ∧
    r2.context.getX = 2 ∧ r2.context.getY = 61 := by
  refine ⟨_, _, rfl, rfl, ?_⟩; decide +kernel

end Thermal
