import Verif.Proofs.CalmGet
/-
One tame command does not panic.
-/
namespace Thermal

variable {σ Out : Type} {R : OutputRenderer σ Out} {n : Bool} {b M : Nat} {ext : Ext}

open CalmLay (chars)

/-! ### Text -/

theorem renderLines_calm (hR : TotalOn (Near n M) R) {ls : List (List TextSpan)} {r : Renderer σ Out} (hl : ∀ l ∈ ls, CalmLine n l)
    (hy : ∀ l ∈ ls, ∃ y, LineAt l y ∧ y ≤ r.context.getY) (hc : Lane n M r.context) : ∃ s, Renderer.renderLines R ls r = .ok { r with child := s } := by
  induction ls generalizing r with
  | nil => exact ⟨r.child, rfl⟩
  | cons l ls ih =>
    have one : ∃ s, Renderer.renderLine R r l = .ok { r with child := s } := by
      rcases l with _ | ⟨f, rest⟩
      · exact ⟨r.child, rfl⟩
      · have h := hl _ (List.mem_cons_self ..)
        have e1 := CalmLay.lineWidth_calm (l := f :: rest) (a := 0) (by have := h.width; omega)
        rw [Nat.zero_add] at e1
        obtain ⟨k, e2, e4⟩ := CalmLay.lineOffset_calm h hc.getWidth_narrow
        obtain ⟨s, e3⟩ := hR.renderText r.context (f :: rest) k (lineHeight (f :: rest)) f.justify r.child
          ⟨hc, h, hy _ (List.mem_cons_self ..), Nat.le_trans e4 hc.getWidth, rfl⟩
        refine ⟨s, ?_⟩
        simp only [Renderer.renderLine, e1, e2, bind, Except.bind]
        rw [e3]; rfl
    obtain ⟨s, e1⟩ := one
    obtain ⟨s', e2⟩ := ih (r := { r with child := s }) (fun x hx => hl x (by simp [hx])) (fun x hx => hy x (by simp [hx])) hc
    refine ⟨s', ?_⟩
    simp only [Renderer.renderLines, e1, bind, Except.bind, e2]

theorem processText_calm (hR : TotalOn (Near n M) R) {r : Renderer σ Out} (h : Calm n b r.context) (hs : ∀ t ∈ r.spanBuffer, CalmSpan n t)
    (hb : b + 255 * chars r.spanBuffer < U32)
    (hM : b + 255 * chars r.spanBuffer ≤ M) :
    ∃ r', Renderer.processText R r = .ok r' ∧ Calm n (b + 255 * chars r.spanBuffer) r'.context ∧ r'.spanBuffer = [] := by
  have key : ∃ r', Renderer.processText R r = .ok r' ∧ Lane n (b + 255 * chars r.spanBuffer) r'.context := by
    unfold Renderer.processText
    split
    · exact ⟨r, rfl, h.lane.mono (by omega)⟩
    · obtain ⟨c', ls, e1, e2, e3⟩ := CalmLay.text h.lane hs hb
      obtain ⟨s, e4⟩ := renderLines_calm hR (r := { r with spanBuffer := [], context := c' }) e3 (CalmLay.layoutText_low e1) (e2.mono hM)
      rw [e1]
      exact ⟨_, e4, e2⟩
  obtain ⟨r', e1, e2⟩ := key
  have q := Renderer.processText_quiet e1
  exact ⟨r', e1, ⟨e2, h.poise.pen q.4, Nat.le_trans h.low (by omega)⟩, q.3⟩

/-! ### Pens -/

/-- Only the pen in use has moved. -/
def Moved (c c' : Context) : Prop := ∃ x y, c' = (c.putX x).putY y

theorem putX_getX (c : Context) : c.putX c.getX = c := by
  unfold Context.putX Context.getX; split <;> rfl
theorem putY_getY (c : Context) : c.putY c.getY = c := by
  unfold Context.putY Context.getY; split <;> rfl
theorem put_put (c : Context) (x y x' : Nat) : ((c.putX x).putY y).putX x' = (c.putX x').putY y := by
  unfold Context.putX Context.putY; by_cases h : c.pageMode.enabled = true <;> simp [h]
theorem put_put' (c : Context) (x y y' : Nat) : ((c.putX x).putY y).putY y' = (c.putX x).putY y' := by
  unfold Context.putX Context.putY; by_cases h : c.pageMode.enabled = true <;> simp [h]
theorem Moved.refl (c : Context) : Moved c c := ⟨c.getX, c.getY, by rw [putX_getX, putY_getY]⟩
theorem Moved.putX {c c' : Context} (h : Moved c c') (x : Nat) : Moved c (c'.putX x) := by
  obtain ⟨a, d, rfl⟩ := h; exact ⟨x, d, put_put _ _ _ _⟩
theorem Moved.putY {c c' : Context} (h : Moved c c') (y : Nat) : Moved c (c'.putY y) := by
  obtain ⟨a, d, rfl⟩ := h; exact ⟨a, y, put_put' _ _ _ _⟩
theorem Moved.enabled {c c' : Context} (h : Moved c c') : c'.pageMode.enabled = c.pageMode.enabled := by
  obtain ⟨a, d, rfl⟩ := h
  unfold Context.putX Context.putY; by_cases h : c.pageMode.enabled = true <;> simp [h]
theorem Moved.page {c c' : Context} (h : Moved c c') : c'.pageMode.pageArea = c.pageMode.pageArea := by
  obtain ⟨a, d, rfl⟩ := h
  unfold Context.putX Context.putY; by_cases h : c.pageMode.enabled = true <;> simp [h]
theorem Moved.baseX {c c' : Context} (h : Moved c c') : c'.baseX = c.baseX := by
  unfold Context.baseX; rw [h.enabled, h.page]

theorem Calm.putY {c : Context} {b'} (h : Calm n b c) {y : Nat} (hb : b ≤ b') (hy : y ≤ b') : Calm n b' (c.putY y) := by
  refine ⟨h.lane.putY hb hy, ?_, Nat.le_trans h.low hb⟩
  refine h.poise.of_only (fs := [.paperY, .pageY]) ?_ (by decide)
  unfold Context.putY; split <;> touch

/-- Back at the start of the line. -/
theorem Moved.calm {c c' : Context} {b'} (hm : Moved c c') (h : Calm n b c) (hb : b ≤ b') (hy : c'.getY ≤ b') : Calm n b' c'.resetX := by
  have hx : c'.baseX ≤ 131072 := by rw [hm.baseX]; exact h.lane.baseX
  obtain ⟨x, y, rfl⟩ := hm
  unfold Context.resetX
  rw [put_put]
  rw [getY_putY] at hy
  exact (h.putX (by omega)).putY hb hy

theorem setX_moved {c : Context} {x : Nat} (hb : c.baseX + x < U32) : c.setX x = .ok (c.putX (c.baseX + x)) := by
  unfold Context.setX Context.putX Context.baseX at *
  split
  · rename_i he
    rw [if_pos he] at hb
    simp only [PageModeContext.setX, addU32_ok.2 ⟨hb, rfl⟩, bind, Except.bind]
    simp [he]; rfl
  · rename_i he
    simp only [he, Bool.false_eq_true, if_false, Nat.zero_add]
    rfl

theorem offsetX_moved {c : Context} {x : Nat} (hb : c.getX + x < U32) : c.offsetX x = .ok (c.putX (c.getX + x)) := offsetX_ok.2 ⟨hb, rfl⟩
theorem offsetY_moved {c : Context} {y : Nat} (hb : c.getY + y < U32) : c.offsetY y = .ok (c.putY (c.getY + y)) := offsetY_ok.2 ⟨hb, rfl⟩

/-! ### 2D codes -/

theorem code2dRow_calm {q : Code2D} (hq : CalmCode q) {c0 c : Context} {ox i X Y : Nat} (hm : Moved c0 c) (hbase : c0.baseX ≤ 131072) (ho : ox ≤ 131072)
    (hx : c.getX ≤ X) (hX : 262144 ≤ X) (hy : c.getY ≤ Y) (hY : Y + 255 < U32) :
    ∃ c', Renderer.code2dRow q ox i c = .ok c' ∧ Moved c0 c' ∧ c'.getX ≤ X ∧ c'.getY ≤ Y + 255 ∧ c.getY ≤ c'.getY := by
  have h1 := hq.pointHeight
  have h2 := hq.pos
  unfold Renderer.code2dRow
  split
  · exact ⟨c, rfl, hm, hx, by omega, Nat.le_refl _⟩
  split
  · omega
  split
  · have hb : c.baseX ≤ 131072 := by rw [hm.baseX]; exact hbase
    rw [setX_moved (by simp only [U32]; omega)]
    show ∃ c', (c.putX (c.baseX + ox)).offsetY q.pointHeight = _ ∧ _
    have hy' : (c.putX (c.baseX + ox)).getY = c.getY := getY_putX ..
    rw [offsetY_moved (by rw [hy']; omega)]
    refine ⟨_, rfl, (hm.putX _).putY _, ?_, ?_, ?_⟩
    · rw [getX_putY, getX_putX]; omega
    · rw [getY_putY, hy']; omega
    · rw [getY_putY, hy']; omega
  · exact ⟨c, rfl, hm, hx, by omega, Nat.le_refl _⟩

/-- Rectangles of moderate size that start above `y`. -/
def Boxes (y : Nat) (gs : List Rectangle) : Prop := ∀ g ∈ gs, g.x + g.w < U32 ∧ g.w ≤ 255 ∧ g.h ≤ 255 ∧ g.y ≤ y

theorem Boxes.mono {y y' : Nat} {gs} (h : Boxes y gs) (hy : y ≤ y') : Boxes y' gs :=
  fun g hg => ⟨(h g hg).1, (h g hg).2.1, (h g hg).2.2.1, Nat.le_trans (h g hg).2.2.2 hy⟩

theorem Boxes.snoc {y : Nat} {gs} (h : Boxes y gs) {g : Rectangle} (hg : g.x + g.w < U32 ∧ g.w ≤ 255 ∧ g.h ≤ 255 ∧ g.y ≤ y) : Boxes y (gs ++ [g]) := by
  intro x hx
  rcases List.mem_append.1 hx with hx | hx
  · exact h x hx
  · rw [List.mem_singleton.1 hx]; exact hg

theorem code2dLoop_calm {q : Code2D} (hq : CalmCode q) {c0 : Context} {ox : Nat} (hbase : c0.baseX ≤ 131072) (ho : ox ≤ 131072) :
    ∀ (ps : List Byte) (i : Nat) (c : Context) (acc : List Rectangle) (X Y : Nat), Moved c0 c → Boxes c.getY acc → c.getX ≤ X → 262144 ≤ X → c.getY ≤ Y →
      X + 255 * ps.length < U32 → Y + 255 * ps.length < U32 →
      ∃ c' gs, Renderer.code2dLoop q ox ps i c acc = .ok (c', gs) ∧ Moved c0 c' ∧ c'.getY ≤ Y + 255 * ps.length ∧ Boxes c'.getY gs := by
  intro ps
  induction ps with
  | nil => intro i c acc X Y hm hg _ _ hy _ _; exact ⟨c, acc, rfl, hm, by simpa using hy, hg⟩
  | cons p ps ih =>
    intro i c acc X Y hm hg hx hX hy h1 h2
    have hw := hq.pointWidth
    rw [List.length_cons] at h1 h2 ⊢
    have h1' : X + 255 + 255 * ps.length < U32 := Nat.lt_of_le_of_lt (by clear h1 h2; omega) h1
    have h2' : Y + 255 + 255 * ps.length < U32 := Nat.lt_of_le_of_lt (by clear h1 h2; omega) h2
    obtain ⟨c1, e1, m1, x1, y1, z1⟩ := code2dRow_calm hq (i := i) hm hbase ho hx hX hy (Nat.lt_of_le_of_lt (Nat.le_add_right _ _) h2')
    unfold Renderer.code2dLoop
    rw [e1]
    simp only [bind, Except.bind]
    have go : ∀ k acc', Boxes c1.getY acc' → ∃ c' gs, (c1.offsetX q.pointWidth >>= fun c => Renderer.code2dLoop q ox ps k c acc') = .ok (c', gs) ∧
        Moved c0 c' ∧ c'.getY ≤ Y + 255 * (ps.length + 1) ∧ Boxes c'.getY gs := by
      intro k acc' ha
      rw [offsetX_moved (Nat.lt_of_le_of_lt (m := X + 255 + 255 * ps.length) (by clear h1 h2 h1' h2'; omega) h1')]
      obtain ⟨c2, gs, e2, m2, y2, z2⟩ := ih k (c1.putX (c1.getX + q.pointWidth)) acc' (X + 255) (Y + 255) (m1.putX _) (by rw [getY_putX]; exact ha) (by rw [getX_putX]; omega) (by omega)
        (by rw [getY_putX]; exact y1) h1' h2'
      exact ⟨c2, gs, e2, m2, by omega, z2⟩
    split
    · split
      · obtain ⟨c2, gs, e2, m2, y2, z2⟩ := ih i c1 acc (X + 255) (Y + 255) m1 (hg.mono z1) (by omega) (by omega) y1 h1' h2'
        exact ⟨c2, gs, e2, m2, by omega, z2⟩
      · refine go _ _ ((hg.mono z1).snoc ⟨?_, hw, hq.pointHeight, Nat.le_refl _⟩)
        exact Nat.lt_of_le_of_lt (m := X + 255 + 255 * ps.length) (by dsimp only; clear h1 h2 h1' h2'; omega) h1'
    · exact go _ _ (hg.mono z1)

/-- The rows started before module `i` (counted from 1). -/
def rowsBefore (w i : Nat) : Nat := (i + w - 2) / w

theorem rowsBefore_mono {w i j : Nat} (h : i ≤ j) : rowsBefore w i ≤ rowsBefore w j := Nat.div_le_div_right (by omega)

theorem rowsBefore_start {w i : Nat} (hw : 0 < w) (hi : 1 < i) (h : i % w = 1) : rowsBefore w (i + 1) = rowsBefore w i + 1 := by
  have h2 : 2 ≤ w := by
    rcases Nat.lt_or_ge w 2 with h3 | h3
    · have : w = 1 := by omega
      subst this
      rw [Nat.mod_one] at h
      cases h
    · exact h3
  have e := Nat.div_add_mod i w
  rw [h] at e
  unfold rowsBefore
  generalize i / w = k at e
  have a1 : i + 1 + w - 2 = w * (k + 1) + 0 := by rw [Nat.mul_add]; omega
  have a2 : i + w - 2 = w * k + (w - 1) := by omega
  rw [a1, a2, Nat.mul_add_div hw, Nat.mul_add_div hw, Nat.zero_div, Nat.div_eq_of_lt (by omega)]

theorem Moved.availableWidth {c0 c : Context} (h : Moved c0 c) (he : c0.pageMode.enabled = false) : c.availableWidth = c0.graphics.renderArea.w - c.getX := by
  have h1 := h.enabled
  rw [he] at h1
  obtain ⟨x, y, rfl⟩ := h
  unfold Context.availableWidth Context.getX
  rw [h1]
  have : ((c0.putX x).putY y).graphics.renderArea.w = c0.graphics.renderArea.w := by
    unfold Context.putX Context.putY; simp [he]
  simp only [Bool.false_eq_true, if_false, this]
  split <;> omega

/-- Where a row of modules is not too far to the right, a 2D code moves the pen down one row at a time. -/
theorem code2dLoop_rows {q : Code2D} (hw : 0 < q.width) {c0 : Context} (he : c0.pageMode.enabled = false) {ox : Nat} (hfit : ox + q.pointWidth ≤ c0.graphics.renderArea.w) :
    ∀ (ps : List Byte) (i : Nat) (c : Context) (acc : List Rectangle) (r : Context × List Rectangle), 1 ≤ i → Moved c0 c →
      Renderer.code2dLoop q ox ps i c acc = .ok r → r.1.getY + q.pointHeight * rowsBefore q.width i ≤ c.getY + q.pointHeight * rowsBefore q.width (i + ps.length) := by
  intro ps
  induction ps with
  | nil => intro i c acc r _ _ h; simp only [Renderer.code2dLoop, ok_ok] at h; subst h; exact Nat.le_refl _
  | cons p ps ih =>
    intro i c acc r hi hm h
    simp only [Renderer.code2dLoop, bind_ok] at h
    obtain ⟨c1, h1, h⟩ := h
    rw [List.length_cons]
    have hmono : q.pointHeight * rowsBefore q.width (i + ps.length) ≤ q.pointHeight * rowsBefore q.width (i + (ps.length + 1)) :=
      Nat.mul_le_mul_left _ (rowsBefore_mono (by omega))
    -- a row is started, or not
    have hrow : Moved c0 c1 ∧ ((c1.getY = c.getY) ∨ (c1.getY = c.getY + q.pointHeight ∧ c1.getX = ox ∧ rowsBefore q.width (i + 1) = rowsBefore q.width i + 1)) := by
      unfold Renderer.code2dRow at h1
      split at h1
      · rw [ok_ok] at h1; subst h1; exact ⟨hm, .inl rfl⟩
      split at h1
      · cases h1
      split at h1
      · rename_i i1 _ im
        simp only [bind_ok] at h1
        obtain ⟨c2, h2, h3⟩ := h1
        have e0 := hm.enabled
        rw [he] at e0
        unfold Context.setX at h2
        rw [e0] at h2
        simp only [Bool.false_eq_true, if_false, pure_ok] at h2
        subst h2
        obtain ⟨_, rfl⟩ := offsetY_ok.1 h3
        refine ⟨(hm.putX _).putY _, .inr ⟨?_, ?_, rowsBefore_start hw (by omega) im⟩⟩
        · rw [getY_putY, getY_putX]
        · rw [getX_putY, getX_putX]
      · rw [ok_ok] at h1; subst h1; exact ⟨hm, .inl rfl⟩
    obtain ⟨m1, hy⟩ := hrow
    have hav := m1.availableWidth he
    -- the module is passed
    have go : ∀ acc', (∃ c2, c1.offsetX q.pointWidth = .ok c2 ∧ Renderer.code2dLoop q ox ps (i + 1) c2 acc' = .ok r) →
        r.1.getY + q.pointHeight * rowsBefore q.width i ≤ c.getY + q.pointHeight * rowsBefore q.width (i + (ps.length + 1)) := by
      intro acc' h
      obtain ⟨c2, h2, h3⟩ := h
      obtain ⟨_, rfl⟩ := offsetX_ok.1 h2
      have := ih (i + 1) _ _ _ (by omega) (m1.putX _) h3
      rw [getY_putX, show i + 1 + ps.length = i + (ps.length + 1) by omega] at this
      rcases hy with hy | ⟨hy, _, hr⟩
      · have : q.pointHeight * rowsBefore q.width i ≤ q.pointHeight * rowsBefore q.width (i + 1) := Nat.mul_le_mul_left _ (rowsBefore_mono (by omega))
        omega
      · rw [hr, Nat.mul_add, Nat.mul_one] at this
        omega
    split at h
    · split at h
      · rename_i hlt
        have := ih i c1 acc r hi m1 h
        rcases hy with hy | ⟨_, hx, _⟩
        · omega
        · rw [hav, hx] at hlt; omega
      · exact go _ (bind_ok.1 h)
    · exact go _ (bind_ok.1 h)

theorem justification_fit (c : Context) {w p : Nat} (hp : p ≤ w) (hpw : p ≤ c.getWidth) : c.justification w + p ≤ c.getWidth := by
  unfold Context.justification
  dsimp only
  split
  · omega
  · split
    · split <;> omega
    · omega
    · omega

theorem codeReach_le (n : Bool) : codeReach n ≤ 255 * (177 * 177) := by cases n <;> decide

theorem reach_unit {cmd : Command} {id : Hid} (h : cmd.handler = .unit id) (n m : Bool) : reach n cmd = reach m cmd := by
  unfold reach; rw [h]; cases id <;> rfl

theorem justification_le (c : Context) (w : Nat) : c.justification w ≤ c.getWidth := by
  unfold Context.justification
  dsimp only
  split
  · omega
  · split
    · split <;> omega
    · omega
    · omega

theorem code2d_calm (hR : TotalOn (Near n M) R) {r : Renderer σ Out} (h : Calm n b r.context) {q : Code2D} (hq : CalmCode q)
    (hb : b + 255 * (177 * 177) < U32) (hM : b + codeReach n ≤ M) :
    ∃ r', Renderer.processCode2d R r q = .ok r' ∧ Calm n (b + codeReach n) r'.context ∧ r'.spanBuffer = r.spanBuffer := by
  have h1 := hq.width
  have h2 := hq.pointWidth
  have h3 : q.points.length ≤ 177 * 177 := Nat.le_trans hq.points (Nat.mul_le_mul h1 h1)
  have hm : q.width * q.pointWidth ≤ 177 * 255 := Nat.mul_le_mul h1 h2
  have hj := justification_le r.context (q.width * q.pointWidth)
  have hg := h.lane.getWidth
  have hbx := h.lane.baseX
  have hy := h.lane.yle
  have hp : 255 * q.points.length ≤ 255 * (177 * 177) := Nat.mul_le_mul_left _ h3
  have hfit : n = true → r.context.justification (q.width * q.pointWidth) + q.pointWidth ≤ r.context.graphics.renderArea.w := by
    intro e
    have hw : r.context.getWidth = r.context.graphics.renderArea.w := by
      unfold Context.getWidth
      rw [h.lane.mode e]
      rfl
    rw [← hw]
    refine justification_fit _ (Nat.le_mul_of_pos_left _ hq.pos) ?_
    rw [hw, h.lane.width]
    omega
  unfold Renderer.processCode2d
  rw [mulU32_ok.2 ⟨Nat.lt_of_le_of_lt hm (by decide), rfl⟩]
  simp only [bind, Except.bind]
  generalize r.context.justification (q.width * q.pointWidth) = ox at hj hfit
  rw [setX_moved (by simp only [U32]; omega)]
  dsimp only
  obtain ⟨c', gs, e1, m1, y1, z1⟩ := code2dLoop_calm hq (ox := ox) hbx (by omega) q.points 1 (r.context.putX (r.context.baseX + ox)) [] 262144 b ((Moved.refl _).putX _) (by intro g hg; simp at hg)
    (by rw [getX_putX]; omega) (Nat.le_refl _) (by rw [getY_putX]; exact hy) (by simp only [U32]; omega) (by omega)
  have y2 : c'.getY ≤ b + codeReach n := by
    cases hn : n with
    | false => exact Nat.le_trans y1 (Nat.add_le_add_left hp _)
    | true =>
      have hk := code2dLoop_rows hq.pos (h.lane.mode hn) (hfit hn) _ _ _ _ _ (Nat.le_refl 1) ((Moved.refl _).putX _) e1
      have k1 : rowsBefore q.width (1 + q.points.length) ≤ 177 := by
        unfold rowsBefore
        have hpos := hq.pos
        refine Nat.le_trans (Nat.div_le_div_right (c := q.width) (b := q.width * q.width + (q.width - 1)) ?_) ?_
        · have := hq.points; omega
        · rw [Nat.mul_add_div hpos, Nat.div_eq_of_lt (by omega)]; omega
      have k2 : q.pointHeight * rowsBefore q.width (1 + q.points.length) ≤ 255 * 177 := Nat.mul_le_mul hq.pointHeight k1
      rw [getY_putX] at hk
      dsimp only at hk
      show c'.getY ≤ b + 255 * 177
      omega
  rw [e1]
  dsimp only
  have hc := m1.calm h (b' := b + codeReach n) (by omega) y2
  obtain ⟨s, e2⟩ := hR.renderGraphics c'.resetX gs r.child ⟨(hc.lane.mono hM).yle, by unfold Context.resetX; rw [getY_putX]; exact z1⟩
  rw [e2]
  exact ⟨_, rfl, hc, rfl⟩

/-! ### Barcodes -/

theorem barcodeLoop_calm {x : Barcode} {c0 : Context} :
    ∀ (ps : List Byte) (c : Context) (acc : List Rectangle) (X : Nat), Moved c0 c → Boxes c.getY acc → c.getX ≤ X → X + 255 * ps.length < U32 →
      ∃ c' gs, Renderer.barcodeLoop x ps c acc = .ok (c', gs) ∧ Moved c0 c' ∧ c'.getY = c.getY ∧ Boxes c'.getY gs ∧ c'.getX ≤ X + 255 * ps.length := by
  intro ps
  induction ps with
  | nil => intro c acc X hm hg hx _; exact ⟨c, acc, rfl, hm, rfl, hg, by simpa using hx⟩
  | cons p ps ih =>
    intro c acc X hm hg hx h1
    have hw := x.pointWidth.toNat_lt
    rw [List.length_cons] at h1
    have h1' : X + 255 + 255 * ps.length < U32 := Nat.lt_of_le_of_lt (by clear h1; omega) h1
    unfold Renderer.barcodeLoop
    split
    · obtain ⟨c2, gs, e2, m2, y2, z2, w2⟩ := ih c acc (X + 255) hm hg (by omega) h1'
      exact ⟨c2, gs, e2, m2, y2, z2, by rw [List.length_cons]; omega⟩
    · dsimp only
      rw [offsetX_moved (by omega)]
      have ha : Boxes (c.putX (c.getX + x.pointWidth.toNat)).getY (if p > 0 then acc ++ [⟨c.getX, c.getY, x.pointWidth.toNat, x.pointHeight.toNat⟩] else acc) := by
        rw [getY_putX]
        split
        · have := x.pointHeight.toNat_lt
          exact hg.snoc ⟨by dsimp only; omega, by dsimp only; omega, by dsimp only; omega, Nat.le_refl _⟩
        · exact hg
      obtain ⟨c2, gs, e2, m2, y2, z2, w2⟩ := ih (c.putX (c.getX + x.pointWidth.toNat)) (if p > 0 then acc ++ [⟨c.getX, c.getY, x.pointWidth.toNat, x.pointHeight.toNat⟩] else acc)
        (X + 255) (hm.putX _) ha (by rw [getX_putX]; omega) h1'
      exact ⟨c2, gs, e2, m2, y2.trans (getY_putX ..), z2, by rw [List.length_cons]; omega⟩

theorem barcodeText_calm (hR : TotalOn (Near n M) R) {r : Renderer σ Out} (h : Calm n b r.context) (hsp : r.spanBuffer = []) {x : Barcode} {k : Nat} (x2 : CalmSpan n x.text) (x3 : x.text.text.length = k)
    (hb : b + 255 * k + 255 < U32) (hM : b + 255 * k + 255 ≤ M) :
    ∃ r', Renderer.barcodeText R r x = .ok r' ∧ Calm n (b + 255 * k + 255) r'.context ∧ r'.spanBuffer = [] := by
  have hc : chars (r.collectText x.text).spanBuffer = x.text.text.length := by
    simp [Renderer.collectText, hsp, chars]
  have hle : 255 * x.text.text.length ≤ 255 * k := by omega
  obtain ⟨r1, e1, e2, e3⟩ := processText_calm hR (r := r.collectText x.text) h
    (by intro t ht; simp [Renderer.collectText, hsp] at ht; subst ht; exact x2) (by rw [hc]; omega) (by rw [hc]; omega)
  rw [hc] at e2
  obtain ⟨c2, e4, e5⟩ := e2.newline (k := 1) (by omega) (by omega)
  refine ⟨{ r1 with context := c2 }, ?_, e5.mono (by omega), e3⟩
  simp only [Renderer.barcodeText, e1, bind, Except.bind, e4]; rfl

theorem barcodeBars_calm (hR : TotalOn (Near n M) R) {r : Renderer σ Out} (h : Calm n b r.context) {x : Barcode} (hx : x.points.length ≤ 65536) (hb : b + 255 < U32) (hM : b + 255 ≤ M) :
    ∃ r', Renderer.barcodeBars R r x = .ok r' ∧ Calm n (b + 255) r'.context ∧ r'.spanBuffer = r.spanBuffer := by
  have hw := x.pointWidth.toNat_lt
  have hh := x.pointHeight.toNat_lt
  have hm : x.points.length * x.pointWidth.toNat ≤ 65536 * 255 := Nat.mul_le_mul hx (by omega)
  have hj := justification_le r.context (x.points.length * x.pointWidth.toNat)
  have hg := h.lane.getWidth
  have hbx := h.lane.baseX
  have hy := h.lane.yle
  unfold Renderer.barcodeBars
  rw [mulU32_ok.2 ⟨Nat.lt_of_le_of_lt hm (by decide), rfl⟩]
  simp only [bind, Except.bind]
  generalize r.context.justification (x.points.length * x.pointWidth.toNat) = ox at hj
  rw [setX_moved (by simp only [U32]; omega)]
  dsimp only
  obtain ⟨c', gs, e1, m1, y1, z1, _⟩ := barcodeLoop_calm (x := x) (c0 := r.context) x.points (r.context.putX (r.context.baseX + ox)) [] 262144 ((Moved.refl _).putX _)
    (by intro g hg; simp at hg)
    (by rw [getX_putX]; omega) (by simp only [U32]; omega)
  rw [e1]
  dsimp only
  obtain ⟨s, e2⟩ := hR.renderGraphics c' gs r.child ⟨by rw [y1, getY_putX]; omega, z1⟩
  rw [e2]
  dsimp only
  have hc := m1.calm h (Nat.le_refl _) (by rw [y1, getY_putX]; exact hy)
  obtain ⟨c2, e3, e4⟩ := hc.offsetY (y := x.pointHeight.toNat) (by omega)
  rw [e3]
  exact ⟨_, rfl, e4.mono (by omega), rfl⟩

theorem barcode_print_calm (hR : TotalOn (Near n M) R) {r : Renderer σ Out} (h : Calm n b r.context) (hsp : r.spanBuffer = []) {x : Barcode} {k : Nat} (hx : Printable n k (.barcode x))
    (hb : b + k < U32) (hM : b + k ≤ M) :
    ∃ r', Renderer.processBarcode R r x = .ok r' ∧ Calm n (b + k) r'.context ∧ r'.spanBuffer = [] := by
  obtain ⟨x1, x2, x3⟩ := hx
  generalize hl : x.text.text.length = l at x3
  have a : ∃ r', Renderer.barcodeAbove R r x = .ok r' ∧ Calm n (b + 255 * l + 255) r'.context ∧ r'.spanBuffer = [] := by
    unfold Renderer.barcodeAbove
    split
    · exact barcodeText_calm hR h hsp x2 hl (by omega) (by omega)
    · exact ⟨r, rfl, h.mono (by omega), hsp⟩
  obtain ⟨r1, e1, c1, s1⟩ := a
  obtain ⟨r2, e2, c2, s2⟩ := barcodeBars_calm hR c1 x1 (by omega) (by omega)
  have d : ∃ r', Renderer.barcodeBelow R r2 x = .ok r' ∧ Calm n (b + k) r'.context ∧ r'.spanBuffer = [] := by
    unfold Renderer.barcodeBelow
    split
    · obtain ⟨c3, e3, d3⟩ := c2.offsetY (y := 8) (by omega)
      rw [e3]
      obtain ⟨r4, e4, d4, s4⟩ := barcodeText_calm hR (r := { r2 with context := c3 }) d3 (s2.trans s1) x2 hl (by omega) (by omega)
      exact ⟨r4, e4, d4.mono (by omega), s4⟩
    · exact ⟨r2, rfl, c2.mono (by omega), s2.trans s1⟩
  obtain ⟨r3, e3, c3, s3⟩ := d
  refine ⟨r3, ?_, c3, s3⟩
  simp only [Renderer.processBarcode, e1, e2, e3, bind, Except.bind]

/-! ### Images -/

theorem image_calm (hR : TotalOn (Near n M) R) {r : Renderer σ Out} (h : Calm n b r.context) {i : Image} {d : Nat} (hi : Printable n d (.image i))
    (hb : b + d < U32) (hM : b + d ≤ M) :
    ∃ r', Renderer.processImage R r i = .ok r' ∧ Calm n (b + d) r'.context ∧ r'.spanBuffer = r.spanBuffer := by
  unfold Renderer.processImage
  have gw := h.lane.getWidth
  have sz := hi.2.2
  cases hf : i.flow with
  | inline =>
    obtain ⟨hi, hd⟩ := hi.1 hf
    have before : ∃ c, Renderer.imageBefore r.context i = .ok c ∧ Calm n (b + d) c ∧ c.getX + i.w ≤ 1048576 := by
      unfold Renderer.imageBefore
      rw [hf]
      dsimp only
      split
      · obtain ⟨c, e1, e2⟩ := h.newline (k := 1) (by omega) (by omega)
        refine ⟨c, e1, e2.mono (by omega), ?_⟩
        simp only [Context.newline, bind_ok] at e1
        obtain ⟨m, _, e1⟩ := e1
        obtain ⟨_, rfl⟩ := offsetY_ok.1 e1
        rw [getX_putY, h.lane.resetX.2]
        have := h.lane.baseX
        omega
      · exact ⟨_, rfl, h.mono (by omega), h.lane.fits (by omega)⟩
    obtain ⟨c, e1, e2, e3⟩ := before
    obtain ⟨s, e4⟩ := hR.renderImage c { i with x := c.getX, y := c.getY } r.child ⟨e2.lane.mono hM, sz.1, sz.2.1, sz.2.2, rfl, rfl⟩
    refine ⟨{ r with child := s, context := c.putX (c.getX + i.w) }, ?_, e2.putX e3, rfl⟩
    rw [e1]
    simp only [bind, Except.bind]
    rw [← hf, e4]
    have e5 : Renderer.imageAfter c { i with x := c.getX, y := c.getY } = .ok (c.putX (c.getX + i.w)) := by
      unfold Renderer.imageAfter
      simp only [hf]
      exact offsetX_moved (by simp only [U32]; omega)
    dsimp only
    rw [e5]; rfl
  | block =>
    have hd := hi.2.1 (by rw [hf]; decide)
    unfold Renderer.imageBefore Renderer.imageAfter
    simp only [hf]
    by_cases he : r.context.pageMode.enabled = true
    · obtain ⟨s, e4⟩ := hR.renderImage r.context { i with x := r.context.getX, y := r.context.getY } r.child ⟨h.lane.mono (by omega), sz.1, sz.2.1, sz.2.2, rfl, rfl⟩
      simp only [he, if_true, bind, Except.bind, pure, Except.pure, hf] at e4 ⊢
      rw [e4]
      simp only [he, if_true]
      exact ⟨_, rfl, h.mono (by omega), rfl⟩
    · have hj := justification_le r.context i.w
      obtain ⟨c, e1, e2⟩ := h.setX (x := r.context.justification i.w) (by omega)
      have he' : c.pageMode.enabled = false := by
        revert e1
        unfold Context.setX
        rw [if_neg he]
        intro e1
        rw [pure_ok] at e1
        subst e1
        simp [Context.putX, he]
      obtain ⟨s, e4⟩ := hR.renderImage c { i with x := c.getX, y := c.getY } r.child ⟨e2.lane.mono (by omega), sz.1, sz.2.1, sz.2.2, rfl, rfl⟩
      obtain ⟨c', e5, e6⟩ := e2.offsetY (y := i.h) (by omega)
      simp only [he, bind, Except.bind, e1, hf] at e4 ⊢
      simp only [Bool.false_eq_true, if_false]
      rw [e4]
      simp only [he', Bool.false_eq_true, if_false, e5, pure, Except.pure]
      exact ⟨_, rfl, (e6.resetX).mono (by omega), rfl⟩
  | none =>
    unfold Renderer.imageBefore Renderer.imageAfter
    simp only [hf]
    obtain ⟨s, e4⟩ := hR.renderImage r.context { i with x := r.context.getX, y := r.context.getY } r.child ⟨h.lane.mono (by omega), sz.1, sz.2.1, sz.2.2, rfl, rfl⟩
    simp only [bind, Except.bind, pure, Except.pure, hf] at e4 ⊢
    rw [e4]
    exact ⟨_, rfl, h.mono (by omega), rfl⟩

theorem graphics_calm (hR : TotalOn (Near n M) R) {r : Renderer σ Out} (h : Calm n b r.context) (hsp : r.spanBuffer = []) {o : Option GraphicsCommand} {d : Nat}
    (hg : ∀ g, o = some g → Printable n d g) (hb : b + d < U32) (hM : b + d ≤ M) (hc : b + 255 * (177 * 177) < U32) :
    ∃ r', Renderer.processGraphicsOpt R r o = .ok r' ∧ Calm n (b + d) r'.context ∧ r'.spanBuffer = [] := by
  rcases o with _ | g
  · exact ⟨r, rfl, h.mono (by omega), hsp⟩
  · have hg := hg g rfl
    unfold Renderer.processGraphicsOpt Renderer.processGraphics
    cases g with
    | error m => exact ⟨_, rfl, h.mono (by omega), hsp⟩
    | code2d q =>
      obtain ⟨r', e1, e2, e3⟩ := code2d_calm hR h hg.1 hc (by have := hg.2; omega)
      exact ⟨r', e1, e2.mono (by have := hg.2; omega), e3.trans hsp⟩
    | barcode x => exact barcode_print_calm hR h hsp hg hb hM
    | image i =>
      obtain ⟨r', e1, e2, e3⟩ := image_calm hR h hg hb hM
      exact ⟨r', e1, e2, e3.trans hsp⟩
    | rectangle x => exact ⟨_, rfl, h.mono (by omega), hsp⟩

/-! ### One command -/

/-- A renderer that can go on: laying out the pending text leaves the pens above `B`. -/
def Bound (n : Bool) (B : Nat) (r : Renderer σ Out) : Prop :=
  ∃ b, Calm n b r.context ∧ b + 255 * chars r.spanBuffer ≤ B ∧ ∀ t ∈ r.spanBuffer, CalmSpan n t

theorem Bound.done {B : Nat} {r : Renderer σ Out} (h : Calm n B r.context) (hs : r.spanBuffer = []) : Bound n B r :=
  ⟨B, h, by simp [hs, chars], by simp [hs]⟩

theorem Bound.flush (hR : TotalOn (Near n M) R) {B : Nat} {r : Renderer σ Out} (h : Bound n B r) (hB : B < U32) (hM : B ≤ M) :
    ∃ r', Renderer.processText R r = .ok r' ∧ Calm n B r'.context ∧ r'.spanBuffer = [] := by
  obtain ⟨b, h1, h2, h3⟩ := h
  obtain ⟨r', e1, e2, e3⟩ := processText_calm hR h1 h3 (by omega) (by omega)
  exact ⟨r', e1, e2.mono h2, e3⟩

theorem reach_split (n : Bool) (cmd : Command) : Calm.applyReach cmd + deviceBound cmd ≤ reach n cmd := by
  unfold Calm.applyReach deviceBound
  split
  · rename_i h; rw [h]; unfold reach; rw [h]; exact Nat.le_refl 32768
  · split
    · omega
    · rename_i h; rw [reach_unit h true n]; omega
    · omega

theorem step_calm (hR : TotalOn (Near n M) R) (hx : ExtOk ext) {B : Nat} {r : Renderer σ Out} {cmd : Command} (h : Bound n B r) (ht : Tame n cmd) (hs : ShapeOk cmd)
    (hB : B + reach n cmd + 32768 < 2147483648) (hM : B + reach n cmd ≤ M) :
    ∃ r', Renderer.processCommand R ext r cmd = .ok r' ∧ Bound n (B + reach n cmd) r' := by
  have hU : B + reach n cmd < U32 := Nat.lt_of_lt_of_le (by omega : B + reach n cmd < 2147483648) (by decide)
  have hsub : cmd.kind ≠ .control → ∀ s, cmd.handler ≠ .sub s := by
    intro hk s e
    unfold ShapeOk at hs
    rw [e] at hs
    exact hk hs
  have split_ := reach_split n cmd
  have dev : ∀ {b : Nat} {r : Renderer σ Out} {ds : Option (List DeviceCommand)}, Calm n b r.context → (∀ d ∈ ds.getD [], DeviceOk n d) → ((ds.getD []).map deviceReach).sum ≤ deviceBound cmd →
      b + deviceBound cmd < U32 → b + deviceBound cmd ≤ M →
      ∃ r', Renderer.deviceCommands R (ds.getD []) r = .ok r' ∧ Calm n (b + deviceBound cmd) r'.context ∧ r'.spanBuffer = r.spanBuffer := by
    intro b r ds h1 h2 h3 h4 h5
    obtain ⟨r', e1, e2, e3⟩ := deviceCommands_calm hR h1 h2 (by omega) (by omega)
    exact ⟨r', e1, e2.mono (by omega), e3⟩
  unfold Renderer.processCommand
  rcases hk : cmd.kind <;> dsimp only
  case unknown =>
    obtain ⟨r1, e1, e2, e3⟩ := h.flush hR (by omega) (by omega)
    rw [e1]
    exact ⟨_, rfl, .done (e2.mono (by omega)) e3⟩
  case text =>
    obtain ⟨b, h1, h2, h3⟩ := h
    obtain ⟨o, e1, e2⟩ := getText_calm (cmd := cmd) h1.poise
    rw [e1]
    rcases o with _ | t
    · exact ⟨r, rfl, b, h1, by omega, h3⟩
    · obtain ⟨e3, e4⟩ := e2 t rfl
      refine ⟨r.collectText t, rfl, b, h1, ?_, ?_⟩
      · have : chars (r.collectText t).spanBuffer = chars r.spanBuffer + t.text.length := by simp [Renderer.collectText, chars]
        rw [this]; omega
      · intro x hx
        rcases List.mem_append.1 hx with hx | hx
        · exact h3 x hx
        · rw [List.mem_singleton.1 hx]; exact e3
  case graphics =>
    have hns := hsub (by rw [hk]; decide)
    obtain ⟨r1, e1, e2, e3⟩ := h.flush hR (by omega) (by omega)
    obtain ⟨o, g1, g2⟩ := getGraphics_calm e2.poise hx ht hs hns
    have : ∃ d, (∀ g, o = some g → Printable n d g) ∧ d + deviceBound cmd ≤ reach n cmd := by
      by_cases hu : ∃ id, cmd.handler = .unit id
      · obtain ⟨id, hu⟩ := hu
        refine ⟨0, ?_, by omega⟩
        intro g hg
        subst hg
        simp only [getGraphics, hu] at g1
        cases g1
      · refine ⟨reach n cmd, g2, ?_⟩
        have : deviceBound cmd = 0 := by
          unfold deviceBound
          split
          · rfl
          · rename_i id _ hid; exact absurd ⟨_, hid⟩ hu
          · rfl
        omega
    obtain ⟨d, p1, p2⟩ := this
    obtain ⟨r2, f1, f2, f3⟩ := graphics_calm hR e2 e3 p1 (by omega) (by omega) (by simp only [U32]; omega)
    obtain ⟨ds, d1, d2, d3⟩ := getDevice_calm f2.poise ht
    obtain ⟨r3, k1, k2, k3⟩ := dev f2 d2 d3 (by omega) (by omega)
    simp only [e1, g1, f1, d1, k1, bind, Except.bind]
    exact ⟨_, rfl, .done (k2.mono (by omega)) (k3.trans f3)⟩
  case context =>
    obtain ⟨r1, e1, e2, e3⟩ := h.flush hR (by omega) (by omega)
    obtain ⟨c, a1, a2⟩ := e2.apply hx ht (hsub (by rw [hk]; decide)) (by omega)
    simp only [e1, a1, bind, Except.bind]
    exact ⟨_, rfl, .done (a2.mono (by omega)) e3⟩
  case contextControl =>
    obtain ⟨r1, e1, e2, e3⟩ := h.flush hR (by omega) (by omega)
    obtain ⟨c, a1, a2⟩ := e2.apply hx ht (hsub (by rw [hk]; decide)) (by omega)
    obtain ⟨ds, d1, d2, d3⟩ := getDevice_calm a2.poise ht
    obtain ⟨r3, k1, k2, k3⟩ := dev (r := { r1 with context := c }) a2 d2 d3 (by omega) (by omega)
    simp only [e1, a1, d1, k1, bind, Except.bind]
    exact ⟨_, rfl, .done (k2.mono (by omega)) (k3.trans e3)⟩
  case control =>
    obtain ⟨b, h1, h2, h3⟩ := h
    obtain ⟨ds, d1, d2, d3⟩ := getDevice_calm h1.poise ht
    obtain ⟨r1, e1, e2, e3⟩ := Bound.flush hR ⟨b, h1, h2, h3⟩ (by omega) (by omega)
    obtain ⟨r3, k1, k2, k3⟩ := dev e2 d2 d3 (by omega) (by omega)
    simp only [e1, d1, k1, bind, Except.bind]
    exact ⟨_, rfl, .done (k2.mono (by omega)) (k3.trans e3)⟩
  case textStyle =>
    obtain ⟨b, h1, h2, h3⟩ := h
    obtain ⟨c, a1, a2⟩ := h1.apply hx ht (hsub (by rw [hk]; decide)) (by omega)
    obtain ⟨ds, d1, d2, d3⟩ := getDevice_calm a2.poise ht
    obtain ⟨r3, k1, k2, k3⟩ := dev (r := { r with context := c }) a2 d2 d3 (by omega) (by omega)
    simp only [a1, d1, k1, bind, Except.bind]
    refine ⟨_, rfl, _, k2, ?_, ?_⟩
    · rw [k3]; dsimp only; omega
    · rw [k3]; exact h3
  case subcommand =>
    obtain ⟨b, h1, h2, h3⟩ := h
    exact ⟨r, rfl, b, h1, by omega, h3⟩

/-- All commands. -/
theorem steps_calm (hR : TotalOn (Near n M) R) (hx : ExtOk ext) {cmds : List Command} {B : Nat} {r : Renderer σ Out} (h : Bound n B r) (ht : ∀ c ∈ cmds, Tame n c) (hs : ∀ c ∈ cmds, ShapeOk c)
    (hB : B + (cmds.map (reach n)).sum + 32768 < 2147483648) (hM : B + (cmds.map (reach n)).sum ≤ M) :
    ∃ r', Renderer.processCommands R ext cmds r = .ok r' ∧ Bound n (B + (cmds.map (reach n)).sum) r' := by
  induction cmds generalizing B r with
  | nil => exact ⟨r, rfl, h⟩
  | cons cmd cmds ih =>
    simp only [List.map_cons, List.sum_cons] at hB hM ⊢
    obtain ⟨r1, e1, e2⟩ := step_calm hR hx h (ht cmd (by simp)) (hs cmd (by simp)) (by omega) (by omega)
    obtain ⟨r2, e3, e4⟩ := ih e2 (fun c hc => ht c (by simp [hc])) (fun c hc => hs c (by simp [hc])) (by omega) (by omega)
    refine ⟨r2, ?_, by rw [← Nat.add_assoc]; exact e4⟩
    simp only [Renderer.processCommands, e1, bind, Except.bind, e3]

end Thermal
