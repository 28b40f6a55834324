import Verif.Model.Context
/-
C32, C37, C38, C39: justification, page area, page direction and available width.
-/
namespace Thermal

/-- C32. The offset for content of width `w` in a print area of width `W`: content that does not fit starts at 0; otherwise
left-justified content starts at 0, right-justified content ends exactly at `W`, and centred content leaves the same
space on both sides up to one dot.  In every case in which the content fits, it ends inside `W`. -/
theorem C32_justification (c : Context) (w : Nat) :
    (c.getWidth < w → c.justification w = 0) ∧
    (w ≤ c.getWidth → c.justification w + w ≤ c.getWidth) ∧
    (c.text.justify = .left → c.justification w = 0) ∧
    (w ≤ c.getWidth → c.text.justify = .right → c.justification w + w = c.getWidth) ∧
    (w ≤ c.getWidth → c.text.justify = .center →
      2 * c.justification w + w ≤ c.getWidth ∧ c.getWidth ≤ 2 * c.justification w + w + 1) := by
  unfold Context.justification
  refine ⟨?_, ?_, ?_, ?_, ?_⟩
  · intro h; simp only; rw [if_pos h]
  · intro h; simp only
    rw [if_neg (by omega)]
    cases c.text.justify <;> simp only
    · omega
    · split <;> omega
    · omega
  · intro h; simp only [h]; split <;> rfl
  · intro h hj; simp only [hj]; rw [if_neg (by omega)]; omega
  · intro h hj; simp only [hj]; rw [if_neg (by omega)]; split <;> omega

/-- C32, the cases occur: 100 dots centred in the default 609. -/
example : (let c := Context.new; { c with text := { c.text with justify := .center } } : Context).justification 100 = 254 := by
  decide +kernel

/-- C39. In every context the available width is at most the width; it is the width minus the distance of the pen from
the left edge as long as the pen is in the area, and 0 when the pen is at or past the right edge. -/
theorem C39_available (c : Context) :
    c.availableWidth ≤ c.getWidth ∧
    (c.baseX ≤ c.getX → c.getX ≤ c.baseX + c.getWidth → (c.getX - c.baseX) + c.availableWidth = c.getWidth) ∧
    (c.baseX + c.getWidth ≤ c.getX → c.availableWidth = 0) := by
  unfold Context.availableWidth Context.getWidth Context.baseX Context.getX
  cases c.pageMode.enabled
  · simp only [Bool.false_eq_true, if_false]
    split <;> refine ⟨?_, ?_, ?_⟩ <;> omega
  · simp only [if_true]
    refine ⟨?_, ?_, ?_⟩ <;> omega

/-- C39. Moving the pen right by `n` that fits lowers the available width by exactly `n`. -/
theorem C39_offset (c c' : Context) (n : Nat) (hx : c.baseX ≤ c.getX) (hn : n ≤ c.availableWidth)
    (h : c.offsetX n = .ok c') : c'.availableWidth + n = c.availableWidth ∧ c'.getWidth = c.getWidth := by
  unfold Context.offsetX at h
  simp only [bind, Except.bind, addU32] at h
  split at h
  · cases h
  · next v hv =>
    split at hv
    · have hv := Except.ok.inj hv
      have h := Except.ok.inj h
      rw [← h, ← hv]
      unfold Context.availableWidth Context.getWidth Context.getX Context.putX at *
      unfold Context.baseX at hx
      cases he : c.pageMode.enabled
      · simp only [he, Bool.false_eq_true, if_false] at *
        refine ⟨?_, trivial⟩
        repeat' split at hn
        repeat' split
        all_goals omega
      · simp only [he, if_true] at *
        refine ⟨?_, trivial⟩
        omega
    · cases hv

/-- C39, the hypotheses are met in a new context. -/
example : Context.new.baseX ≤ Context.new.getX ∧ 100 ≤ Context.new.availableWidth ∧
    ∃ c, Context.new.offsetX 100 = .ok c := ⟨by decide +kernel, by decide +kernel, _, rfl⟩

/-! ### Page mode -/

/-- Quarter turns of a rotation. -/
def Rotation.quarters : Rotation → Nat
  | .R0 => 0
  | .R90 => 1
  | .R180 => 2
  | .R270 => 3

/-- C38. Rotating the page from direction `a` to `b` and then from `b` to `c` is rotating from `a` to `c`; no rotation is
needed for an unchanged direction; going back undoes the rotation. -/
theorem C38_compose (a b c : PrintDirection) :
    ((directionalRotation a b).quarters + (directionalRotation b c).quarters) % 4 = (directionalRotation a c).quarters ∧
    directionalRotation a a = .R0 ∧
    ((directionalRotation a b).quarters + (directionalRotation b a).quarters) % 4 = 0 := by
  cases a <;> cases b <;> cases c <;> decide

/-- C38. Different directions need different rotations; so the rotation is never lost. -/
theorem C38_injective (a b c : PrintDirection) (h : directionalRotation a b = directionalRotation a c) : b = c := by
  cases a <;> cases b <;> cases c <;> revert h <;> decide

/-- The direction in which text is read on the page, as (right, down). -/
def PrintDirection.reading : PrintDirection → Int × Int
  | .topLeft2Right => (1, 0)
  | .topRight2Bottom => (0, 1)
  | .bottomRight2Left => (-1, 0)
  | .bottomLeft2Top => (0, -1)

/-- Clockwise rotation of a (right, down) vector. -/
def Rotation.turn : Rotation → Int × Int → Int × Int
  | .R0, v => v
  | .R90, (x, y) => (-y, x)
  | .R180, (x, y) => (-x, -y)
  | .R270, (x, y) => (y, -x)

/-- C38. Whatever the previous direction `a` was, after the rotation to `b` text printed from left to right reads in
direction `b` on the page. -/
theorem C38_reading (a b : PrintDirection) :
    (directionalRotation a b).turn ((directionalRotation .topLeft2Right a).turn b.reading) = (1, 0) := by
  cases a <;> cases b <;> decide

/-- C38. The quarter turns accumulated along any history of directions, starting at `d` and ending at `e`, are those of
the single change from `d` to `e`. -/
theorem C38_history (d : PrintDirection) (ds : List PrintDirection) :
    (((d :: ds).zip ds).foldl (fun n p => n + (directionalRotation p.1 p.2).quarters) 0) % 4 =
      (directionalRotation d ((d :: ds).getLast (by simp))).quarters := by
  suffices ∀ n, (((d :: ds).zip ds).foldl (fun n p => n + (directionalRotation p.1 p.2).quarters) n) % 4 =
      (n + (directionalRotation d ((d :: ds).getLast (by simp))).quarters) % 4 by
    rw [this 0, Nat.zero_add]
    apply Nat.mod_eq_of_lt
    cases directionalRotation d ((d :: ds).getLast (by simp)) <;> decide
  induction ds generalizing d with
  | nil => intro n; simp only [List.zip_nil_right, List.foldl_nil, List.getLast_singleton, (C38_compose d d d).2.1]; rfl
  | cons e ds ih =>
    intro n
    simp only [List.zip_cons_cons, List.foldl_cons, ih e, List.getLast_cons_cons]
    have := (C38_compose d e ((e :: ds).getLast (by simp))).1
    omega

/-- A print area given by the two byte parameters of a command: every number below 65536. -/
def RenderArea.Small (a : RenderArea) : Prop := a.x < 65536 ∧ a.y < 65536 ∧ a.w < 65536 ∧ a.h < 65536

/-- The area `a` lies inside a page of width `w` and height `h`. -/
def RenderArea.Inside (a : RenderArea) (w h : Nat) : Prop := a.x + a.w ≤ w ∧ a.y + a.h ≤ h

/-- The match on the direction: the new render area. -/
theorem translateArea_ok (p : PageModeContext) (hl : p.logicalArea.Small) (hw : p.pageArea.w < 131072) (hh : p.pageArea.h < 131072) :
    ∃ r : RenderArea, translateArea p = .ok { p with renderArea := r } ∧ r.x + r.w < 131072 ∧ r.y + r.h < 131072 ∧
      (if p.direction = .topLeft2Right ∨ p.direction = .bottomRight2Left
        then r.w = p.logicalArea.w ∧ r.h = p.logicalArea.h else r.w = p.logicalArea.h ∧ r.h = p.logicalArea.w) ∧
      (p.direction = .topLeft2Right → r = p.logicalArea) := by
  obtain ⟨en, l, ra, pa, dir, prev⟩ := p
  obtain ⟨h1, h2, h3, h4⟩ := hl
  dsimp only at h1 h2 h3 h4 hw hh ⊢
  have a1 : addU32 l.x l.w = .ok (l.x + l.w) := by
    unfold addU32; rw [if_pos (by unfold U32; omega)]
  have a2 : addU32 l.y l.h = .ok (l.y + l.h) := by
    unfold addU32; rw [if_pos (by unfold U32; omega)]
  cases dir
  · exact ⟨l, rfl, by omega, by omega, by simp, by simp⟩
  · refine ⟨⟨pa.w - (l.x + l.w), l.y, l.w, l.h⟩, ?_, ?_, ?_, by simp, by simp⟩
    · simp only [translateArea, translateBottomRightToLeft, a1, bind, Except.bind, pure, Except.pure]
    · dsimp only; omega
    · dsimp only; omega
  · refine ⟨⟨pa.w - (l.y + l.h), pa.h - (l.x + l.w), l.h, l.w⟩, ?_, ?_, ?_, by simp, by simp⟩
    · simp only [translateArea, translateTopRightToBottom, a1, a2, bind, Except.bind, pure, Except.pure]
    · dsimp only; omega
    · dsimp only; omega
  · refine ⟨⟨pa.w - (l.y + l.h), l.x, l.h, l.w⟩, ?_, ?_, ?_, by simp, by simp⟩
    · simp only [translateArea, translateBottomLeftToTop, a2, bind, Except.bind, pure, Except.pure]
    · dsimp only; omega
    · dsimp only; omega

theorem swapPage_eq (p : PageModeContext) : ∃ w h, swapPage p = { p with pageArea := { p.pageArea with w := w, h := h } } ∧
    (if (directionalRotation p.previousDirection p.direction).quarters % 2 = 0
        then w = p.pageArea.w ∧ h = p.pageArea.h else w = p.pageArea.h ∧ h = p.pageArea.w) := by
  obtain ⟨en, l, ra, pa, dir, prev⟩ := p
  cases dir <;> cases prev <;> (refine ⟨_, _, rfl, ?_⟩; dsimp only; first | (rw [if_pos (by decide)]; exact ⟨rfl, rfl⟩) | (rw [if_neg (by decide)]; exact ⟨rfl, rfl⟩))

/-- C37. Applying a print area (of two byte numbers) to the page: it cannot fail while the page is below 131072 dots in
both directions, keeps it below that, the area that is printed to lies inside the page, has the requested size
(exchanged for the vertical directions) and in the default direction also the requested position, the reported page size is the new one, and the page is not smaller than before
(with width and height exchanged when the direction changes between horizontal and vertical). -/
theorem C37_page_area (p : PageModeContext) (hl : p.logicalArea.Small) (hw : p.pageArea.w < 131072) (hh : p.pageArea.h < 131072) :
    ∃ p' w h, p.applyLogicalArea = .ok (p', directionalRotation p.previousDirection p.direction, w, h) ∧
      p'.pageArea.w = w ∧ p'.pageArea.h = h ∧ w < 131072 ∧ h < 131072 ∧
      p'.renderArea.Inside w h ∧
      (if p.direction = .topLeft2Right ∨ p.direction = .bottomRight2Left
        then p'.renderArea.w = p.logicalArea.w ∧ p'.renderArea.h = p.logicalArea.h
        else p'.renderArea.w = p.logicalArea.h ∧ p'.renderArea.h = p.logicalArea.w) ∧
      (p.direction = .topLeft2Right → p'.renderArea = p.logicalArea) ∧
      (if (directionalRotation p.previousDirection p.direction).quarters % 2 = 0
        then p.pageArea.w ≤ w ∧ p.pageArea.h ≤ h
        else p.pageArea.h ≤ w ∧ p.pageArea.w ≤ h) ∧
      p'.pageArea.x = p'.renderArea.x ∧ p'.pageArea.y = p'.renderArea.y ∧
      p'.logicalArea = p.logicalArea ∧ p'.direction = p.direction ∧ p'.enabled = p.enabled := by
  have ⟨sw, sh, hs, hsw⟩ := swapPage_eq p
  have hb : sw < 131072 ∧ sh < 131072 := by split at hsw <;> omega
  unfold PageModeContext.applyLogicalArea
  simp only [hs]
  have ⟨r, hr, hb1, hb2, hsz, htl⟩ := translateArea_ok { p with pageArea := { p.pageArea with w := sw, h := sh } } hl hb.1 hb.2
  simp only [hr, bind, Except.bind, pure, Except.pure]
  have a1 : addU32 r.x r.w = .ok (r.x + r.w) := by
    unfold addU32; rw [if_pos (by unfold U32; omega)]
  have a2 : addU32 r.y r.h = .ok (r.y + r.h) := by
    unfold addU32; rw [if_pos (by unfold U32; omega)]
  rw [a1, a2]
  refine ⟨_, _, _, rfl, rfl, rfl, ?_, ?_, ⟨?_, ?_⟩, hsz, htl, ?_, rfl, rfl, rfl, rfl, rfl⟩
  · omega
  · omega
  · exact Nat.le_max_left _ _
  · exact Nat.le_max_left _ _
  · split at hsw
    · next h => rw [if_pos h]; omega
    · next h => rw [if_neg h]; omega

/-- C37, a concrete case: after a 300 x 200 area, turning to bottom-to-top exchanges the page dimensions. -/
example : ({ defaultSettings.pageMode with
      logicalArea := ⟨10, 20, 300, 200⟩
      pageArea := ⟨10, 20, 310, 220⟩
      direction := .bottomLeft2Top } : PageModeContext).applyLogicalArea.map (fun r => (r.1.renderArea, r.2)) =
    .ok (⟨0, 10, 200, 300⟩, .R90, 220, 310) := by decide +kernel

/-- The rectangle `a` of a page of which the width and height are `w` and `h` *after* the page was turned so that direction
`d` reads from left to right. -/
def RenderArea.turned (a : RenderArea) (d : PrintDirection) (w h : Nat) : RenderArea :=
  match d with
  | .topLeft2Right => a
  | .bottomLeft2Top => ⟨w - (a.y + a.h), a.x, a.h, a.w⟩
  | .bottomRight2Left => ⟨w - (a.x + a.w), h - (a.y + a.h), a.w, a.h⟩
  | .topRight2Bottom => ⟨a.y, h - (a.x + a.w), a.h, a.w⟩

/-- A point of the page of size `w` x `h`, turned clockwise. -/
def Rotation.point (r : Rotation) (w h x y : Nat) : Nat × Nat :=
  match r with
  | .R0 => (x, y)
  | .R90 => (h - 1 - y, x)
  | .R180 => (w - 1 - x, h - 1 - y)
  | .R270 => (y, w - 1 - x)

/-- `RenderArea.turned` is the set of the turned points: `w` and `h` are the size of the page before it is turned. -/
theorem turned_points (a : RenderArea) (d : PrintDirection) (w h : Nat) (hin : a.Inside w h) (x y : Nat) (hx : x < w) (hy : y < h) :
    (a.x ≤ x ∧ x < a.x + a.w ∧ a.y ≤ y ∧ y < a.y + a.h) ↔
      (let r := directionalRotation .topLeft2Right d
       let t := a.turned d (if shouldDimensionSwap d then h else w) (if shouldDimensionSwap d then w else h)
       let q := r.point w h x y
       t.x ≤ q.1 ∧ q.1 < t.x + t.w ∧ t.y ≤ q.2 ∧ q.2 < t.y + t.h) := by
  obtain ⟨h1, h2⟩ := hin
  cases d
  · exact Iff.rfl
  · show _ ↔ (w - (a.x + a.w) ≤ w - 1 - x ∧ w - 1 - x < w - (a.x + a.w) + a.w ∧ h - (a.y + a.h) ≤ h - 1 - y ∧ h - 1 - y < h - (a.y + a.h) + a.h)
    omega
  · show _ ↔ (a.y ≤ y ∧ y < a.y + a.h ∧ w - (a.x + a.w) ≤ w - 1 - x ∧ w - 1 - x < w - (a.x + a.w) + a.w)
    omega
  · show _ ↔ (h - (a.y + a.h) ≤ h - 1 - y ∧ h - 1 - y < h - (a.y + a.h) + a.h ∧ a.x ≤ x ∧ x < a.x + a.w)
    omega

/-- C72, for the two directions where it holds: a print area inside the page is placed on the turned page where it is on the
page.  Missing: `topRight2Bottom` and `bottomRight2Left`, where it does not hold (`C72_misplaced`). -/
theorem C72_area_placed_partial (p : PageModeContext) (hl : p.logicalArea.Small) (hw : p.pageArea.w < 131072) (hh : p.pageArea.h < 131072)
    (hd : p.direction = .topLeft2Right ∨ p.direction = .bottomLeft2Top) :
    ∃ p' rot w h, p.applyLogicalArea = .ok (p', rot, w, h) ∧
      p'.renderArea = p.logicalArea.turned p.direction (swapPage p).pageArea.w (swapPage p).pageArea.h := by
  obtain ⟨p', w, h, hp, _⟩ := C37_page_area p hl hw hh
  refine ⟨p', _, w, h, hp, ?_⟩
  obtain ⟨sw, sh, hs, _⟩ := swapPage_eq p
  unfold PageModeContext.applyLogicalArea at hp
  simp only [hs, bind, Except.bind] at hp
  rw [hs]
  obtain ⟨en, l, ra, pa, dir, prev⟩ := p
  dsimp only at hd hp ⊢
  rcases hd with hd | hd <;> subst hd
  · simp only [translateArea, translateTopLeftToRight, pure, Except.pure] at hp
    split at hp
    · cases hp
    · split at hp
      · cases hp
      · have e := (congrArg Prod.fst (Except.ok.inj hp)).symm
        dsimp only at e; rw [e]; rfl
  · have a2 : addU32 l.y l.h = .ok (l.y + l.h) := by
      unfold addU32; rw [if_pos (by obtain ⟨h1, h2, h3, h4⟩ := hl; dsimp only at h1 h2 h3 h4; unfold U32; omega)]
    simp only [translateArea, translateBottomLeftToTop, pure, Except.pure, bind, Except.bind, a2] at hp
    split at hp
    · cases hp
    · split at hp
      · cases hp
      · have e := (congrArg Prod.fst (Except.ok.inj hp)).symm
        dsimp only at e; rw [e]; rfl

/-- C72 does not hold for the other two directions: an area in the top left of a 300 x 200 page. -/
theorem C72_misplaced : ∀ d, d = .topRight2Bottom ∨ d = .bottomRight2Left →
    ∃ (p p' : PageModeContext) (rot : Rotation) (w h : Nat), p.direction = d ∧ p.logicalArea.Inside p.pageArea.w p.pageArea.h ∧
      p.applyLogicalArea = .ok (p', rot, w, h) ∧ p'.renderArea ≠ p.logicalArea.turned d (swapPage p).pageArea.w (swapPage p).pageArea.h := by
  rintro d (rfl | rfl)
  · exact ⟨{ defaultSettings.pageMode with
      logicalArea := ⟨10, 20, 50, 60⟩
      pageArea := ⟨0, 0, 300, 200⟩
      direction := .topRight2Bottom }, _, _, _, _, rfl, ⟨by decide, by decide⟩, rfl, by decide +kernel⟩
  · exact ⟨{ defaultSettings.pageMode with
      logicalArea := ⟨10, 20, 50, 60⟩
      pageArea := ⟨0, 0, 300, 200⟩
      direction := .bottomRight2Left }, _, _, _, _, rfl, ⟨by decide, by decide⟩, rfl, by decide +kernel⟩

end Thermal
