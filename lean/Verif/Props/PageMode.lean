import Verif.Props.Printer
/-
C84: positions in page mode.
-/
namespace Thermal
open Spec Renderer

variable {ext : Ext}

/-- The context with another position on the page. -/
def Spec.pageAt (c : Context) (x y : Nat) : Context :=
  { c with pageMode := { c.pageMode with renderArea := { c.pageMode.renderArea with
      x := x
      y := y } } }

/-- The context with another print area, as it was asked for. -/
def Spec.areaAsked (c : Context) (x y w h : Nat) : Context :=
  { c with pageMode := { c.pageMode with logicalArea := ⟨x, y, w, h⟩ } }

/-- A command with these parameters. -/
def Spec.withData (c : Command) (data : List Byte) : Command := { c with data := data }

theorem getPos_two (l h : Byte) : getPos [l, h] = wide l h := by
  show l.toNat + h.toNat * 256 = l.toNat + 256 * h.toNat
  omega

theorem wide_lt (l h : Byte) : wide l h < 65536 := by
  have hl := l.toNat_lt
  have hh := h.toNat_lt
  unfold wide; omega

theorem divU_of {a b : Nat} (h : b ≠ 0) : divU a b = .ok (a / b) := by unfold divU; rw [if_neg h]

theorem addU32_of {a b : Nat} (h : a + b < U32) : addU32 a b = .ok (a + b) := by unfold addU32; rw [if_pos h]

/-- What `ESC $`, `GS $` and `ESC W` do in page mode, in every print direction and with any motion units: the numbers are divided by the
motion unit of their direction; the position moves in the normal direction as it should, in the others along the wrong side of the page. -/
theorem C84_what_is_done (c : Context) (hm : c.pageMode.enabled = true) (hu : c.graphics.hMotionUnit.toNat ≠ 0) (hv : c.graphics.vMotionUnit.toNat ≠ 0)
    (hx : c.pageMode.pageArea.x + c.pageMode.renderArea.w < 2 ^ 31) (hy : c.pageMode.pageArea.y + c.pageMode.renderArea.h < 2 ^ 31) (l h : Byte) :
    let n := wide l h / c.graphics.hMotionUnit.toNat
    let m := wide l h / c.graphics.vMotionUnit.toNat
    let x := c.pageMode.renderArea.x
    let y := c.pageMode.renderArea.y
    let page := c.pageMode.pageArea
    let field := c.pageMode.renderArea
    applyContext ext (withData setHorizontalPosCmd [l, h]) c = .ok (match c.pageMode.direction with
      | .topLeft2Right => pageAt c (page.x + n) y
      | .bottomLeft2Top => pageAt c x (page.y + n)
      | .bottomRight2Left => pageAt c (page.x + field.w - n) y
      | .topRight2Bottom => pageAt c x (field.h - n)) ∧
    applyContext ext (withData setVerticalPosCmd [l, h]) c = .ok (match c.pageMode.direction with
      | .topLeft2Right => pageAt c x (page.y + m)
      | .bottomLeft2Top => pageAt c (page.x + (field.w - m)) y
      | .bottomRight2Left => pageAt c x (page.y + (field.h - m))
      | .topRight2Bottom => pageAt c (page.x + m) y) := by
  have hn := wide_lt l h
  have hn1 : wide l h / c.graphics.hMotionUnit.toNat ≤ wide l h := Nat.div_le_self _ _
  have hn2 : wide l h / c.graphics.vMotionUnit.toNat ≤ wide l h := Nat.div_le_self _ _
  dsimp only
  constructor
  · have e : applyContext ext (withData setHorizontalPosCmd [l, h]) c = c.setXAbsolute (getPos [l, h]) := rfl
    rw [e, getPos_two]
    unfold Context.setXAbsolute
    rw [divU_of hu]
    generalize wide l h / c.graphics.hMotionUnit.toNat = n at *
    show (if c.pageMode.enabled then _ else _) = _
    rw [if_pos hm]
    unfold PageModeContext.setXAbsolute
    obtain ⟨⟨_, _, _, _, ⟨_, _, _, _, dir, _⟩⟩, _⟩ := c
    dsimp only at hx hy ⊢
    cases dir <;> dsimp only <;> (try rw [addU32_of (by unfold U32; omega)]) <;> rfl
  · have e : applyContext ext (withData setVerticalPosCmd [l, h]) c = if c.pageMode.enabled then c.setYAbsolute (getPos [l, h]) else pure c := rfl
    rw [e, getPos_two, if_pos hm]
    unfold Context.setYAbsolute
    rw [divU_of hv]
    generalize wide l h / c.graphics.vMotionUnit.toNat = n at *
    show (if c.pageMode.enabled then _ else _) = _
    rw [if_pos hm]
    unfold PageModeContext.setYAbsolute
    obtain ⟨⟨_, _, _, _, ⟨_, _, _, _, dir, _⟩⟩, _⟩ := c
    dsimp only at hx hy ⊢
    cases dir <;> dsimp only <;> rw [addU32_of (by unfold U32; omega)] <;> rfl

/-- With motion units of `u` and `v` dots `ESC W` asks for an area whose numbers are divided by the unit of their direction (they should be
multiplied, see C78_unit_inverted). -/
theorem C84_area_units (c : Context) (hm : c.pageMode.enabled = true) (u v : Nat) (hu : c.graphics.hMotionUnit.toNat = u)
    (hv : c.graphics.vMotionUnit.toNat = v) (hu0 : u ≠ 0) (hv0 : v ≠ 0) (xl xh yl yh wl wh hl hh : Byte) :
    applyContext ext (withData pageModePrintAreaCmd [xl, xh, yl, yh, wl, wh, hl, hh]) c =
      .ok (areaAsked c (wide xl xh / u) (wide yl yh / v) (wide wl wh / u) (wide hl hh / v)) := by
  have e : applyContext ext (withData pageModePrintAreaCmd [xl, xh, yl, yh, wl, wh, hl, hh]) c =
    if c.pageMode.enabled then c.setPageArea (calculatePageArea [xl, xh, yl, yh, wl, wh, hl, hh]) else pure c := rfl
  rw [e, if_pos hm]
  unfold Context.setPageArea calculatePageArea
  rw [hu, hv]
  simp only [parseU16_eq, divU_of hu0, divU_of hv0, areaAsked, wide, Nat.mul_comm 256]
  rfl

/-- C84, the part that holds.  In page mode, in the normal print direction and with motion units of one dot, `ESC $ l h` puts the position
`l + 256 h` dots right of the left edge of the print area, `GS $ l h` puts it so many dots below the upper edge of the print area; and in
every print direction `GS \ l h` moves it down by the signed number, but not above the upper edge of the page, and `ESC W` asks for the
area it names.  Nothing else changes, and these commands never fail as long as positions are below 2^31. -/
theorem C84_position_partial (c : Context) (hm : c.pageMode.enabled = true) (hu : c.graphics.hMotionUnit = 1) (hv : c.graphics.vMotionUnit = 1)
    (hx : c.pageMode.pageArea.x + c.pageMode.renderArea.w < 2 ^ 31) (hy : c.pageMode.pageArea.y + c.pageMode.renderArea.h < 2 ^ 31) (l h : Byte) :
    (c.pageMode.direction = .topLeft2Right →
      applyContext ext (withData setHorizontalPosCmd [l, h]) c = .ok (pageAt c (c.pageMode.pageArea.x + wide l h) c.pageMode.renderArea.y)) ∧
    (c.pageMode.direction = .topLeft2Right →
      applyContext ext (withData setVerticalPosCmd [l, h]) c = .ok (pageAt c c.pageMode.renderArea.x (c.pageMode.pageArea.y + wide l h))) ∧
    (c.pageMode.renderArea.y < 2 ^ 31 - 2 ^ 15 →
      applyContext ext (withData offsetVerticalPosCmd [l, h]) c = .ok (pageAt c c.pageMode.renderArea.x
        (if h.toNat < 128 then c.pageMode.renderArea.y + wide l h else c.pageMode.renderArea.y - (65536 - wide l h)))) ∧
    ∀ xl xh yl yh wl wh hl hh, applyContext ext (withData pageModePrintAreaCmd [xl, xh, yl, yh, wl, wh, hl, hh]) c =
      .ok (areaAsked c (wide xl xh) (wide yl yh) (wide wl wh) (wide hl hh)) := by
  obtain ⟨k1, k2⟩ := C84_what_is_done (ext := ext) c hm (by rw [hu]; decide) (by rw [hv]; decide) hx hy l h

  rw [hu, show UInt8.toNat 1 = 1 from rfl, Nat.div_one] at k1
  rw [hv, show UInt8.toNat 1 = 1 from rfl, Nat.div_one] at k2
  refine ⟨fun hd => by rw [hd] at k1; exact k1, fun hd => by rw [hd] at k2; exact k2, fun ha => ?_, fun xl xh yl yh wl wh hl hh => ?_⟩
  · have hl := l.toNat_lt
    have hh := h.toNat_lt
    have e : applyContext ext (withData offsetVerticalPosCmd [l, h]) c = if c.pageMode.enabled then c.offsetYRelative (getPosI16 [l, h]) else pure c := rfl
    rw [e, if_pos hm]
    unfold Context.offsetYRelative divI16
    rw [hv, if_neg (by decide)]
    show (addClamp c.getY ((getPosI16 [l, h]).tdiv 1) >>= fun y => pure (c.putY y)) = _
    have hg : c.getY = c.pageMode.renderArea.y := by unfold Context.getY; rw [if_pos hm]
    rw [Int.tdiv_one, hg]
    unfold getPosI16
    rw [getPos_two]
    unfold addClamp wide
    dsimp only
    rw [if_pos (show c.pageMode.renderArea.y < 2147483648 by omega), if_pos (by split <;> omega)]
    show Except.ok (c.putY _) = _
    have hp : ∀ v, c.putY v = pageAt c c.pageMode.renderArea.x v := by
      intro v; unfold Context.putY pageAt; rw [if_pos hm]
    rw [hp]
    congr 2
    split <;> split <;> omega
  · have := C84_area_units (ext := ext) c hm 1 1 (by rw [hu]; rfl) (by rw [hv]; rfl) (by decide) (by decide) xl xh yl yh wl wh hl hh
    simpa only [Nat.div_one] using this

/-- C84, hypotheses met: after `ESC L` and `ESC W 10 20 200 100`. -/
example : ∃ r : Recording, processCommands recorder noExt [setPageModeCmd, withData pageModePrintAreaCmd [10, 0, 20, 0, 200, 0, 100, 0]] (Renderer.new []) = .ok r ∧
    r.context.pageMode.enabled = true ∧ r.context.graphics.hMotionUnit = 1 ∧ r.context.graphics.vMotionUnit = 1 ∧
    r.context.pageMode.pageArea.x = 10 ∧ r.context.pageMode.pageArea.y = 20 ∧ r.context.pageMode.renderArea = ⟨10, 20, 200, 100⟩ := by
  refine ⟨_, rfl, ?_⟩; decide +kernel

/-! ### Where the program differs -/

/-- A page with the given area, then these items. -/
def onPageWith (area : List Byte) (rest : List Item) : List Item := .fixed setPageModeCmd [] :: .fixed pageModePrintAreaCmd area :: rest

/-- What an output renderer is told to do. -/
def toldFor (items : List Item) (acts : List Act) : Prop :=
  ∃ outs errs r, render recorder noExt (Renderer.new []) (streamBytes items) = .ok (outs, errs, r) ∧ (r.child.flatMap fun x => callActs x).map Spec.Act.outline = acts

/-- What the reference printer does. -/
abbrev shouldBe (items : List Item) : List Act := (printedActs noExt items).map Spec.Act.outline

/-- C84 is false of this program where print directions other than the normal one come in: `ESC $ 30` moves down the page instead of along
the line (direction 1), and `GS $ 30` moves along the line, from its end; with `ESC T 2` and `ESC T 3` an area that is not in the middle of the
page is misplaced; an area beyond the page that was set in direction 1 does not make the page large enough; and `ESC W` in standard
mode is not remembered. -/
theorem C84_deviations :
    (let items := onPageWith [10, 0, 20, 0, 200, 0, 100, 0] [.fixed pageModePrintDirectionCmd [1], .fixed setHorizontalPosCmd [30, 0], .text [65]]
     toldFor items [.newSheet 108, .newPage, .setPage .R0 210 120, .setPage .R90 120 210, someAt true 0 40, .endSheet true 108] ∧
     shouldBe items = [.newSheet 108, .newPage, .setPage .R0 210 120, .setPage .R90 120 210, someAt true 30 10, .endSheet true 108]) ∧
    (let items := onPageWith [10, 0, 20, 0, 200, 0, 100, 0] [.fixed pageModePrintDirectionCmd [1], .fixed setVerticalPosCmd [30, 0], .text [65]]
     toldFor items [.newSheet 108, .newPage, .setPage .R0 210 120, .setPage .R90 120 210, someAt true 70 10, .endSheet true 108] ∧
     shouldBe items = [.newSheet 108, .newPage, .setPage .R0 210 120, .setPage .R90 120 210, someAt true 0 40, .endSheet true 108]) ∧
    (let items := onPageWith [0, 0, 0, 0, 200, 0, 100, 0]
      [.fixed pageModePrintAreaCmd [10, 0, 10, 0, 40, 0, 30, 0], .fixed pageModePrintDirectionCmd [2], .text [65]]
     toldFor items [.newSheet 108, .newPage, .setPage .R0 200 100, .setPage .R0 200 100, .setPage .R180 200 100, someAt true 150 10, .endSheet true 108] ∧
     shouldBe items = [.newSheet 108, .newPage, .setPage .R0 200 100, .setPage .R0 200 100, .setPage .R180 200 100, someAt true 150 60, .endSheet true 108]) ∧
    (let items := onPageWith [0, 0, 0, 0, 200, 0, 100, 0]
      [.fixed pageModePrintAreaCmd [10, 0, 10, 0, 40, 0, 30, 0], .fixed pageModePrintDirectionCmd [3], .text [65]]
     toldFor items [.newSheet 108, .newPage, .setPage .R0 200 100, .setPage .R0 200 100, .setPage .R270 100 200, someAt true 60 150, .endSheet true 108] ∧
     shouldBe items = [.newSheet 108, .newPage, .setPage .R0 200 100, .setPage .R0 200 100, .setPage .R270 100 200, someAt true 10 150, .endSheet true 108]) ∧
    (let items := onPageWith [0, 0, 0, 0, 40, 0, 30, 0]
      [.fixed pageModePrintDirectionCmd [1], .fixed pageModePrintAreaCmd [10, 0, 50, 0, 40, 0, 30, 0], .text [65]]
     toldFor items [.newSheet 108, .newPage, .setPage .R0 40 30, .setPage .R90 30 40, .setPage .R0 30 50, someAt true 0 10, .endSheet true 108] ∧
     shouldBe items = [.newSheet 108, .newPage, .setPage .R0 40 30, .setPage .R90 30 40, .setPage .R0 80 50, someAt true 0 10, .endSheet true 108]) ∧
    (let items : List Item := [.fixed pageModePrintAreaCmd [10, 0, 50, 0, 40, 0, 30, 0], .fixed setPageModeCmd [], .text [66]]
     toldFor items [.newSheet 108, .setPage .R0 0 0, .newPage, someAt true 0 0, someAt true 0 24, .endSheet true 108] ∧
     shouldBe items = [.newSheet 108, .setPage .R0 50 80, .newPage, someAt true 10 50, .endSheet true 108]) := by
  refine ⟨⟨⟨_, _, _, rfl, ?_⟩, ?_⟩, ⟨⟨_, _, _, rfl, ?_⟩, ?_⟩, ⟨⟨_, _, _, rfl, ?_⟩, ?_⟩, ⟨⟨_, _, _, rfl, ?_⟩, ?_⟩, ⟨⟨_, _, _, rfl, ?_⟩, ?_⟩, ⟨⟨_, _, _, rfl, ?_⟩, ?_⟩⟩ <;> decide +kernel

/-- Tabs on a page whose area is not at its left edge: "A", a tab, "B" in an area that begins at dot 100 of the page.  The next tab stop is
96 dots right of the left edge of the area, at dot 196; the program looks for a stop right of dot 112, counted from the left edge of the
page, and then counts it from the left edge of the area. -/
theorem C84_tab_misplaced :
    let items := onPageWith [100, 0, 20, 0, 0, 1, 100, 0] [.text [65], .fixed horizontalTabCmd [], .text [66]]
    ∃ outs errs r, render recorder noExt (Renderer.new []) (streamBytes items) = .ok (outs, errs, r) ∧
      ((r.child.flatMap (fun x => callLines x.2)).flatMap TextLine.marks).map (fun m => (m.ch, m.x)) = [('A', 100), ('B', 292)] ∧
      ((printedActs noExt items).flatMap fun
        | .put _ (.line l) => l.marks.map fun m => (m.ch, m.x)
        | _ => []) = [('A', 100), ('B', 196)] := by
  refine ⟨_, _, _, rfl, ?_, ?_⟩ <;> decide +kernel

end Thermal
