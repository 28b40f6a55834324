import Verif.Proofs.Typeset
import Verif.Props.HtmlText
import Verif.Props.Geometry
/-
C78: the text of a stream is set where a reference typesetter sets it.
-/
namespace Thermal
open Renderer Spec
variable {ext : Ext}

/-! ### The position -/

/-- A rectangle as an area of the program. -/
def areaOf (r : Rectangle) : RenderArea := ⟨r.x, r.y, r.w, r.h⟩

/-- The position of a context is the one of the desk. -/
structure OnDesk (d : Desk) (c : Context) : Prop where
  mode : c.pageMode.enabled = d.onPage
  width : c.graphics.renderArea.w = paperWidth
  unit : c.graphics.hMotionUnit = 1
  vunit : c.graphics.vMotionUnit = 1
  tabs : c.text.tabs.map (·.toNat) = d.tabs
  len : d.tabs.length = 32
  paperX : c.graphics.renderArea.x = if d.onPage then d.kept.1 else d.x
  paperY : c.graphics.renderArea.y = if d.onPage then d.kept.2 else d.y
  pageX : c.pageMode.renderArea.x = d.page.field.x + if d.onPage then d.x else d.kept.1
  pageY : c.pageMode.renderArea.y = if d.onPage then d.y else d.kept.2
  pageW : c.pageMode.renderArea.w = d.page.field.w
  pageArea : c.pageMode.pageArea = ⟨d.page.field.x, d.page.field.y, d.page.w, d.page.h⟩
  area : c.pageMode.logicalArea = areaOf d.page.area
  direction : c.pageMode.direction = d.page.direction

theorem OnDesk.baseX {d : Desk} {c : Context} (h : OnDesk d c) : c.baseX = d.left := by
  unfold Context.baseX Desk.left; rw [h.mode, h.pageArea]

theorem OnDesk.getX {d : Desk} {c : Context} (h : OnDesk d c) : c.getX = d.left + d.x := by
  unfold Context.getX Desk.left
  rw [h.mode, h.paperX, h.pageX]
  cases d.onPage <;> simp

theorem OnDesk.getY {d : Desk} {c : Context} (h : OnDesk d c) : c.getY = d.y := by
  unfold Context.getY
  rw [h.mode, h.paperY, h.pageY]
  cases d.onPage <;> simp

theorem OnDesk.getWidth {d : Desk} {c : Context} (h : OnDesk d c) : c.getWidth = d.width := by
  unfold Context.getWidth Desk.width; rw [h.mode, h.pageW, h.width]

/-- What the position consists of. -/
def deskSettings : List Setting :=
  [.pageEnabled, .printWidth, .hMotionUnit, .vMotionUnit, .tabs, .paperX, .paperY, .pageX, .pageY, .pageW, .pageArea, .logicalArea, .direction]

theorem OnDesk.of_only {d : Desk} {c c' : Context} {fs : List Setting} (ho : OnlyChanges fs c c') (hf : ∀ f ∈ deskSettings, f ∉ fs)
    (h : OnDesk d c) : OnDesk d c' := by
  have h' : ∀ f ∈ deskSettings, f.same c c' := fun f hf' => ho f (hf f hf')
  simp only [deskSettings, List.forall_mem_cons, Setting.same] at h'
  obtain ⟨e1, e2, e3, e4, e5, e6, e7, e8, e9, e10, e11, e12, e13, _⟩ := h'
  exact ⟨e1.trans h.mode, e2.trans h.width, e3.trans h.unit, e4.trans h.vunit, by rw [e5]; exact h.tabs, h.len, e6.trans h.paperX,
    e7.trans h.paperY, e8.trans h.pageX, e9.trans h.pageY, e10.trans h.pageW, e11.trans h.pageArea, e12.trans h.area, e13.trans h.direction⟩

theorem OnDesk.putX {d : Desk} {c : Context} (h : OnDesk d c) (x : Nat) : OnDesk { d with x := x } (c.putX (d.left + x)) := by
  have hm := h.mode
  unfold Context.putX Desk.left
  rw [hm]
  cases ho : d.onPage <;> rw [ho] at hm
  · refine ⟨?_, h.width, h.unit, h.vunit, h.tabs, h.len, ?_, ?_, ?_, ?_, h.pageW, h.pageArea, h.area, h.direction⟩
    · simpa [ho] using hm
    · simp [ho]
    · simpa [ho] using h.paperY
    · simpa [ho] using h.pageX
    · simpa [ho] using h.pageY
  · refine ⟨?_, h.width, h.unit, h.vunit, h.tabs, h.len, ?_, ?_, ?_, ?_, h.pageW, h.pageArea, h.area, h.direction⟩
    · simpa [ho] using hm
    · simpa [ho] using h.paperX
    · simpa [ho] using h.paperY
    · simp [ho]
    · simpa [ho] using h.pageY

theorem OnDesk.putY {d : Desk} {c : Context} (h : OnDesk d c) (y : Nat) : OnDesk { d with y := y } (c.putY y) := by
  have hm := h.mode
  unfold Context.putY
  rw [hm]
  cases ho : d.onPage <;> rw [ho] at hm
  · refine ⟨?_, h.width, h.unit, h.vunit, h.tabs, h.len, ?_, ?_, ?_, ?_, h.pageW, h.pageArea, h.area, h.direction⟩
    · simpa [ho] using hm
    · simpa [ho] using h.paperX
    · simp [ho]
    · simpa [ho] using h.pageX
    · simpa [ho] using h.pageY
  · refine ⟨?_, h.width, h.unit, h.vunit, h.tabs, h.len, ?_, ?_, ?_, ?_, h.pageW, h.pageArea, h.area, h.direction⟩
    · simpa [ho] using hm
    · simpa [ho] using h.paperX
    · simpa [ho] using h.paperY
    · simpa [ho] using h.pageX
    · simp [ho]

theorem OnDesk.resetX {d : Desk} {c : Context} (h : OnDesk d c) : OnDesk { d with x := 0 } c.resetX := by
  unfold Context.resetX; rw [h.baseX]; exact h.putX 0

theorem OnDesk.newline {d : Desk} {c c' : Context} {n : Nat} (h : OnDesk d c) (hn : c.newline n = .ok c') :
    OnDesk (d.feed (n * c.text.lineSpacing.toNat)) c' := by
  simp only [Context.newline, bind_ok, mulU32_ok, offsetY_ok] at hn
  obtain ⟨_, ⟨_, rfl⟩, _, rfl⟩ := hn
  have h1 := h.resetX
  have := h1.putY (c.resetX.getY + c.text.lineSpacing.toNat * n)
  rw [h1.getY] at this ⊢
  rw [Nat.mul_comm n]
  exact this

theorem OnDesk.feed {d : Desk} {c c' : Context} {n : Nat} (h : OnDesk d c) (hn : c.feed n = .ok c') : OnDesk (d.feed n) c' := by
  simp only [Context.feed, bind_ok, offsetY_ok, pure_ok] at hn
  obtain ⟨_, ⟨_, rfl⟩, rfl⟩ := hn
  rw [h.getY]
  exact (h.putY (d.y + n)).resetX

/-- A context whose pen has moved. -/
theorem OnDesk.pen {d : Desk} {c c' : Context} {x y : Nat} (h : OnDesk d c) (hp : PenDown c c') (hx : c'.getX = d.left + x) (hy : c'.getY = y) :
    OnDesk { d with
      x := x
      y := y } c' := by
  obtain ⟨gx, gy, px, py, rfl, _, _, hin⟩ := hp
  have hm := h.mode
  unfold Context.getX at hx
  unfold Context.getY at hy
  unfold Desk.left at hx
  rw [hm] at hin
  have hm' : (c.withPens gx gy px py).pageMode.enabled = d.onPage := hm
  rw [hm'] at hx hy
  rcases (Bool.eq_false_or_eq_true d.onPage).symm with ho | ho
  · simp only [ho, Bool.false_eq_true, if_false, Nat.zero_add] at hx hy hin
    obtain ⟨i1, i2⟩ := hin
    subst i1 i2
    refine ⟨h.mode, h.width, h.unit, h.vunit, h.tabs, h.len, ?_, ?_, ?_, ?_, h.pageW, h.pageArea, h.area, h.direction⟩
    · simpa [ho] using hx
    · simpa [ho] using hy
    · exact h.pageX.trans (by simp [ho])
    · exact h.pageY.trans (by simp [ho])
  · simp only [ho, if_true] at hx hy hin
    obtain ⟨i1, i2⟩ := hin
    subst i1 i2
    refine ⟨h.mode, h.width, h.unit, h.vunit, h.tabs, h.len, ?_, ?_, ?_, ?_, h.pageW, h.pageArea, h.area, h.direction⟩
    · exact h.paperX.trans (by simp [ho])
    · exact h.paperY.trans (by simp [ho])
    · simpa [ho] using hx
    · simpa [ho] using hy

/-- Device commands that leave the position alone. -/
def Still (d : DeviceCommand) : Prop :=
  match d with
  | .beginPrint | .feed _ | .feedLine _ | .fullCut | .partialCut | .beginPageMode | .endPageMode | .printPageMode | .changePageArea
  | .changePageModeDirection | .changeTabs _ _ => False
  | _ => True

theorem OnDesk.device {d : Desk} {x : DeviceCommand} {c c' : Context} (hx : Still x) (h : deviceContext x c = .ok c') (hc : OnDesk d c) :
    OnDesk d c' := by
  refine hc.of_only (deviceContext_only h) ?_
  cases x <;> first | exact False.elim hx | (simp only [deviceWrites]; decide)

theorem OnDesk.devices {d : Desk} {xs : List DeviceCommand} {c c' : Context} (hx : ∀ x ∈ xs, Still x)
    (h : xs.foldlM (fun c d => deviceContext d c) c = .ok c') (hc : OnDesk d c) : OnDesk d c' := by
  induction xs generalizing c with
  | nil => rw [List.foldlM_nil, pure_ok] at h; subst h; exact hc
  | cons x xs ih =>
    rw [List.foldlM_cons] at h
    rw [bind_ok] at h
    obtain ⟨c1, h1, h2⟩ := h
    exact ih (fun y hy => hx y (by simp [hy])) h2 (hc.device (hx x (by simp)) h1)

/-- The handlers that have to do with the position. -/
def movers : List Hid :=
  [.beginPrint, .printAndFeed, .printAndFeedLines, .printAndReverseFeedLines, .feedAndCut, .setPageMode, .setTabLen, .initialize,
   .setHorizontalPos, .setMotionUnits, .formfeed, .pageModePrintData, .selectStandardMode, .pageModePrintArea, .pageModePrintDirection,
   .setVerticalPos, .offsetVerticalPos]

/-- The opcodes that have to do with the position. -/
def moveOpcodes : List (List Byte) :=
  [[27, 36], [27, 74], [27, 100], [27, 101], [29, 86], [27, 76], [27, 68], [27, 64], [29, 80], [12], [27, 12], [27, 83], [27, 87], [27, 84],
   [29, 36], [29, 92]]

theorem base_movers : ∀ b ∈ baseCommands ++ [beginPrintCmd, endPrintCmd], b.commands ∉ moveOpcodes → b.handler ≠ .unit .beginPrint →
    ∀ id ∈ movers, b.handler ≠ .unit id := by decide +kernel

theorem known_movers {cmd : Command} (hc : Known cmd) (ho : cmd.commands ∉ moveOpcodes) (hb : ¬ cmd.isBegin) :
    ∀ id ∈ movers, cmd.handler ≠ .unit id := by
  intro id hid hh
  obtain ⟨base, h1, h2, h3⟩ := known_handler hc hh
  refine base_movers base h1 (by rw [← h2.commands]; exact ho) ?_ id hid h3
  intro h4
  exact hb (derived_unit h2 h4)

/-- The opcodes that move, for a kind of command. -/
theorem kind_movers {cmd : Command} (hc : Known cmd) (k : CommandType) (ops : List (List Byte))
    (key : ∀ b ∈ baseCommands ++ [beginPrintCmd, endPrintCmd], b.kind = k → b.commands ∈ moveOpcodes → b.commands ∈ ops)
    (hk : cmd.kind = k) (ho : cmd.commands ∉ ops) : cmd.commands ∉ moveOpcodes := by
  intro hm
  rcases hc with ⟨base, b1, b0, b2⟩ | ⟨op, hdr, x, e1, _, _, _, e2⟩
  · rw [b2.commands] at hm ho
    exact ho (key base b1 (by rw [← b2.kind]; exact hk) hm)
  · rw [e1] at hm
    have hl : ∀ o ∈ moveOpcodes, o.length ≤ 2 := by decide
    have := hl _ hm
    rw [List.length_append] at this
    rcases e2 with ⟨⟨rfl, hl⟩ | ⟨rfl, hl⟩, _⟩ | ⟨rfl, hl, _⟩ <;> (simp only [List.length_cons, List.length_nil] at this; omega)

theorem getDevice_still {cmd : Command} {c : Context} {o} (h : getDevice cmd c = .ok o)
    (hm : ∀ id ∈ movers, cmd.handler ≠ .unit id) : ∀ d ∈ o.getD [], Still d := by
  unfold getDevice at h
  split at h
  · rename_i id hh
    have hm' : id ∉ movers := fun hid => hm id hid hh
    cases id <;> first | exact absurd (by decide) hm' | (simp only [getDeviceUnit, pure_ok] at h)
    all_goals (subst h; simp [Still])
  all_goals (rw [pure_ok] at h; subst h; simp [Still])

theorem OnDesk.apply {d : Desk} {cmd : Command} {c c' : Context} (hm : ∀ id ∈ movers, cmd.handler ≠ .unit id)
    (h : applyContext ext cmd c = .ok c') (hc : OnDesk d c) : OnDesk d c' := by
  refine hc.of_only (applyContext_only h) ?_
  have n1 : ∀ h : Hid, h ∉ movers → ∀ f ∈ deskSettings, f ∉ applyWrites h := by intro h; cases h <;> decide
  have n2 : ∀ h : SubId, ∀ f ∈ deskSettings, f ∉ subWrites h := by intro h; cases h <;> decide
  unfold handlerWrites
  split
  · rename_i id hh; exact n1 id (fun hid => hm id hid hh)
  · exact n2 _
  · decide
  · split
    · exact n2 _
    · decide
  · decide

/-! ### Calls -/

theorem deviceCommand_lines {d : DeviceCommand} {r r' : Recording} (h : deviceCommand recorder r d = .ok r') :
    allLines r'.child = allLines r.child := by
  simp only [deviceCommand, bind_ok, recorder, ok_ok] at h
  obtain ⟨s, rfl, h⟩ := h
  cases d <;> simp only [bind_ok, pure_ok, ok_ok] at h
  case beginPrint => obtain ⟨c, h1, s, rfl, rfl⟩ := h; simp [allLines, callLines]
  case endPrint => obtain ⟨_, rfl, rfl⟩ := h; simp [allLines, callLines]
  case feedLine => obtain ⟨c, h1, rfl⟩ := h; simp [allLines, callLines]
  case feed => obtain ⟨c, h1, rfl⟩ := h; simp [allLines, callLines]
  case fullCut => obtain ⟨c, h1, rfl⟩ := h; simp [allLines, callLines]
  case partialCut => obtain ⟨c, h1, rfl⟩ := h; simp [allLines, callLines]
  case beginPageMode => obtain ⟨c, rfl, rfl⟩ := h; simp [allLines, callLines]
  case endPageMode => obtain ⟨c, rfl, rfl⟩ := h; simp [allLines, callLines]
  case printPageMode => obtain ⟨s, rfl, y, h1, rfl⟩ := h; simp [allLines, callLines]
  case changePageArea =>
    simp only [pageAreaChanged, bind_ok, pure_ok, ok_ok] at h
    obtain ⟨_, _, s, rfl, rfl⟩ := h
    simp [allLines, callLines]
  case changePageModeDirection =>
    simp only [pageAreaChanged, bind_ok, pure_ok, ok_ok] at h
    obtain ⟨_, _, s, rfl, rfl⟩ := h
    simp [allLines, callLines]
  all_goals (subst h; simp [allLines, callLines])

theorem deviceCommands_lines {ds : List DeviceCommand} {r r' : Recording} (h : deviceCommands recorder ds r = .ok r') :
    allLines r'.child = allLines r.child ∧ r'.spanBuffer = r.spanBuffer := by
  induction ds generalizing r with
  | nil => simp only [deviceCommands, ok_ok] at h; subst h; exact ⟨rfl, rfl⟩
  | cons d ds ih =>
    simp only [deviceCommands, bind_ok] at h
    obtain ⟨r1, h1, h2⟩ := h
    obtain ⟨a, b⟩ := ih h2
    exact ⟨a.trans (deviceCommand_lines h1), b.trans (deviceCommand_context h1).2⟩

/-! ### Commands -/

/-- The state between two commands. -/
structure AtDesk (d : Desk) (r : Recording) : Prop where
  styled : Styled d.style r.context
  limits : Limits r.context
  wide : 0 < d.style.widthTimes
  pos : OnDesk d r.context
  waiting : r.spanBuffer.map runOf = d.waiting
  settable : ∀ t ∈ r.spanBuffer, Settable d.left d.width t
  lines : allLines r.child = d.lines

theorem spacing {s : Style} {c : Context} (h : Styled s c) : c.text.lineSpacing.toNat = s.lineSpacing := by
  rw [← h.style]; rfl

/-- What is not the style. -/
structure Settled (d : Desk) (r : Recording) : Prop where
  pos : OnDesk d r.context
  waiting : r.spanBuffer.map runOf = d.waiting
  settable : ∀ t ∈ r.spanBuffer, Settable d.left d.width t
  lines : allLines r.child = d.lines

theorem AtDesk.flush {d : Desk} {r r' : Recording} (hd : AtDesk d r) (h : processText recorder r = .ok r') :
    Settled d.flush r' ∧ Styled d.style r'.context := by
  obtain ⟨a1, a2, a3, a4, a5⟩ := processText_typeset h hd.pos.baseX hd.pos.getWidth hd.pos.getX hd.settable
  rw [hd.pos.getY, hd.pos.tabs, spacing hd.styled, hd.waiting] at a1 a2 a3
  have hp := hd.pos.pen a5 a2 a3
  refine ⟨⟨⟨hp.1, hp.2, hp.3, hp.4, hp.5, hp.6, hp.7, hp.8, hp.9, hp.10, hp.11, hp.12, hp.13, hp.14⟩, by rw [a4]; rfl, by rw [a4]; simp, ?_⟩, ?_⟩
  · rw [a1, hd.lines]; rfl
  · exact hd.styled.of_only a5.only (by decide)

theorem move_other {d : Desk} {op data : List Byte} (h : op ∉ moveOpcodes) : d.move op data = d := by
  unfold Desk.move
  dsimp only
  split <;> first | rfl | exact absurd (by decide) h

/-- A command that acts on the context and by device commands: the position and the rest. -/
theorem Settled.after {d : Desk} {d' : Desk} {r r' : Recording} {c : Context} {ds : List DeviceCommand} (h : Settled d r)
    (hr : deviceCommands recorder ds { r with context := c } = .ok r')
    (hp : OnDesk d' r'.context) (hw : d'.waiting = d.waiting) (hm : d'.lines = d.lines)
    (hl : d.waiting = [] ∨ d'.left = d.left ∧ d'.width = d.width) : Settled d' r' := by
  obtain ⟨a, b⟩ := deviceCommands_lines hr
  dsimp only at a b
  refine ⟨hp, by rw [b, hw]; exact h.waiting, ?_, by rw [a, hm]; exact h.lines⟩
  rw [b]
  rcases hl with hl | ⟨e1, e2⟩
  · have : r.spanBuffer = [] := by simpa [hl] using h.waiting
    rw [this]; simp
  · rw [e1, e2]; exact h.settable

theorem move_waiting (d : Desk) (op data : List Byte) : (d.move op data).waiting = d.waiting ∧ (d.move op data).lines = d.lines := by
  unfold Desk.move
  dsimp only
  split <;> first | exact ⟨rfl, rfl⟩ | (split <;> first | exact ⟨rfl, rfl⟩ | (split <;> exact ⟨rfl, rfl⟩)) | skip
  cases printDirection (param data 0) <;> exact ⟨rfl, rfl⟩

theorem Settled.style {d : Desk} {r : Recording} (h : Settled d r) (s : Style) : Settled { d with style := s } r := by
  have hp := h.pos
  exact ⟨⟨hp.1, hp.2, hp.3, hp.4, hp.5, hp.6, hp.7, hp.8, hp.9, hp.10, hp.11, hp.12, hp.13, hp.14⟩, h.waiting, h.settable, h.lines⟩

theorem wide_step {s : Style} {op data : List Byte} (h : 0 < s.widthTimes) : 0 < (s.step op data).widthTimes := by
  unfold Style.step
  dsimp only
  split <;> first | exact h | exact Nat.succ_pos _ | skip
  · dsimp only; split <;> decide
  · unfold Style.effects; split <;> exact h
  all_goals (unfold Style.graphics; split; (split <;> exact h); exact h)

theorem getOr_nat (data : List Byte) (k : Nat) : (getOr data k 0).toNat = param data k := by
  unfold getOr param; rw [List.getD_eq_getElem?_getD]

theorem param_lt (data : List Byte) (k : Nat) : param data k < 256 := by
  rw [← getOr_nat]; exact (getOr data k 0).toNat_lt

/-- A byte as the number of a feed. -/
theorem asU32_byte (b : Byte) : asU32 (b.toNat : Int) = b.toNat := by
  have : b.toNat < 256 := b.toNat_lt
  unfold asU32 U32
  omega

theorem getPos_param (data : List Byte) : getPos data = param data 0 + 256 * param data 1 := by
  unfold getPos; rw [getOr_nat, getOr_nat, Nat.mul_comm]

/-- To the other medium. -/
theorem OnDesk.switch {d : Desk} {c : Context} (h : OnDesk d c) :
    OnDesk d.switch (c.modPage fun p => { p with enabled := !d.onPage }) := by
  refine ⟨rfl, h.width, h.unit, h.vunit, h.tabs, h.len, ?_, ?_, ?_, ?_, h.pageW, h.pageArea, h.area, h.direction⟩
  · have := h.paperX; cases ho : d.onPage <;> simpa [Desk.switch, Context.modPage, ho] using this
  · have := h.paperY; cases ho : d.onPage <;> simpa [Desk.switch, Context.modPage, ho] using this
  · have := h.pageX; cases ho : d.onPage <;> simpa [Desk.switch, Context.modPage, ho] using this
  · have := h.pageY; cases ho : d.onPage <;> simpa [Desk.switch, Context.modPage, ho] using this

theorem setXAbsolute_normal {p p' : PageModeContext} {x : Nat} (hd : p.direction = .topLeft2Right) (h : p.setXAbsolute x = .ok p') :
    p' = { p with renderArea := { p.renderArea with x := p.pageArea.x + x } } := by
  obtain ⟨en, la, ra, pa, dir, prev⟩ := p
  dsimp only at hd
  subst hd
  simp only [PageModeContext.setXAbsolute, bind_ok, pure_ok, addU32_ok] at h
  obtain ⟨_, ⟨_, rfl⟩, rfl⟩ := h
  rfl

theorem setYAbsolute_normal {p p' : PageModeContext} {y : Nat} (hd : p.direction = .topLeft2Right) (h : p.setYAbsolute y = .ok p') :
    p' = { p with renderArea := { p.renderArea with y := p.pageArea.y + y } } := by
  obtain ⟨en, la, ra, pa, dir, prev⟩ := p
  dsimp only at hd
  subst hd
  simp only [PageModeContext.setYAbsolute, bind_ok, pure_ok, addU32_ok] at h
  obtain ⟨_, ⟨_, rfl⟩, rfl⟩ := h
  rfl

/-- The commands that act on the position. -/
theorem pos_context {d0 d : Desk} {cmd : Command} {c c' : Context} (hc : Known cmd) (ht : d0.allows cmd.commands cmd.data) (hb : ¬ cmd.isBegin)
    (hf : d = d0.flush)
    (hk : cmd.kind = .context) (hd : OnDesk d c) (h : applyContext ext cmd c = .ok c') : OnDesk (d.move cmd.commands cmd.data) c' := by
  have ef1 : d.onPage = d0.onPage := by rw [hf]; rfl
  have ef2 : d.page = d0.page := by rw [hf]; rfl
  have one : ∀ n, n / (1 : Byte).toNat = n := fun n => Nat.div_one n
  by_cases h1 : cmd.commands = [27, 36]
  · have hder := known_derived (b := setHorizontalPosCmd) (by decide +kernel) hc h1
    have hh : cmd.handler = .unit .setHorizontalPos := derived_unit hder rfl
    simp only [applyContext, hh, applyUnit, Context.setXAbsolute, bind_ok, divU_ok] at h
    obtain ⟨x, ⟨_, rfl⟩, h⟩ := h
    rw [hd.unit, one, getPos_param] at h
    rw [h1] at ht ⊢
    have key : c' = c.putX (d.left + (param cmd.data 0 + 256 * param cmd.data 1)) := by
      by_cases hp : c.pageMode.enabled = true
      · rw [if_pos hp] at h
        simp only [bind_ok, pure_ok] at h
        obtain ⟨p, hp2, rfl⟩ := h
        have hon : d0.onPage = true := by rw [← ef1, ← hd.mode]; exact hp
        have hdir : c.pageMode.direction = .topLeft2Right := by rw [hd.direction, ef2]; exact ht hon
        rw [setXAbsolute_normal hdir hp2, ← hd.baseX]
        unfold Context.putX Context.baseX
        rw [if_pos hp, if_pos hp]
      · rw [if_neg hp, pure_ok] at h
        subst h
        rw [← hd.baseX]
        unfold Context.baseX
        rw [if_neg hp, Nat.zero_add]
    rw [key]
    exact hd.putX _
  by_cases h2 : cmd.commands = [27, 83]
  · have hder := known_derived (b := selectStandardModeCmd) (by decide +kernel) hc h2
    have hh : cmd.handler = .unit .selectStandardMode := derived_unit hder rfl
    simp only [applyContext, hh, applyUnit, pure_ok] at h
    subst h
    rw [h2]
    show OnDesk (if d.onPage = true then d.switch else d) _
    have hm := hd.mode
    split
    · next ho => have := hd.switch; rw [ho] at this; exact this
    · next ho =>
      rw [Bool.not_eq_true] at ho
      have : (c.modPage fun p => { p with enabled := false }) = c := by
        unfold Context.modPage; rw [← ho, ← hm]
      rw [this]; exact hd
  by_cases h3 : cmd.commands = [29, 36]
  · have hder := known_derived (b := setVerticalPosCmd) (by decide +kernel) hc h3
    have hh : cmd.handler = .unit .setVerticalPos := derived_unit hder rfl
    simp only [applyContext, hh, applyUnit] at h
    rw [h3] at ht ⊢
    show OnDesk (if d.onPage = true then { d with y := d.page.field.y + (param cmd.data 0 + 256 * param cmd.data 1) } else d) _
    have hm := hd.mode
    rw [hm] at h
    split
    · next ho =>
      rw [if_pos ho] at h
      simp only [Context.setYAbsolute, bind_ok, divU_ok] at h
      obtain ⟨x, ⟨_, rfl⟩, h⟩ := h
      rw [hd.vunit, one, getPos_param, hm, if_pos ho] at h
      simp only [bind_ok, pure_ok] at h
      obtain ⟨p, hp2, rfl⟩ := h
      have hdir : c.pageMode.direction = .topLeft2Right := by rw [hd.direction, ef2]; exact ht (by rw [← ef1]; exact ho)
      rw [setYAbsolute_normal hdir hp2]
      have := hd.putY (d.page.field.y + (param cmd.data 0 + 256 * param cmd.data 1))
      unfold Context.putY at this
      rw [hm, if_pos ho] at this
      have e : c.pageMode.pageArea.y = d.page.field.y := by rw [hd.pageArea]
      rw [e]
      exact this
    · next ho => rw [if_neg ho, pure_ok] at h; subst h; exact hd
  by_cases h4 : cmd.commands = [29, 92]
  · have hder := known_derived (b := offsetVerticalPosCmd) (by decide +kernel) hc h4
    have hh : cmd.handler = .unit .offsetVerticalPos := derived_unit hder rfl
    simp only [applyContext, hh, applyUnit] at h
    rw [h4] at ht ⊢
    show OnDesk (if d.onPage = true then { d with y := if param cmd.data 1 < 128 then d.y + (param cmd.data 0 + 256 * param cmd.data 1)
      else d.y - (65536 - (param cmd.data 0 + 256 * param cmd.data 1)) } else d) _
    have hm := hd.mode
    rw [hm] at h
    split
    · next ho =>
      rw [if_pos ho] at h
      have hy : d.y < 2 ^ 31 := by rw [hf]; exact ht (by rw [← ef1]; exact ho)
      simp only [Context.offsetYRelative, divI16, bind_ok, pure_ok] at h
      obtain ⟨x, hx, y, hy2, rfl⟩ := h
      rw [hd.vunit, if_neg (by decide), ok_ok] at hx
      have hx : x = getPosI16 cmd.data := by
        rw [← hx]; exact Int.tdiv_one _
      rw [hd.getY] at hy2
      unfold addClamp at hy2
      rw [if_pos (show d.y < 2147483648 from hy)] at hy2
      dsimp only at hy2
      split at hy2
      · rw [ok_ok] at hy2
        have e : (if param cmd.data 1 < 128 then d.y + (param cmd.data 0 + 256 * param cmd.data 1)
            else d.y - (65536 - (param cmd.data 0 + 256 * param cmd.data 1))) = y := by
          rw [← hy2, hx]
          unfold getPosI16
          rw [getPos_param]
          have := param_lt cmd.data 0
          have := param_lt cmd.data 1
          split <;> split <;> omega
        rw [e]
        exact hd.putY y
      · cases hy2
    · next ho => rw [if_neg ho, pure_ok] at h; subst h; exact hd
  have h5 : cmd.commands ≠ [29, 80] := by intro h; rw [h] at ht; exact ht
  have ho := kind_movers hc .context [[27, 36], [27, 83], [29, 36], [29, 92], [29, 80]] (by decide +kernel) hk (by
    simp only [List.mem_cons, List.not_mem_nil, or_false, not_or]; exact ⟨h1, h2, h3, h4, h5⟩)
  rw [move_other ho]
  exact hd.apply (known_movers hc ho hb) h

theorem pos_control {d : Desk} {cmd : Command} {c0 c c' : Context} {o} (hc : Known cmd) (ht : cmd.commands ≠ [27, 101]) (hb : ¬ cmd.isBegin)
    (hk : cmd.kind = .control) (hd : OnDesk d c) (hs : Styled d.style c) (h0 : c0.pageMode.enabled = d.onPage) (hg : getDevice cmd c0 = .ok o)
    (h : (o.getD []).foldlM (fun c d => deviceContext d c) c = .ok c') : OnDesk (d.move cmd.commands cmd.data) c' := by
  have hsp := spacing hs
  by_cases h1 : cmd.commands = [27, 74]
  · have hder := known_derived (b := printAndFeedCmd) (by decide +kernel) hc h1
    have hh : cmd.handler = .unit .printAndFeed := derived_unit hder rfl
    simp only [getDevice, hh, getDeviceUnit, pure_ok] at hg
    subst hg
    simp only [Option.getD_some, List.foldlM_cons, List.foldlM_nil, bind_ok, pure_ok, deviceContext] at h
    obtain ⟨_, h, rfl⟩ := h
    rw [asU32_byte, getOr_nat] at h
    rw [h1]
    exact hd.feed h
  by_cases h2 : cmd.commands = [27, 100]
  · have hder := known_derived (b := printAndFeedLinesCmd) (by decide +kernel) hc h2
    have hh : cmd.handler = .unit .printAndFeedLines := derived_unit hder rfl
    simp only [getDevice, hh, getDeviceUnit, pure_ok] at hg
    subst hg
    simp only [Option.getD_some, List.foldlM_cons, List.foldlM_nil, bind_ok, pure_ok, deviceContext] at h
    obtain ⟨_, h, rfl⟩ := h
    rw [asU32_byte, getOr_nat] at h
    rw [h2]
    have := hd.newline h
    rw [hsp] at this
    exact this
  by_cases h3 : cmd.commands = [29, 86]
  · have hder := known_derived (b := feedAndCutCmd) (by decide +kernel) hc h3
    have hh : cmd.handler = .unit .feedAndCut := derived_unit hder rfl
    simp only [getDevice, hh, getDeviceUnit] at hg
    rw [h3]
    show OnDesk (if param cmd.data 0 = 0 ∨ param cmd.data 0 = 48 ∨ param cmd.data 0 = 1 ∨ param cmd.data 0 = 49 then d.feed (2 * d.style.lineSpacing)
      else if param cmd.data 0 = 65 ∨ param cmd.data 0 = 97 ∨ param cmd.data 0 = 103 ∨ param cmd.data 0 = 66 ∨ param cmd.data 0 = 98 ∨ param cmd.data 0 = 104 then
        d.feed (2 * d.style.lineSpacing + param cmd.data 1) else d) c'
    have hcut : ∀ {x c1}, x = DeviceCommand.fullCut ∨ x = .partialCut → deviceContext x c = .ok c1 → OnDesk (d.feed (2 * d.style.lineSpacing)) c1 := by
      intro x c1 hx hcx
      have : c.newline 2 = .ok c1 := by rcases hx with rfl | rfl <;> exact hcx
      have := hd.newline this
      rw [hsp] at this
      exact this
    have hfeed : ∀ {x c'}, x = DeviceCommand.fullCut ∨ x = .partialCut → [x, .feed ((getOr cmd.data 1 0).toNat : Int)].foldlM (fun c d => deviceContext d c) c = .ok c' →
        OnDesk (d.feed (2 * d.style.lineSpacing + param cmd.data 1)) c' := by
      intro x c' hx h
      simp only [List.foldlM_cons, List.foldlM_nil, bind_ok, pure_ok] at h
      obtain ⟨c1, a, c2, b, rfl⟩ := h
      have h1 := hcut hx a
      simp only [deviceContext] at b
      rw [asU32_byte, getOr_nat] at b
      have h2 := h1.feed b
      have : (d.feed (2 * d.style.lineSpacing)).feed (param cmd.data 1) = d.feed (2 * d.style.lineSpacing + param cmd.data 1) := by
        simp only [Desk.feed]; rw [Nat.add_assoc]
      rw [← this]
      exact h2
    have hp : ∀ b : Byte, getOr cmd.data 0 0 = b ↔ param cmd.data 0 = b.toNat := by
      intro b; rw [← getOr_nat]; exact UInt8.toNat_inj.symm
    simp only [hp] at hg
    simp only [show (0 : Byte).toNat = 0 from rfl, show (48 : Byte).toNat = 48 from rfl, show (1 : Byte).toNat = 1 from rfl,
      show (49 : Byte).toNat = 49 from rfl, show (65 : Byte).toNat = 65 from rfl, show (97 : Byte).toNat = 97 from rfl,
      show (103 : Byte).toNat = 103 from rfl, show (66 : Byte).toNat = 66 from rfl, show (98 : Byte).toNat = 98 from rfl,
      show (104 : Byte).toNat = 104 from rfl] at hg
    split at hg
    · rw [pure_ok] at hg; subst hg
      rw [if_pos (by omega)]
      simp only [Option.getD_some, List.foldlM_cons, List.foldlM_nil, bind_ok, pure_ok] at h
      obtain ⟨_, h, rfl⟩ := h
      exact hcut (.inl rfl) h
    split at hg
    · rw [pure_ok] at hg; subst hg
      rw [if_pos (by omega)]
      simp only [Option.getD_some, List.foldlM_cons, List.foldlM_nil, bind_ok, pure_ok] at h
      obtain ⟨_, h, rfl⟩ := h
      exact hcut (.inr rfl) h
    split at hg
    · rw [pure_ok] at hg; subst hg
      rw [if_neg (by omega), if_pos (by omega)]
      exact hfeed (.inl rfl) h
    split at hg
    · rw [pure_ok] at hg; subst hg
      rw [if_neg (by omega), if_pos (by omega)]
      exact hfeed (.inr rfl) h
    · rw [pure_ok] at hg; subst hg
      rw [if_neg (by omega), if_neg (by omega)]
      rw [Option.getD_none, List.foldlM_nil, pure_ok] at h; subst h; exact hd
  have hprint : ∀ {c1 c2 : Context} {d1 : Desk}, OnDesk d1 c1 → deviceContext .printPageMode c1 = .ok c2 →
      OnDesk (if d1.onPage then { d1 with kept := (0, d1.kept.2 + d1.page.h) } else d1.feed d1.page.h) c2 := by
    intro c1 c2 d1 h1 h2
    simp only [deviceContext, bind_ok, addU32_ok, ok_ok] at h2
    obtain ⟨y, ⟨_, rfl⟩, rfl⟩ := h2
    cases ho : d1.onPage
    · have e1 := h1.paperY
      have e2 := h1.pageX
      have e3 := h1.pageY
      have e4 := h1.pageArea
      have e5 := h1.mode
      refine ⟨?_, h1.width, h1.unit, h1.vunit, h1.tabs, h1.len, ?_, ?_, ?_, ?_, h1.pageW, h1.pageArea, h1.area, h1.direction⟩ <;>
        simp_all [Context.modGraphics, Desk.feed]
    · have e1 := h1.paperY
      have e2 := h1.pageX
      have e3 := h1.pageY
      have e4 := h1.pageArea
      have e5 := h1.mode
      refine ⟨?_, h1.width, h1.unit, h1.vunit, h1.tabs, h1.len, ?_, ?_, ?_, ?_, h1.pageW, h1.pageArea, h1.area, h1.direction⟩ <;>
        simp_all [Context.modGraphics]
  by_cases h4 : cmd.commands = [12]
  · have hder := known_derived (b := formfeedCmd) (by decide +kernel) hc h4
    have hh : cmd.handler = .unit .formfeed := derived_unit hder rfl
    simp only [getDevice, hh, getDeviceUnit] at hg
    rw [h4]
    show OnDesk (if d.onPage = true then d.switch.feed d.page.h else d) _
    rw [h0] at hg
    split
    · next ho =>
      rw [if_pos ho, pure_ok] at hg
      subst hg
      simp only [Option.getD_some, List.foldlM_cons, List.foldlM_nil, bind_ok, pure_ok] at h
      obtain ⟨c1, h1, c2, h2, rfl⟩ := h
      simp only [deviceContext, ok_ok] at h1
      subst h1
      have hsw := hd.switch
      rw [ho] at hsw
      have := hprint hsw h2
      rw [if_neg (show ¬ d.switch.onPage = true by simp [Desk.switch, ho])] at this
      exact this
    · next ho =>
      rw [if_neg ho, pure_ok] at hg
      subst hg
      exact hd.devices (by simp [Still]) h
  by_cases h5 : cmd.commands = [27, 12]
  · have hder := known_derived (b := pageModePrintDataCmd) (by decide +kernel) hc h5
    have hh : cmd.handler = .unit .pageModePrintData := derived_unit hder rfl
    simp only [getDevice, hh, getDeviceUnit] at hg
    rw [h5]
    show OnDesk (if d.onPage = true then { d with kept := (0, d.kept.2 + d.page.h) } else d) _
    rw [h0] at hg
    split
    · next ho =>
      rw [if_pos ho, pure_ok] at hg
      subst hg
      simp only [Option.getD_some, List.foldlM_cons, List.foldlM_nil, bind_ok, pure_ok] at h
      obtain ⟨c2, h2, rfl⟩ := h
      have := hprint hd h2
      rw [if_pos ho] at this
      exact this
    · next ho =>
      rw [if_neg ho, pure_ok] at hg
      subst hg
      exact hd.devices (by simp [Still]) h
  have ho := kind_movers hc .control [[27, 74], [27, 100], [29, 86], [12], [27, 12], [27, 101]] (by decide +kernel) hk (by
    simp only [List.mem_cons, List.not_mem_nil, or_false, not_or]; exact ⟨h1, h2, h3, h4, h5, ht⟩)
  rw [move_other ho]
  exact hd.devices (getDevice_still hg (known_movers hc ho hb)) h

theorem pos_textStyle {d : Desk} {cmd : Command} {c c1 c' : Context} {o} (hc : Known cmd) (hb : ¬ cmd.isBegin)
    (hk : cmd.kind = .textStyle) (hd : OnDesk d c) (hs : c.default = some defaultSettings) (ha : applyContext ext cmd c = .ok c1) (hg : getDevice cmd c1 = .ok o)
    (h : (o.getD []).foldlM (fun c d => deviceContext d c) c1 = .ok c') : OnDesk (d.move cmd.commands cmd.data) c' := by
  by_cases h1 : cmd.commands = [27, 68]
  · have hder := known_derived (b := setTabLenCmd) (by decide +kernel) hc h1
    have hh : cmd.handler = .unit .setTabLen := derived_unit hder rfl
    simp only [applyContext, hh, applyUnit, pure_ok] at ha
    subst ha
    simp only [getDevice, hh, getDeviceUnit, bind_ok, pure_ok, Context.defaultUnwrap, hs, ok_ok] at hg
    obtain ⟨_, rfl, rfl⟩ := hg
    simp only [Option.getD_some, List.foldlM_cons, List.foldlM_nil, bind_ok, pure_ok, deviceContext, ok_ok] at h
    obtain ⟨_, rfl, rfl⟩ := h
    rw [h1]
    have e : ∀ k, getOr cmd.data k defaultSettings.text.lineSpacing = cmd.data.getD k 24 := by
      intro k; unfold getOr; rw [List.getD_eq_getElem?_getD]; rfl
    rw [e, e]
    have hl : c.text.tabs.length = 32 := by rw [← hd.len, ← hd.tabs, List.length_map]
    have ht : (c.setTabLen (cmd.data.getD 0 24) (cmd.data.getD 1 24)) =
        { c with text := { c.text with tabs := c.text.tabs.set (cmd.data.getD 1 24).toNat (cmd.data.getD 0 24) } } := by
      unfold Context.setTabLen
      split
      · rfl
      · next hlt => rw [List.set_eq_of_length_le (by rw [hl] at hlt ⊢; omega)]
    rw [ht]
    refine ⟨hd.mode, hd.width, hd.unit, hd.vunit, ?_, ?_, hd.paperX, hd.paperY, hd.pageX, hd.pageY, hd.pageW, hd.pageArea, hd.area, hd.direction⟩
    · show _ = d.tabs.set _ _
      rw [← hd.tabs, ← List.map_set]
    · show (d.tabs.set _ _).length = 32
      rw [List.length_set]; exact hd.len
  have ho := kind_movers hc .textStyle [[27, 68]] (by decide +kernel) hk (by simpa using h1)
  rw [move_other ho]
  have hm := known_movers hc ho hb
  exact (hd.apply hm ha).devices (getDevice_still hg hm) h

theorem textStyle_edges {d : Desk} {cmd : Command} (hc : Known cmd) (hk : cmd.kind = .textStyle) :
    (d.move cmd.commands cmd.data).left = d.left ∧ (d.move cmd.commands cmd.data).width = d.width := by
  by_cases h1 : cmd.commands = [27, 68]
  · rw [h1]; exact ⟨rfl, rfl⟩
  · have ho := kind_movers hc .textStyle [[27, 68]] (by decide +kernel) hk (by simpa using h1)
    rw [move_other ho]; exact ⟨rfl, rfl⟩

/-- The print area is put in place. -/
theorem OnDesk.place {d : Desk} {c : Context} {p : PageSetup} {q : PageModeContext} {x} (hd : OnDesk d c)
    (h : q.applyLogicalArea = .ok x) (hen : q.enabled = true) (hon : d.onPage = true) (ha : q.logicalArea = areaOf p.area)
    (hdir : q.direction = p.direction) (hpl : p.placeable)
    (hsw : ((swapPage q).pageArea.w = p.w ∧ (swapPage q).pageArea.h = p.h)) :
    OnDesk (d.start p) { c with pageMode := x.1 } := by
  simp only [PageModeContext.applyLogicalArea, bind_ok, addU32_ok, pure_ok] at h
  obtain ⟨q1, h1, w, ⟨_, rfl⟩, hh, ⟨_, rfl⟩, rfl⟩ := h
  have es : swapPage q = { q with pageArea := ⟨q.pageArea.x, q.pageArea.y, p.w, p.h⟩ } := by
    obtain ⟨w, h, e, _⟩ := swapPage_eq q
    rw [e] at hsw ⊢
    obtain ⟨rfl, rfl⟩ := hsw
    rfl
  have key : q1 = { q with
      pageArea := ⟨q.pageArea.x, q.pageArea.y, p.w, p.h⟩
      renderArea := areaOf p.place.field } ∧ max (p.place.field.x + p.place.field.w) p.w = p.place.w ∧
      max (p.place.field.y + p.place.field.h) p.h = p.place.h := by
    rw [es] at h1
    obtain ⟨en, la, ra, pa, dir, prev⟩ := q
    obtain ⟨pdir, par, pw, ph, pf⟩ := p
    dsimp only at h1 ha hdir
    subst ha hdir
    unfold translateArea at h1
    unfold PageSetup.placeable PageSetup.needs at hpl
    unfold PageSetup.place PageSetup.needs
    cases dir
    all_goals simp only [translateTopLeftToRight, translateBottomRightToLeft, translateTopRightToBottom, translateBottomLeftToTop, pure_ok, bind_ok,
      addU32_ok, areaOf] at h1
    all_goals simp only [across, seen, if_true, Bool.false_eq_true, if_false, areaOf] at hpl ⊢
    · subst h1
      exact ⟨rfl, by omega, by omega⟩
    · obtain ⟨_, ⟨_, rfl⟩, rfl⟩ := h1
      refine ⟨?_, by omega, by omega⟩
      simp only [PageModeContext.mk.injEq, RenderArea.mk.injEq, true_and, and_true]
      omega
    · obtain ⟨_, ⟨_, rfl⟩, _, ⟨_, rfl⟩, rfl⟩ := h1
      refine ⟨?_, by omega, by omega⟩
      simp only [PageModeContext.mk.injEq, RenderArea.mk.injEq, true_and, and_true]
      omega
    · obtain ⟨_, ⟨_, rfl⟩, rfl⟩ := h1
      refine ⟨?_, by omega, by omega⟩
      simp only [PageModeContext.mk.injEq, RenderArea.mk.injEq, true_and, and_true]
      omega
  obtain ⟨rfl, k1, k2⟩ := key
  dsimp only [areaOf]
  rw [k1, k2]
  have hon' : (d.start p).onPage = true := hon
  have es' : d.start p = { d with
      page := p.place
      x := 0
      y := p.place.field.y } := by
    unfold Desk.start; rw [if_pos hon, if_pos hon, if_pos hon]
  refine ⟨hen.trans hon.symm, hd.width, hd.unit, hd.vunit, hd.tabs, hd.len, ?_, ?_, ?_, ?_, rfl, rfl, ha, hdir⟩
  · rw [if_pos hon', hd.paperX, if_pos hon]; rw [es']
  · rw [if_pos hon', hd.paperY, if_pos hon]; rw [es']
  · rw [if_pos hon']; rw [es']; rfl
  · rw [if_pos hon']; rw [es']

theorem parseU16_param (data : List Byte) (k : Nat) : parseU16 data k = param data k + 256 * param data (k + 1) := by
  unfold parseU16
  dsimp only
  rw [getOr_nat, getOr_nat, Nat.shiftLeft_eq, Nat.mul_comm _ (2 ^ 8), ← Nat.two_pow_add_eq_or_of_lt (i := 8) (param_lt data k)]
  omega

theorem parseDirection_spec {n : Byte} {t : PrintDirection} (h : printDirection n.toNat = some t) : parseDirection n = t := by
  have key : ∀ n : Byte, printDirection n.toNat = none ∨ printDirection n.toNat = some (parseDirection n) := byte_all (by decide +kernel)
  rcases key n with k | k <;> rw [h] at k
  · cases k
  · exact (Option.some.inj k).symm

theorem across_swap (d : PrintDirection) : shouldDimensionSwap d = !across d := by cases d <;> rfl

theorem pos_contextControl {d0 d : Desk} {cmd : Command} {c c1 c' : Context} {o} (hc : Known cmd) (ht : d0.allows cmd.commands cmd.data)
    (hf : d = d0.flush) (hb : ¬ cmd.isBegin)
    (hk : cmd.kind = .contextControl) (hd : OnDesk d c) (hs : c.default = some defaultSettings) (ha : applyContext ext cmd c = .ok c1)
    (hg : getDevice cmd c1 = .ok o)
    (h : (o.getD []).foldlM (fun c d => deviceContext d c) c1 = .ok c') : OnDesk (d.move cmd.commands cmd.data) c' := by
  have ef1 : d.onPage = d0.onPage := by rw [hf]; rfl
  have ef2 : d.page = d0.page := by rw [hf]; rfl
  have hm := hd.mode
  by_cases h1 : cmd.commands = [27, 64]
  · have hder := known_derived (b := initializeCmd) (by decide +kernel) hc h1
    have hh : cmd.handler = .unit .initialize := derived_unit hder rfl
    simp only [applyContext, hh, applyUnit, pure_ok] at ha
    subst ha
    simp only [getDevice, hh, getDeviceUnit, pure_ok] at hg
    subst hg
    simp only [Option.getD_some, List.foldlM_cons, List.foldlM_nil, bind_ok, pure_ok, deviceContext, ok_ok] at h
    obtain ⟨_, rfl, rfl⟩ := h
    rw [h1]
    show OnDesk (if d.onPage = true then { d with
        tabs := initialTabs
        kept := (0, 60) } else { d with
        tabs := initialTabs
        x := 0
        y := 60 }) _
    simp only [Context.reset, hs]
    split
    · next ho =>
      refine ⟨hd.mode, rfl, rfl, rfl, rfl, rfl, ?_, ?_, ?_, ?_, hd.pageW, hd.pageArea, hd.area, hd.direction⟩
      · rw [if_pos (by exact ho)]; rfl
      · rw [if_pos (by exact ho)]; rfl
      · rw [if_pos (by exact ho), hd.pageX, if_pos ho]
      · rw [if_pos (by exact ho), hd.pageY, if_pos ho]
    · next ho =>
      refine ⟨hd.mode, rfl, rfl, rfl, rfl, rfl, ?_, ?_, ?_, ?_, hd.pageW, hd.pageArea, hd.area, hd.direction⟩
      · rw [if_neg (by exact ho)]; rfl
      · rw [if_neg (by exact ho)]; rfl
      · rw [if_neg (by exact ho), hd.pageX, if_neg ho]
      · rw [if_neg (by exact ho), hd.pageY, if_neg ho]
  by_cases h2 : cmd.commands = [27, 76]
  · have hder := known_derived (b := setPageModeCmd) (by decide +kernel) hc h2
    have hh : cmd.handler = .unit .setPageMode := derived_unit hder rfl
    simp only [applyContext, hh, applyUnit, pure_ok] at ha
    subst ha
    simp only [getDevice, hh, getDeviceUnit, pure_ok] at hg
    subst hg
    simp only [Option.getD_some, List.foldlM_cons, List.foldlM_nil, bind_ok, pure_ok, deviceContext, ok_ok] at h
    obtain ⟨_, rfl, rfl⟩ := h
    rw [h2]
    show OnDesk (if d.onPage = true then d else d.switch) _
    split
    · next ho =>
      have : (c.modPage fun p => { p with enabled := true }) = c := by
        unfold Context.modPage; rw [← ho, ← hm]
      rw [this]; exact hd
    · next ho =>
      rw [Bool.not_eq_true] at ho
      have := hd.switch; rw [ho] at this; exact this
  by_cases h3 : cmd.commands = [27, 87]
  · have hder := known_derived (b := pageModePrintAreaCmd) (by decide +kernel) hc h3
    have hh : cmd.handler = .unit .pageModePrintArea := derived_unit hder rfl
    rw [h3] at ht ⊢
    obtain ⟨ht1, ht2⟩ := ht
    have hon : d.onPage = true := by rw [ef1]; exact ht1
    rw [← ef2] at ht2
    have one : ∀ n, n / (1 : Byte).toNat = n := fun n => Nat.div_one n
    simp only [applyContext, hh, applyUnit] at ha
    rw [hm, if_pos hon] at ha
    simp only [Context.setPageArea, calculatePageArea, bind_ok, divU_ok, pure_ok, hd.unit, hd.vunit, one, parseU16_param] at ha
    obtain ⟨_, ⟨_, rfl⟩, _, ⟨_, rfl⟩, _, ⟨_, rfl⟩, _, ⟨_, rfl⟩, rfl⟩ := ha
    simp only [getDevice, hh, getDeviceUnit, pure_ok] at hg
    subst hg
    simp only [Option.getD_some, List.foldlM_cons, List.foldlM_nil, bind_ok, pure_ok, deviceContext, ok_ok] at h
    obtain ⟨_, ⟨x, h, rfl⟩, rfl⟩ := h
    refine hd.place (c := c) h (hm.trans hon) hon rfl hd.direction ht2 ?_
    unfold swapPage
    dsimp only
    rw [if_neg (by simp)]
    dsimp only
    rw [hd.pageArea]
    exact ⟨rfl, rfl⟩
  by_cases h4 : cmd.commands = [27, 84]
  · have hder := known_derived (b := pageModePrintDirectionCmd) (by decide +kernel) hc h4
    have hh : cmd.handler = .unit .pageModePrintDirection := derived_unit hder rfl
    rw [h4] at ht ⊢
    obtain ⟨ht1, ht2⟩ := ht
    have hon : d.onPage = true := by rw [ef1]; exact ht1
    rw [← ef2] at ht2
    show OnDesk (((printDirection (param cmd.data 0)).map fun t => d.start (d.page.turn t)).getD d) _
    cases ht3 : printDirection (param cmd.data 0) with
    | none => rw [ht3] at ht2; exact ht2.elim
    | some t =>
      rw [ht3] at ht2
      have ht2 : (d.page.turn t).placeable := ht2
      rw [Option.map_some, Option.getD_some]
      rw [← getOr_nat] at ht3
      simp only [applyContext, hh, applyUnit] at ha
      rw [hm, if_pos hon, pure_ok, parseDirection_spec ht3] at ha
      subst ha
      simp only [getDevice, hh, getDeviceUnit, pure_ok] at hg
      subst hg
      simp only [Option.getD_some, List.foldlM_cons, List.foldlM_nil, bind_ok, pure_ok, deviceContext, ok_ok] at h
      obtain ⟨_, ⟨x, h, rfl⟩, rfl⟩ := h
      refine hd.place (c := c) h (hm.trans hon) hon ?_ ?_ ht2 ?_
      · refine Eq.trans hd.area ?_
        unfold PageSetup.turn; split <;> rfl
      · show t = _
        unfold PageSetup.turn; split <;> rfl
      · unfold swapPage PageSetup.turn Context.modPage
        dsimp only
        rw [across_swap, across_swap, hd.direction, hd.pageArea]
        cases across d.page.direction <;> cases across t <;> exact ⟨rfl, rfl⟩
  have ho := kind_movers hc .contextControl [[27, 64], [27, 76], [27, 87], [27, 84]] (by decide +kernel) hk (by
    simp only [List.mem_cons, List.not_mem_nil, or_false, not_or]; exact ⟨h1, h2, h3, h4⟩)
  rw [move_other ho]
  have hmv := known_movers hc ho hb
  exact (hd.apply hmv ha).devices (getDevice_still hg hmv) h

theorem idle_op {cmd : Command} (hc : Known cmd) (hk : cmd.kind = .unknown ∨ cmd.kind = .subcommand) : cmd.commands ∉ moveOpcodes := by
  rcases hk with hk | hk <;> exact kind_movers hc _ [] (by decide +kernel) hk (by simp)

/-- One command. -/
theorem desk_step {d : Desk} {cmd : Command} {r r' : Recording} (hc : Known cmd) (hgr : cmd.kind ≠ .graphics)
    (ht : d.allows cmd.commands cmd.data) (hb : ¬ cmd.isBegin)
    (hd : AtDesk d r) (hdev : ¬ d.style.deviates cmd.commands cmd.data) (hcut : Run.sets d.left d.width (d.style.textOf cmd, d.style.look))
    (h : processCommand recorder ext r cmd = .ok r') : AtDesk (d.step cmd) r' := by
  have hst := styled_step hc hd.styled hdev h
  have hlim : Limits r'.context := processCommand_rel (P := fun c c' => Limits c → Limits c') (fun _ h => h) (fun f g h => g (f h))
    Limits.pen Limits.apply (fun _ _ _ _ _ => Limits.device) h hd.limits
  suffices key : ∀ d', Settled d' r' → d.step cmd = { d' with style := d.style.step cmd.commands cmd.data } → AtDesk (d.step cmd) r' by
    by_cases hk : cmd.kind = .text
    · refine key { d with waiting := d.waiting ++ [(d.style.textOf cmd, d.style.look)] } ?_ (by unfold Desk.step; rw [if_pos hk])
      obtain ⟨o, h1, rfl⟩ := processCommand_text h hk
      rw [getText_new hd.styled hc hk, ok_ok] at h1
      subst h1
      have hrun : runOf (TextSpan.new (d.style.textOf cmd) r.context) = (d.style.textOf cmd, d.style.look) := by
        unfold runOf; rw [look_new hd.styled hd.limits]; rfl
      have hp := hd.pos
      refine ⟨⟨hp.1, hp.2, hp.3, hp.4, hp.5, hp.6, hp.7, hp.8, hp.9, hp.10, hp.11, hp.12, hp.13, hp.14⟩, ?_, ?_, hd.lines⟩
      · simp only [Option.toList_some, List.map_append, List.map_cons, List.map_nil, hd.waiting, hrun]
      · intro t htm
        simp only [Option.toList_some, List.mem_append, List.mem_singleton] at htm
        rcases htm with htm | rfl
        · exact hd.settable t htm
        · refine ⟨?_, by rw [hrun]; exact hcut⟩
          have : (lookOf (TextSpan.new (d.style.textOf cmd) r.context)).cell.1 = d.style.look.cell.1 := by
            rw [look_new hd.styled hd.limits]
          show 0 < (lookOf (TextSpan.new (d.style.textOf cmd) r.context)).cell.1
          rw [this]
          refine Nat.mul_pos ?_ hd.wide
          cases d.style.font <;> decide
    have hset : Settled d r := ⟨hd.pos, hd.waiting, hd.settable, hd.lines⟩
    have hmove : ∀ d0 : Desk, ((d0.move cmd.commands cmd.data).waiting = d0.waiting ∧ (d0.move cmd.commands cmd.data).lines = d0.lines) :=
      fun d0 => move_waiting d0 _ _
    have hflushed : cmd.kind ≠ .textStyle → cmd.kind ≠ .subcommand →
        d.step cmd = { d.flush.move cmd.commands cmd.data with style := d.style.step cmd.commands cmd.data } := by
      intro h1 h2
      unfold Desk.step
      rw [if_neg hk, if_neg (by rintro (h | h); exacts [h1 h, h2 h])]
    have hdirect : cmd.kind = .textStyle ∨ cmd.kind = .subcommand →
        d.step cmd = { d.move cmd.commands cmd.data with style := d.style.step cmd.commands cmd.data } := by
      intro h1
      unfold Desk.step
      rw [if_neg hk, if_pos h1]
    rcases hk2 : cmd.kind
    case control =>
      obtain ⟨r1, o, a, b, c⟩ := control_step h hk2
      obtain ⟨f1, f2⟩ := hd.flush a
      refine key _ ?_ (hflushed (by simp [hk2]) (by simp [hk2]))
      have hne : cmd.commands ≠ [27, 101] := by intro h; rw [h] at ht; exact ht
      have hp := pos_control hc hne hb hk2 f1.pos f2 hd.pos.mode b (deviceCommands_context c)
      exact f1.after (c := r1.context) c hp (hmove _).1 (hmove _).2 (.inl rfl)
    case context =>
      obtain ⟨r1, a, b, c⟩ := context_step h hk2
      obtain ⟨f1, f2⟩ := hd.flush a
      refine key _ ?_ (hflushed (by simp [hk2]) (by simp [hk2]))
      have hp := pos_context hc ht hb rfl hk2 f1.pos b
      rw [c]
      exact f1.after (c := r'.context) (ds := []) rfl hp (hmove _).1 (hmove _).2 (.inl rfl)
    case contextControl =>
      obtain ⟨r1, c, o, a, b, e, g⟩ := contextControl_step h hk2
      obtain ⟨f1, f2⟩ := hd.flush a
      refine key _ ?_ (hflushed (by simp [hk2]) (by simp [hk2]))
      have hp := pos_contextControl hc ht rfl hb hk2 f1.pos f2.default b e (deviceCommands_context g)
      exact f1.after g hp (hmove _).1 (hmove _).2 (.inl rfl)
    case textStyle =>
      obtain ⟨c, o, a, b, e⟩ := textStyle_step h hk2
      refine key _ ?_ (hdirect (.inl hk2))
      have hp := pos_textStyle hc hb hk2 hd.pos hd.styled.default a b (deviceCommands_context e)
      exact hset.after e hp (hmove _).1 (hmove _).2 (.inr (textStyle_edges hc hk2))
    case graphics => exact absurd hk2 hgr
    case text => exact absurd hk2 hk
    case subcommand =>
      unfold processCommand at h; rw [hk2] at h; dsimp only at h; rw [pure_ok] at h; subst h
      refine key d hset ?_
      rw [hdirect (.inr hk2), move_other (idle_op hc (.inr hk2))]
    case unknown =>
      unfold processCommand at h; rw [hk2] at h; simp only [bind_ok, pure_ok] at h
      obtain ⟨r1, a, rfl⟩ := h
      obtain ⟨f1, f2⟩ := hd.flush a
      refine key d.flush ⟨f1.1, f1.2, f1.3, f1.4⟩ ?_
      rw [hflushed (by simp [hk2]) (by simp [hk2]), move_other (idle_op hc (.inl hk2))]
  intro d' hs he
  have h2 := hs.style (d.style.step cmd.commands cmd.data)
  rw [he]
  exact ⟨hst, hlim, wide_step hd.wide, h2.1, h2.2, h2.3, h2.4⟩

theorem desk_style (d : Desk) (c : Command) : (d.step c).style = d.style.step c.commands c.data := rfl

/-- Text streams stay on the paper. -/
theorem desk_paper {d : Desk} {c : Command} (ht : textOnly c = true) (hd : d.onPage = false) : (d.step c).onPage = false := by
  simp only [textOnly, Bool.decide_and, Bool.and_eq_true, decide_eq_true_eq] at ht
  obtain ⟨_, t1, t2, t3, t4, t5⟩ := ht
  have key : ∀ d : Desk, d.onPage = false → (d.move c.commands c.data).onPage = false := by
    intro d hd
    unfold Desk.move
    dsimp only
    split <;> first | exact hd | contradiction | skip
    all_goals (split <;> first | exact hd | simp_all)
    split <;> exact hd
  unfold Desk.step
  dsimp only
  split
  · exact hd
  · split
    · exact key _ hd
    · exact key _ hd

theorem desk_allows {d : Desk} {c : Command} (ht : textOnly c = true) (hd : d.onPage = false) : d.allows c.commands c.data := by
  simp only [textOnly, Bool.decide_and, Bool.and_eq_true, decide_eq_true_eq] at ht
  obtain ⟨_, t1, t2, t3, t4, t5⟩ := ht
  unfold Desk.allows
  split <;> simp_all

theorem desk_steps {d : Desk} {cmds : List Command} {r r' : Recording} (hc : ∀ c ∈ cmds, Known c) (ht : ∀ c ∈ cmds, textOnly c = true)
    (hb : ∀ c ∈ cmds, ¬ c.isBegin) (hd : AtDesk d r) (hpaper : d.onPage = false) (hdev : d.style.conforms cmds)
    (hcut : ∀ x ∈ runs d.style cmds, Run.cuts paperWidth x) (h : processCommands recorder ext cmds r = .ok r') : AtDesk (cmds.foldl Desk.step d) r' := by
  induction cmds generalizing d r with
  | nil => simp only [processCommands, ok_ok] at h; subst h; exact hd
  | cons c cs ih =>
    simp only [processCommands, bind_ok] at h
    obtain ⟨r1, h1, h2⟩ := h
    have hgr : c.kind ≠ .graphics := by
      have := ht c (by simp)
      simp only [textOnly, Bool.decide_and, Bool.and_eq_true, decide_eq_true_eq] at this
      exact this.1
    have hset : Run.sets d.left d.width (d.style.textOf c, d.style.look) := by
      unfold Desk.left Desk.width
      rw [hpaper]
      exact ⟨hcut _ (by simp [runs]), .inl rfl⟩
    have h3 := desk_step (hc c (by simp)) hgr (desk_allows (ht c (by simp)) hpaper) (hb c (by simp)) hd hdev.1 hset h1
    exact ih (fun x hx => hc x (by simp [hx])) (fun x hx => ht x (by simp [hx])) (fun x hx => hb x (by simp [hx])) h3
      (desk_paper (ht c (by simp)) hpaper)
      (by rw [desk_style]; exact hdev.2) (by rw [desk_style]; intro x hx; exact hcut x (by simp [runs, hx])) h2

/-- C78. The lines that an output renderer is told to draw for a stream of text, with the place of every piece of text, its characters and
their look, are exactly those of the reference typesetter, in its order: words are set one after another from the left edge, a word that
does not fit goes on the next line, a word too long for any line is cut, line feeds, tabs, feeds and positions move as documented,
and lines are justified within the width of the paper. -/
theorem C78_typeset {bytes : List Byte} {cmds : List Command} (hp : parseEscPos bytes = .ok cmds) (ht : ∀ c ∈ cmds, textOnly c = true)
    (hd : Style.initial.conforms cmds) (hcut : ∀ x ∈ runs .initial cmds, Run.cuts paperWidth x) {outs errs} {r : Recording}
    (h : render recorder ext (Renderer.new []) bytes = .ok (outs, errs, r)) :
    r.child.flatMap (fun x => callLines x.2) = (cmds.foldl Desk.step Desk.initial).lines := by
  simp only [render, bind_ok, pure_ok] at h
  obtain ⟨cmds', h1, r1, h2, h3⟩ := h
  rw [hp, ok_ok] at h1
  subst h1
  simp only [Prod.mk.injEq] at h3
  obtain ⟨rfl, rfl, rfl⟩ := h3
  obtain ⟨mid, e, hm⟩ := parseEscPos_framed hp
  have hknown := parse_known hp
  subst e
  rw [List.cons_append] at h2 hd hcut ht hknown ⊢
  simp only [processCommands, bind_ok] at h2
  obtain ⟨r0, h0, h2⟩ := h2
  have h00 : AtDesk Desk.initial r0 := by
    have : processCommand recorder ext (Renderer.new []) beginPrintCmd = .ok ⟨[(Context.new, .device .beginPrint), (r0.context, .beginRender)], [], [], [], r0.context⟩ ∧
        r0 = ⟨[(Context.new, .device .beginPrint), (r0.context, .beginRender)], [], [], [], r0.context⟩ ∧ r0.context = Context.new.putY 108 := by
      obtain ⟨r1, o, a, b, c⟩ := control_step h0 rfl
      have e1 : r1 = Renderer.new [] := by
        simp only [processText, Renderer.new, if_true, ok_ok] at a; exact a.symm
      subst e1
      simp only [getDevice, beginPrintCmd, getDeviceUnit, pure_ok] at b
      subst b
      simp only [Option.getD_some, deviceCommands, bind_ok, ok_ok, deviceCommand, recorder, pure_ok] at c
      obtain ⟨r2, ⟨s, rfl, k, hk, s2, rfl, rfl⟩, rfl⟩ := c
      have hk2 : k = Context.new.putY 108 := by
        have : Context.new.newline 2 = .ok (Context.new.putY 108) := by decide +kernel
        dsimp only [Renderer.new] at hk
        rw [this, ok_ok] at hk
        exact hk.symm
      subst hk2
      exact ⟨h0, rfl, rfl⟩
    obtain ⟨_, e1, e2⟩ := this
    rw [e1, e2]
    refine ⟨?_, ?_, by decide, ?_, rfl, by simp, rfl⟩
    · exact Styled.start.of_only (c' := Context.new.putY 108) (fs := [.paperY]) (by touch) (by decide)
    · exact Limits.start.of_only (c' := Context.new.putY 108) (fs := [.paperY]) (by touch) (by decide) (by decide) (by decide)
    · exact ⟨rfl, rfl, rfl, rfl, rfl, rfl, rfl, rfl, rfl, rfl, rfl, rfl, rfl, rfl⟩
  have key := desk_steps (fun c hc => hknown c (by simp [hc])) (fun c hc => ht c (by simp [hc])) (d := Desk.initial)
    (by
      intro c hc
      rcases List.mem_append.1 hc with h | h
      · exact (hm c h).1
      · simp only [List.mem_singleton] at h; subst h; unfold Command.isBegin; decide)
    h00 rfl hd.2 (fun x hx => hcut x (by rw [runs]; exact List.mem_cons_of_mem _ hx)) h2
  rw [List.foldl_cons]
  have hfirst : Desk.initial.step beginPrintCmd = Desk.initial := by decide +kernel
  rw [hfirst]
  exact key.lines

/-- `C78_typeset` on "ab", HT, "c", LF, `ESC a 2`, `GS ! 0x11`, "Hi", `ESC @`: the tab goes to the stop at 8 characters, the second
line is right-justified in double size. -/
example : ∃ cmds outs errs r, parseEscPos [97, 98, 9, 99, 10, 27, 97, 2, 29, 33, 17, 72, 105, 27, 64] = .ok cmds ∧
    (∀ c ∈ cmds, textOnly c = true) ∧ Style.initial.conforms cmds ∧ (∀ x ∈ runs .initial cmds, Run.cuts paperWidth x) ∧
    render recorder noExt (Renderer.new []) [97, 98, 9, 99, 10, 27, 97, 2, 29, 33, 17, 72, 105, 27, 64] = .ok (outs, errs, r) ∧
    (((cmds.foldl Desk.step Desk.initial).lines.flatMap TextLine.marks).map fun m => (m.ch, m.x, m.y, m.look.cell)) =
      [('a', 0, 108, 12, 24), ('b', 12, 108, 12, 24), ('c', 96, 108, 12, 24), ('H', 561, 132, 24, 48), ('i', 585, 132, 24, 48)] := by
  refine ⟨_, _, _, _, rfl, ?_, ?_, ?_, rfl, ?_⟩ <;> decide +kernel

/-- A word of 30 characters of double width is cut after 23 characters (it starts at dot 48). -/
example : ∃ cmds outs errs r, parseEscPos (29 :: 33 :: 16 :: 27 :: 36 :: 48 :: 0 :: List.replicate 30 97) = .ok cmds ∧
    (∀ c ∈ cmds, textOnly c = true) ∧ Style.initial.conforms cmds ∧ (∀ x ∈ runs .initial cmds, Run.cuts paperWidth x) ∧
    render recorder noExt (Renderer.new []) (29 :: 33 :: 16 :: 27 :: 36 :: 48 :: 0 :: List.replicate 30 97) = .ok (outs, errs, r) ∧
    (((cmds.foldl Desk.step Desk.initial).lines.flatMap TextLine.marks).map fun m => (m.x, m.y)) =
      (List.range 23).map (fun i => (48 + 24 * i, 108)) ++ (List.range 7).map (fun i => (24 * i, 132)) := by
  refine ⟨_, _, _, _, rfl, ?_, ?_, ?_, rfl, ?_⟩ <;> decide +kernel

/-- Why `GS P` is left out of C78.  `GS P 101 101` makes the unit 1/101 inch, two dots at 203 dots per inch, so `ESC $ 100` is
dot 200; the program divides where it should multiply and goes to dot 50. -/
theorem C78_unit_inverted : ∃ outs errs r,
    render recorder noExt (Renderer.new []) [29, 80, 101, 101, 27, 36, 100, 0, 65] = .ok (outs, errs, r) ∧
    ((r.child.flatMap (fun x => callLines x.2)).flatMap TextLine.marks).map (fun m => (m.ch, m.x)) = [('A', 50)] := by
  refine ⟨_, _, _, rfl, ?_⟩; decide +kernel

/-- Why long words of wide characters are left out of C78.  A word of 36 characters of 36 dots, for which 16 fit on a line, is cut
into an empty piece (at dot 600) and one of 36 characters that ends at dot 1296. -/
theorem C78_wide_not_cut : ∃ outs errs r,
    render recorder noExt (Renderer.new []) (29 :: 33 :: 0x20 :: 27 :: 36 :: 88 :: 2 :: List.replicate 36 97) = .ok (outs, errs, r) ∧
    (((r.child.flatMap (fun x => callLines x.2)).flatMap TextLine.marks).map (fun m => (m.x, m.y))).getLast? = some (1260, 132) := by
  refine ⟨_, _, _, rfl, ?_⟩; decide +kernel

/-- In the reference a tab goes to the next stop; here one sent at a stop (also at the start of a line) does not move. -/
theorem C78_tab_stays : ∃ outs errs r,
    render recorder noExt (Renderer.new []) [9, 65, 10, 27, 36, 96, 0, 9, 66] = .ok (outs, errs, r) ∧
    ((r.child.flatMap (fun x => callLines x.2)).flatMap TextLine.marks).map (fun m => (m.ch, m.x, m.y)) = [('A', 0, 108), ('B', 96, 132)] := by
  refine ⟨_, _, _, rfl, ?_⟩; decide +kernel

end Thermal
