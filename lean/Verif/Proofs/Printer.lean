import Verif.Proofs.PrinterPictures
import Verif.Props.Typeset
import Verif.Props.Drawing
import Verif.Props.Barcode
import Verif.Props.Qr
/-
The reference printer and the program, drawing by drawing.
-/
namespace Thermal
open Renderer Spec
variable {ext : Ext}

/-- What some calls are about. -/
def allActs (calls : List (Context × Call)) : List Act := calls.flatMap fun x => callActs x

theorem allActs_append (a b : List (Context × Call)) : allActs (a ++ b) = allActs a ++ allActs b := List.flatMap_append ..

theorem allLines_append (a b : List (Context × Call)) : allLines (a ++ b) = allLines a ++ allLines b := List.flatMap_append ..

/-- Lines that are put somewhere. -/
def linesOn (onPage : Bool) (ls : List TextLine) : List Act := ls.map fun l => .put onPage (.line l)

theorem text_acts {calls : List (Context × Call)} {b : Bool}
    (h : ∀ x ∈ calls, x.1.pageMode.enabled = b ∧ ∃ l o m j, x.2 = .text l o m j) : allActs calls = linesOn b (allLines calls) := by
  induction calls with
  | nil => rfl
  | cons x xs ih =>
    obtain ⟨e0, l, o, m, j, e⟩ := h x (by simp)
    have ih := ih (fun y hy => h y (by simp [hy]))
    unfold allActs allLines linesOn at ih ⊢
    rw [List.flatMap_cons, List.flatMap_cons, List.map_append, ih]
    congr 1
    simp only [callActs, callThings, e, e0, List.map_map]
    rfl

/-- The lines that text adds. -/
theorem processText_acts {r r' : Recording} (h : processText recorder r = .ok r') :
    ∃ new, allLines r'.child = allLines r.child ++ new ∧ allActs r'.child = allActs r.child ++ linesOn r.context.pageMode.enabled new := by
  by_cases hne : r.spanBuffer = []
  · unfold processText at h
    rw [if_pos hne, ok_ok] at h
    subst h
    exact ⟨[], by simp, by simp [linesOn]⟩
  obtain ⟨calls, l, ss, e1, _, _, _, _, _, _, _, e2⟩ := processText_calls h hne
  refine ⟨allLines calls, by rw [e1, allLines_append], ?_⟩
  have ht : allActs calls = linesOn r.context.pageMode.enabled (allLines calls) := by
    apply text_acts
    intro x hx
    obtain ⟨e0, f, l, off, e, _⟩ := e2 x hx
    exact ⟨by rw [e0]; exact penDown_enabled (processText_quiet h).4, _, _, _, _, e⟩
  rw [e1, allActs_append, ht]

/-- What a device command is about. -/
def DeviceActs (c : Context) (d : DeviceCommand) (acts : List Act) : Prop :=
  match d with
  | .beginPrint => ∃ y, acts = [.newSheet y]
  | .endPrint => acts = [.endSheet c.pageMode.enabled c.graphics.renderArea.y]
  | .beginPageMode => acts = [.newPage]
  | .printPageMode => acts = [.printPage c.graphics.renderArea.x c.graphics.renderArea.y c.pageMode.direction]
  | .changePageArea => ∃ x, PageModeContext.applyLogicalArea { c.pageMode with previousDirection := c.pageMode.direction } = .ok x ∧
      acts = [.setPage x.2.1 x.2.2.1 x.2.2.2]
  | .changePageModeDirection => ∃ x, c.pageMode.applyLogicalArea = .ok x ∧ acts = [.setPage x.2.1 x.2.2.1 x.2.2.2]
  | _ => acts = []

theorem deviceCommand_acts {d : DeviceCommand} {r r' : Recording} (h : deviceCommand recorder r d = .ok r') :
    ∃ acts, DeviceActs r.context d acts ∧ allActs r'.child = allActs r.child ++ acts := by
  simp only [deviceCommand, bind_ok, recorder, ok_ok] at h
  obtain ⟨s, rfl, h⟩ := h
  cases d <;> simp only [bind_ok, pure_ok, ok_ok] at h
  case beginPrint => obtain ⟨c, h1, s, rfl, rfl⟩ := h; exact ⟨_, ⟨c.getY, rfl⟩, by simp [allActs, callActs, callThings]⟩
  case endPrint => obtain ⟨_, rfl, rfl⟩ := h; exact ⟨_, rfl, by simp [allActs, callActs, callThings]⟩
  case feedLine => obtain ⟨c, h1, rfl⟩ := h; exact ⟨_, rfl, by simp [allActs, callActs, callThings]⟩
  case feed => obtain ⟨c, h1, rfl⟩ := h; exact ⟨_, rfl, by simp [allActs, callActs, callThings]⟩
  case fullCut => obtain ⟨c, h1, rfl⟩ := h; exact ⟨_, rfl, by simp [allActs, callActs, callThings]⟩
  case partialCut => obtain ⟨c, h1, rfl⟩ := h; exact ⟨_, rfl, by simp [allActs, callActs, callThings]⟩
  case beginPageMode => obtain ⟨c, rfl, rfl⟩ := h; exact ⟨_, rfl, by simp [allActs, callActs, callThings]⟩
  case endPageMode => obtain ⟨c, rfl, rfl⟩ := h; exact ⟨_, rfl, by simp [allActs, callActs, callThings]⟩
  case printPageMode => obtain ⟨s, rfl, y, h1, rfl⟩ := h; exact ⟨_, rfl, by simp [allActs, callActs, callThings]⟩
  case changePageArea =>
    simp only [pageAreaChanged, bind_ok, pure_ok, ok_ok] at h
    obtain ⟨x, hx, s, rfl, rfl⟩ := h
    exact ⟨_, ⟨x, hx, rfl⟩, by simp [allActs, callActs, callThings]⟩
  case changePageModeDirection =>
    simp only [pageAreaChanged, bind_ok, pure_ok, ok_ok] at h
    obtain ⟨x, hx, s, rfl, rfl⟩ := h
    exact ⟨_, ⟨x, hx, rfl⟩, by simp [allActs, callActs, callThings]⟩
  all_goals (subst h; exact ⟨_, rfl, by simp [allActs, callActs, callThings]⟩)

/-- Device commands that neither draw nor have to do with sheets or pages. -/
def Mute (d : DeviceCommand) : Prop :=
  match d with
  | .beginPrint | .endPrint | .beginPageMode | .printPageMode | .changePageArea | .changePageModeDirection => False
  | _ => True

theorem deviceCommands_mute {ds : List DeviceCommand} (hm : ∀ d ∈ ds, Mute d) {r r' : Recording} (h : deviceCommands recorder ds r = .ok r') :
    allActs r'.child = allActs r.child := by
  induction ds generalizing r with
  | nil => simp only [deviceCommands, ok_ok] at h; subst h; rfl
  | cons d ds ih =>
    simp only [deviceCommands, bind_ok] at h
    obtain ⟨r1, h1, h2⟩ := h
    refine (ih (fun x hx => hm x (by simp [hx])) h2).trans ?_
    obtain ⟨acts, a, e⟩ := deviceCommand_acts h1
    have : acts = [] := by
      have := hm d (by simp)
      cases d <;> first | exact False.elim this | exact a
    rw [e, this, List.append_nil]

/-- The opcodes that have to do with sheets and pages. -/
def sheetOpcodes : List (List Byte) := [[27, 76], [12], [27, 12], [27, 87], [27, 84]]

theorem base_mute : ∀ b ∈ baseCommands ++ [beginPrintCmd, endPrintCmd], b.commands ∉ sheetOpcodes → b.handler ≠ .unit .beginPrint →
    b.handler ≠ .unit .endPrint →
    ∀ id ∈ [Hid.beginPrint, .endPrint, .formfeed, .pageModePrintArea, .pageModePrintData, .pageModePrintDirection, .setPageMode],
      b.handler ≠ .unit id := by decide +kernel

theorem getDevice_mute {cmd : Command} (hc : Known cmd) (ho : cmd.commands ∉ sheetOpcodes) (hb : ¬ cmd.isBegin) (he : ¬ cmd.isEnd)
    {c : Context} {o} (h : getDevice cmd c = .ok o) : ∀ d ∈ o.getD [], Mute d := by
  have hm : ∀ id ∈ [Hid.beginPrint, .endPrint, .formfeed, .pageModePrintArea, .pageModePrintData, .pageModePrintDirection, .setPageMode],
      cmd.handler ≠ .unit id := by
    intro id hid hh
    obtain ⟨base, h1, h2, h3⟩ := known_handler hc hh
    refine base_mute base h1 (by rw [← h2.commands]; exact ho) ?_ ?_ id hid h3
    · intro h4; exact hb (derived_unit h2 h4)
    · intro h4; exact he (derived_unit h2 h4)
  unfold getDevice at h
  split at h
  · rename_i id hh
    have hm' := fun hid => hm id hid hh
    cases id <;> first | exact absurd (by decide) hm' | skip
    all_goals simp only [getDeviceUnit, bind_ok, pure_ok] at h
    case feedAndCut => split at h <;> first | (rw [pure_ok] at h; subst h; simp [Mute]) | skip
                       all_goals (split at h <;> first | (rw [pure_ok] at h; subst h; simp [Mute]) | skip)
                       all_goals (split at h <;> first | (rw [pure_ok] at h; subst h; simp [Mute]) | skip)
                       all_goals (split at h <;> first | (rw [pure_ok] at h; subst h; simp [Mute]) | skip)
    all_goals first
      | (subst h; simp [Mute]; done)
      | (obtain ⟨_, _, rfl⟩ := h; simp [Mute]; done)
      | (split at h <;> (rw [pure_ok] at h; subst h; simp [Mute]))
  all_goals (rw [pure_ok] at h; subst h; simp [Mute])

theorem turnTo_rotation (a b : PrintDirection) : directionalRotation a b = turnTo a b := by cases a <;> cases b <;> rfl

theorem logicalArea_size {q : PageModeContext} {x} (h : q.applyLogicalArea = .ok x) :
    x.2.1 = directionalRotation q.previousDirection q.direction ∧ x.2.2.1 = x.1.pageArea.w ∧ x.2.2.2 = x.1.pageArea.h := by
  simp only [PageModeContext.applyLogicalArea, bind_ok, pure_ok] at h
  obtain ⟨q1, h1, w, _, hh, _, rfl⟩ := h
  exact ⟨rfl, rfl, rfl⟩

/-- A command that is not graphics: the lines it sets, then what it does with sheets and pages. -/
theorem command_acts {d : Desk} {cmd : Command} (hc : Known cmd) (hk : cmd.kind ≠ .graphics) (ht : d.allows cmd.commands cmd.data)
    (hb : ¬ cmd.isBegin) (he : ¬ cmd.isEnd) {r r' : Recording} (hd : AtDesk d r) (hn : AtDesk (d.step cmd) r')
    (h : processCommand recorder ext r cmd = .ok r') :
    ∃ new, allLines r'.child = allLines r.child ++ new ∧
      allActs r'.child = allActs r.child ++ linesOn d.onPage new ++ pageActs d (d.step cmd) cmd.commands := by
  have hmode := hd.pos.mode
  have text : ∀ {r1 : Recording}, processText recorder r = .ok r1 →
      ∃ new, allLines r1.child = allLines r.child ++ new ∧ allActs r1.child = allActs r.child ++ linesOn d.onPage new := by
    intro r1 h1
    rw [← hmode]; exact processText_acts h1
  by_cases ho : cmd.commands ∈ sheetOpcodes
  · simp only [sheetOpcodes, List.mem_cons, List.not_mem_nil, or_false] at ho
    rcases ho with ho | ho | ho | ho | ho
    · have hder := known_derived (b := setPageModeCmd) (by decide +kernel) hc ho
      have hh : cmd.handler = .unit .setPageMode := derived_unit hder rfl
      obtain ⟨r1, c, o, a, b, e, g⟩ := contextControl_step h (hder.kind.trans rfl)
      obtain ⟨new, e1, e2⟩ := text a
      refine ⟨new, (deviceCommands_lines g).1.trans e1, ?_⟩
      simp only [getDevice, hh, getDeviceUnit, pure_ok] at e
      subst e
      simp only [Option.getD_some, deviceCommands, bind_ok, ok_ok] at g
      obtain ⟨r2, g, rfl⟩ := g
      obtain ⟨acts, a1, a2⟩ := deviceCommand_acts g
      rw [a2, ho, show acts = _ from a1]
      dsimp only
      rw [e2]; rfl
    · have hder := known_derived (b := formfeedCmd) (by decide +kernel) hc ho
      have hh : cmd.handler = .unit .formfeed := derived_unit hder rfl
      obtain ⟨r1, o, a, b, c⟩ := control_step h (hder.kind.trans rfl)
      obtain ⟨new, e1, e2⟩ := text a
      refine ⟨new, (deviceCommands_lines c).1.trans e1, ?_⟩
      have f1 := (hd.flush a).1.pos
      simp only [getDevice, hh, getDeviceUnit, hmode] at b
      rw [ho, ← e2]
      show _ = _ ++ (if d.onPage = true then _ else _)
      by_cases hp : d.onPage = true
      · rw [if_pos hp] at b ⊢
        rw [pure_ok] at b
        subst b
        simp only [Option.getD_some, deviceCommands, bind_ok, ok_ok] at c
        obtain ⟨r2, c1, r3, c2, rfl⟩ := c
        obtain ⟨acts, a1, a2⟩ := deviceCommand_acts c1
        obtain ⟨acts', a3, a4⟩ := deviceCommand_acts c2
        have hctx := (deviceCommand_context c1).1
        simp only [deviceContext, ok_ok] at hctx
        have hx := f1.paperX
        have hy := f1.paperY
        have hpf : d.flush.onPage = true := hp
        rw [if_pos hpf] at hx hy
        rw [a4, a2, show acts = _ from a1, show acts' = _ from a3, ← hctx, List.append_nil]
        show _ ++ [Act.printPage r1.context.graphics.renderArea.x r1.context.graphics.renderArea.y r1.context.pageMode.direction] = _
        rw [hx, hy, f1.direction]; rfl
      · rw [if_neg hp] at b ⊢
        rw [pure_ok] at b
        subst b
        simp only [Option.getD_some, deviceCommands, bind_ok, ok_ok] at c
        obtain ⟨r2, c1, rfl⟩ := c
        obtain ⟨acts, a1, a2⟩ := deviceCommand_acts c1
        have hy := f1.paperY
        have hpf : ¬ d.flush.onPage = true := hp
        rw [if_neg hpf] at hy
        have hmf : r1.context.pageMode.enabled = false := by rw [f1.mode]; exact Bool.eq_false_iff.2 hp
        rw [a2, show acts = _ from a1, hmf, hy]
        have hk : cmd.kind = .control := hder.kind.trans rfl
        have : (d.step cmd).y = d.flush.y := by
          unfold Desk.step
          rw [hk, if_neg (by decide), if_neg (by decide), ho]
          show (if _ then _ else _ : Desk).y = _
          rw [if_neg hpf]
        rw [this]
    · have hder := known_derived (b := pageModePrintDataCmd) (by decide +kernel) hc ho
      have hh : cmd.handler = .unit .pageModePrintData := derived_unit hder rfl
      obtain ⟨r1, o, a, b, c⟩ := control_step h (hder.kind.trans rfl)
      obtain ⟨new, e1, e2⟩ := text a
      refine ⟨new, (deviceCommands_lines c).1.trans e1, ?_⟩
      have f1 := (hd.flush a).1.pos
      simp only [getDevice, hh, getDeviceUnit, hmode] at b
      rw [ho, ← e2]
      show _ = _ ++ (if d.onPage = true then _ else _)
      by_cases hp : d.onPage = true
      · rw [if_pos hp] at b ⊢
        rw [pure_ok] at b
        subst b
        simp only [Option.getD_some, deviceCommands, bind_ok, ok_ok] at c
        obtain ⟨r2, c1, rfl⟩ := c
        obtain ⟨acts, a1, a2⟩ := deviceCommand_acts c1
        have hx := f1.paperX
        have hy := f1.paperY
        have hpf : d.flush.onPage = true := hp
        rw [if_pos hpf] at hx hy
        rw [a2, show acts = _ from a1, hx, hy, f1.direction]; rfl
      · rw [if_neg hp] at b ⊢
        rw [pure_ok] at b
        subst b
        simp only [Option.getD_none, deviceCommands, ok_ok] at c
        subst c
        rw [List.append_nil]
    · have hder := known_derived (b := pageModePrintAreaCmd) (by decide +kernel) hc ho
      have hh : cmd.handler = .unit .pageModePrintArea := derived_unit hder rfl
      obtain ⟨r1, c, o, a, b, e, g⟩ := contextControl_step h (hder.kind.trans rfl)
      obtain ⟨new, e1, e2⟩ := text a
      refine ⟨new, (deviceCommands_lines g).1.trans e1, ?_⟩
      simp only [getDevice, hh, getDeviceUnit, pure_ok] at e
      subst e
      simp only [Option.getD_some, deviceCommands, bind_ok, ok_ok] at g
      obtain ⟨r2, g, rfl⟩ := g
      obtain ⟨acts, ⟨x, a1, rfl⟩, a2⟩ := deviceCommand_acts g
      obtain ⟨s1, s2, s3⟩ := logicalArea_size a1
      have hctx := (deviceCommand_context g).1
      simp only [deviceContext, bind_ok, ok_ok] at hctx
      obtain ⟨x', a1', hctx⟩ := hctx
      have : x' = x := Except.ok.inj (a1'.symm.trans a1)
      subst this
      have hpa := hn.pos.pageArea
      rw [← hctx] at hpa
      dsimp only at hpa
      rw [a2, ho, s1, s2, s3, hpa]
      dsimp only
      rw [e2, turnTo_rotation]
      congr 2
      show Act.setPage (turnTo c.pageMode.direction c.pageMode.direction) _ _ = Act.setPage .R0 _ _
      congr 1
      cases c.pageMode.direction <;> rfl
    · have hder := known_derived (b := pageModePrintDirectionCmd) (by decide +kernel) hc ho
      have hh : cmd.handler = .unit .pageModePrintDirection := derived_unit hder rfl
      obtain ⟨r1, c, o, a, b, e, g⟩ := contextControl_step h (hder.kind.trans rfl)
      obtain ⟨new, e1, e2⟩ := text a
      refine ⟨new, (deviceCommands_lines g).1.trans e1, ?_⟩
      have f1 := (hd.flush a).1.pos
      simp only [getDevice, hh, getDeviceUnit, pure_ok] at e
      subst e
      simp only [Option.getD_some, deviceCommands, bind_ok, ok_ok] at g
      obtain ⟨r2, g, rfl⟩ := g
      obtain ⟨acts, ⟨x, a1, rfl⟩, a2⟩ := deviceCommand_acts g
      obtain ⟨s1, s2, s3⟩ := logicalArea_size a1
      have hctx := (deviceCommand_context g).1
      simp only [deviceContext, bind_ok, ok_ok] at hctx
      obtain ⟨x', a1', hctx⟩ := hctx
      have : x' = x := Except.ok.inj (a1'.symm.trans a1)
      subst this
      have hpa := hn.pos.pageArea
      rw [← hctx] at hpa
      dsimp only at hpa
      have hon : r1.context.pageMode.enabled = true := by
        rw [f1.mode]; rw [ho] at ht; exact ht.1
      have hdir := hn.pos.direction
      rw [← hctx] at hdir
      dsimp only at hdir
      have hsame : x'.1.direction = c.pageMode.direction := by
        simp only [PageModeContext.applyLogicalArea, bind_ok, pure_ok] at a1
        obtain ⟨q1, h1, w, _, hh, _, rfl⟩ := a1
        dsimp only
        have e1 : q1.direction = (swapPage c.pageMode).direction := by
          unfold translateArea at h1
          split at h1
          · simp only [translateTopLeftToRight, pure_ok] at h1; subst h1; rfl
          · simp only [translateBottomRightToLeft, bind_ok, pure_ok] at h1; obtain ⟨_, _, rfl⟩ := h1; rfl
          · simp only [translateTopRightToBottom, bind_ok, pure_ok] at h1; obtain ⟨_, _, _, _, rfl⟩ := h1; rfl
          · simp only [translateBottomLeftToTop, bind_ok, pure_ok] at h1; obtain ⟨_, _, rfl⟩ := h1; rfl
        rw [e1]
        obtain ⟨w, h, e, _⟩ := swapPage_eq c.pageMode
        rw [e]
      rw [hsame] at hdir
      simp only [applyContext, hh, applyUnit, hon, if_true, pure_ok] at b
      subst b
      rw [a2, ho, s1, s2, s3, hpa]
      dsimp only
      rw [e2, turnTo_rotation, hdir]
      congr 2
      show Act.setPage (turnTo r1.context.pageMode.direction _) _ _ = _
      rw [f1.direction]; rfl
  · have hnil : pageActs d (d.step cmd) cmd.commands = [] := by
      unfold pageActs
      split <;> first | rfl | (rename_i e; exact absurd (by rw [e]; decide) ho)
    rw [hnil]
    simp only [List.append_nil]
    have dev : ∀ {ds : List DeviceCommand} {r1 r2 : Recording}, (∀ d ∈ ds, Mute d) → deviceCommands recorder ds r1 = .ok r2 →
        (∃ new, allLines r1.child = allLines r.child ++ new ∧ allActs r1.child = allActs r.child ++ linesOn d.onPage new) →
        ∃ new, allLines r2.child = allLines r.child ++ new ∧ allActs r2.child = allActs r.child ++ linesOn d.onPage new := by
      rintro ds r1 r2 hm h ⟨new, e1, e2⟩
      exact ⟨new, (deviceCommands_lines h).1.trans e1, (deviceCommands_mute hm h).trans e2⟩
    have nothing : ∃ new, allLines r.child = allLines r.child ++ new ∧ allActs r.child = allActs r.child ++ linesOn d.onPage new :=
      ⟨[], by simp, by simp [linesOn]⟩
    rcases hk2 : cmd.kind
    case control =>
      obtain ⟨r1, o, a, b, c⟩ := control_step h hk2
      exact dev (getDevice_mute hc ho hb he b) c (text a)
    case context =>
      obtain ⟨r1, a, b, c⟩ := context_step h hk2
      rw [c]; obtain ⟨new, e1, e2⟩ := text a; exact ⟨new, e1, e2⟩
    case contextControl =>
      obtain ⟨r1, c, o, a, b, e, g⟩ := contextControl_step h hk2
      obtain ⟨new, e1, e2⟩ := text a
      exact dev (getDevice_mute hc ho hb he e) g ⟨new, e1, e2⟩
    case textStyle =>
      obtain ⟨c, o, a, b, e⟩ := textStyle_step h hk2
      exact dev (getDevice_mute hc ho hb he b) e nothing
    case graphics => exact absurd hk2 hk
    case text =>
      obtain ⟨o, h1, rfl⟩ := processCommand_text h hk2
      exact nothing
    case subcommand =>
      unfold processCommand at h; rw [hk2] at h; dsimp only at h; rw [pure_ok] at h; subst h
      exact nothing
    case unknown =>
      unfold processCommand at h; rw [hk2] at h; simp only [bind_ok, pure_ok] at h
      obtain ⟨r1, a, rfl⟩ := h
      obtain ⟨new, e1, e2⟩ := text a
      exact ⟨new, e1, e2⟩

/-! ### The sheet -/

/-- The text part of the reference printer and of the program agree, and so does all that was done. -/
structure Inked (p : Press) (r : Recording) : Prop where
  desk : AtDesk { p.desk with lines := allLines r.child } r
  acts : allActs r.child = p.acts

theorem desk_flush_lines (d : Desk) (ms : List TextLine) : ({ d with lines := ms } : Desk).flush =
    { ({ d with lines := [] } : Desk).flush with lines := ms ++ ({ d with lines := [] } : Desk).flush.lines } := by
  simp [Desk.flush, Desk.left, Desk.width]

theorem desk_move_lines (d : Desk) (ms : List TextLine) (op data : List Byte) :
    ({ d with lines := ms } : Desk).move op data = { d.move op data with lines := ms } := by
  unfold Desk.move
  dsimp only
  split <;> first | rfl | (split <;> first | rfl | (split <;> rfl)) | skip
  cases printDirection (param data 0) <;> rfl

theorem desk_step_lines (d : Desk) (ms : List TextLine) (c : Command) : ({ d with lines := ms } : Desk).step c =
    { ({ d with lines := [] } : Desk).step c with lines := ms ++ (({ d with lines := [] } : Desk).step c).lines } := by
  unfold Desk.step
  dsimp only
  split
  · simp
  · split
    · rw [desk_move_lines d ms, desk_move_lines d []]; simp
    · rw [desk_flush_lines d ms, desk_move_lines _ (ms ++ _)]
      have := (move_waiting ({ d with lines := [] } : Desk).flush c.commands c.data).2
      rw [this]

theorem AtDesk.same {d : Desk} {r r' : Recording} (h : AtDesk d r) (h1 : r'.context = r.context) (h2 : r'.spanBuffer = r.spanBuffer)
    (h3 : r'.child = r.child) : AtDesk d r' := by
  obtain ⟨a, b, c, e, f, g, i⟩ := h
  rw [← h1] at a b e
  rw [← h2] at f g
  rw [← h3] at i
  exact ⟨a, b, c, e, f, g, i⟩

theorem Inked.same {p : Press} {r r' : Recording} (h : Inked p r) (h1 : r'.context = r.context) (h2 : r'.spanBuffer = r.spanBuffer)
    (h3 : r'.child = r.child) : Inked p r' := by
  refine ⟨?_, by rw [h3]; exact h.2⟩
  rw [h3]; exact h.1.same h1 h2 h3

/-- One command that is not graphics. -/
theorem Inked.type {p : Press} {cmd : Command} {r r' : Recording} (hi : Inked p r) (hc : Known cmd) (hk : cmd.kind ≠ .graphics)
    (ht : p.desk.allows cmd.commands cmd.data)
    (hb : ¬ cmd.isBegin) (he : ¬ cmd.isEnd) (hdev : ¬ p.desk.style.deviates cmd.commands cmd.data)
    (hcut : Run.sets p.desk.left p.desk.width (p.desk.style.textOf cmd, p.desk.style.look))
    (h : processCommand recorder ext r cmd = .ok r') : Inked (p.type [cmd]) r' := by
  have hd := desk_step (d := { p.desk with lines := allLines r.child }) hc hk ht hb hi.desk hdev hcut h
  obtain ⟨new, e1, e2⟩ := command_acts (d := { p.desk with lines := allLines r.child }) hc hk ht hb he hi.desk hd h
  rw [desk_step_lines p.desk] at hd e2
  have hm := hd.lines
  dsimp only at hm
  rw [e1, List.append_cancel_left_eq] at hm
  refine ⟨?_, ?_⟩
  · rw [← hm, ← e1] at hd; exact hd
  · rw [e2, hi.acts, hm]; rfl

theorem Inked.flush {p : Press} {r r' : Recording} (hi : Inked p r) (h : processText recorder r = .ok r') :
    Inked p.flush r' ∧ r'.spanBuffer = [] := by
  obtain ⟨new, e1, e2⟩ := processText_acts h
  obtain ⟨s1, s2⟩ := hi.desk.flush h
  rw [desk_flush_lines p.desk] at s1
  have hm := s1.lines
  dsimp only at hm
  rw [e1, List.append_cancel_left_eq] at hm
  refine ⟨⟨⟨s2, hi.desk.limits.pen (processText_quiet h).4, hi.desk.wide, ?_, ?_, s1.settable, rfl⟩, ?_⟩, ?_⟩
  · have q := s1.pos
    exact ⟨q.1, q.2, q.3, q.4, q.5, q.6, q.7, q.8, q.9, q.10, q.11, q.12, q.13, q.14⟩
  · exact s1.waiting
  · rw [e2, hi.acts, hm, hi.desk.pos.mode]; rfl
  · have := s1.waiting
    simpa [Desk.flush] using this

/-- Drawing something. -/
theorem Inked.put {p : Press} {r r' : Recording} (hi : Inked p r) (hp : PenDown r.context r'.context) (hs : r'.spanBuffer = r.spanBuffer)
    {ts : List Thing} (ht : allActs r'.child = allActs r.child ++ ts.map (.put p.desk.onPage)) {x y : Nat}
    (hx : r'.context.getX = p.desk.left + x) (hy : r'.context.getY = y) : Inked (p.put ts x y) r' := by
  refine ⟨⟨hi.desk.styled.pen hp, hi.desk.limits.pen hp, hi.desk.wide, ?_, ?_, ?_, rfl⟩, ?_⟩
  · have q := hi.desk.pos.pen hp hx hy
    exact ⟨q.1, q.2, q.3, q.4, q.5, q.6, q.7, q.8, q.9, q.10, q.11, q.12, q.13, q.14⟩
  · rw [hs]; exact hi.desk.waiting
  · rw [hs]; exact hi.desk.settable
  · rw [ht, hi.acts]; rfl

/-- The mode of a context whose pen has moved. -/
theorem Inked.mode {p : Press} {r : Recording} (hi : Inked p r) {c : Context} (hp : PenDown r.context c) :
    c.pageMode.enabled = p.desk.onPage := (penDown_enabled hp).trans hi.desk.pos.mode

theorem Inked.left {p : Press} {r : Recording} (hi : Inked p r) : r.context.baseX = p.desk.left := hi.desk.pos.baseX
theorem Inked.width {p : Press} {r : Recording} (hi : Inked p r) : r.context.getWidth = p.desk.width := hi.desk.pos.getWidth
theorem Inked.x {p : Press} {r : Recording} (hi : Inked p r) : r.context.getX = p.desk.left + p.desk.x := hi.desk.pos.getX
theorem Inked.y {p : Press} {r : Recording} (hi : Inked p r) : r.context.getY = p.desk.y := hi.desk.pos.getY

theorem processImage_calls_mode {r r' : Recording} {i : Image} (h : processImage recorder r i = .ok r') {c : Context} {x : Call}
    (e : r'.child = r.child ++ [(c, x)]) : c.pageMode.enabled = r.context.pageMode.enabled := by
  simp only [processImage, bind_ok, pure_ok, recorder, ok_ok] at h
  obtain ⟨c1, h1, s, rfl, c2, h2, rfl⟩ := h
  dsimp only at e
  rw [List.append_cancel_left_eq] at e
  simp only [List.cons.injEq, Prod.mk.injEq, and_true] at e
  obtain ⟨rfl, _⟩ := e
  exact penDown_enabled (PenDown.imageBefore h1)

theorem Inked.justification {p : Press} {r : Recording} (hi : Inked p r) (w : Nat) :
    r.context.justification w = indent p.desk.style.justify p.desk.width w := by
  have hj : p.desk.style.justify = r.context.text.justify := by rw [← hi.desk.styled.style]; rfl
  unfold Context.justification indent
  rw [hj, hi.width]
  dsimp only
  split
  · cases r.context.text.justify <;> dsimp only <;> omega
  · cases r.context.text.justify <;> dsimp only
    split <;> omega

theorem Inked.block {p : Press} {r r' : Recording} (hi : Inked p r) {i : Image} {pic : Picture} (hs : Stamp i .block pic)
    (h : processImage recorder r i = .ok r') : Inked (p.block pic) r' := by
  have hm := hi.desk.pos.mode
  dsimp only at hm
  have ht : ∀ (c : Context) x y, c.pageMode.enabled = p.desk.onPage →
      allActs [(c, Call.image { i with x := x, y := y })] = [.picture x y true pic].map (.put p.desk.onPage) := by
    intro c x y hc
    show [Thing.picture x y (!i.upsideDown) (pictureOf i)].map (Act.put c.pageMode.enabled) ++ [] = _
    rw [hs.upright, hs.shows, hc]; rfl
  have q := processImage_quiet h
  unfold Press.block
  split
  · next ho =>
    obtain ⟨e, e2⟩ := C53_still r r' i (.inr ⟨hs.flow, hm.trans ho⟩) h
    refine hi.put q.4 q.3 ?_ (by rw [e2, hi.x]) (by rw [e2, hi.y])
    rw [e, allActs_append, ht _ _ _ hm, hi.x, hi.y]
  · next ho =>
    rw [Bool.not_eq_true] at ho
    have hl : p.desk.left = 0 := by unfold Desk.left; rw [ho]; rfl
    obtain ⟨c, e, hx, hy⟩ := C53_block r r' i hs.flow (hm.trans ho) h
    have hc : c.pageMode.enabled = p.desk.onPage := by
      have : (c, Call.image { i with x := r.context.justification i.w, y := r.context.getY }) ∈ r'.child := by rw [e]; simp
      exact (processImage_calls_mode h e).trans hm
    refine hi.put q.4 q.3 ?_ (by rw [hx, hl]) (by rw [hy, hs.height, hi.y])
    rw [e, allActs_append, ht _ _ _ hc, hi.justification, hs.width, hi.y]

theorem Inked.inline {p : Press} {r r' : Recording} (hi : Inked p r) {i : Image} {pic : Picture} (hs : Stamp i .inline pic)
    (h : processImage recorder r i = .ok r') : Inked (p.inline pic) r' := by
  obtain ⟨c, x, y, e, h1, h2, hx, hy⟩ := C53_inline r r' i hs.flow h
  have q := processImage_quiet h
  have ha : r.context.availableWidth = p.desk.width - p.desk.x := by
    rw [available_eq, hi.width, hi.x, hi.left, Nat.add_sub_cancel_left]
  have hsp : r.context.text.lineSpacing.toNat = p.desk.style.lineSpacing := spacing hi.desk.styled
  rw [ha, hs.width, hi.x, hi.y] at h1
  rw [ha, hs.width, hi.left, hi.y, hsp] at h2
  have hc : c.pageMode.enabled = p.desk.onPage := (processImage_calls_mode h e).trans hi.desk.pos.mode
  have ht : ∀ x y, allActs [((c : Context), Call.image { i with x := x, y := y })] = [.picture x y true pic].map (.put p.desk.onPage) := by
    intro x y
    show [Thing.picture x y (!i.upsideDown) (pictureOf i)].map (Act.put c.pageMode.enabled) ++ [] = _
    rw [hs.upright, hs.shows, hc]; rfl
  unfold Press.inline
  by_cases hw : pic.width ≤ p.desk.width - p.desk.x
  · rw [if_pos hw]
    obtain ⟨rfl, rfl⟩ := h1 hw
    refine hi.put q.4 q.3 ?_ (by rw [hx, hs.width, Nat.add_assoc]) hy
    rw [e, allActs_append, ht]
  · rw [if_neg hw]
    obtain ⟨rfl, rfl⟩ := h2 (by omega)
    refine hi.put q.4 q.3 ?_ (by rw [hx, hs.width]) hy
    rw [e, allActs_append, ht]

theorem Inked.color {p : Press} {r r' : Recording} (hi : Inked p r) (h : PenDown r.context r'.context) :
    r'.context.text.color = p.desk.style.color := by
  have : r'.context.text.color = r.context.text.color := h.only .color (by decide)
  rw [this, ← hi.desk.styled.style]; rfl

theorem Inked.symbol {p : Press} {r r' : Recording} (hi : Inked p r) {s : QrSymbol} (hw : 2 ≤ s.width) (hfit : s.width * s.size ≤ p.desk.width)
    (h : processCode2d recorder r ⟨s.modules.map (fun b => if b then 1 else 0), s.width, s.size, s.size⟩ = .ok r') : Inked (p.symbol s) r' := by
  have q := processCode2d_quiet h
  obtain ⟨e, hx⟩ := C52_grid r r' _ (by exact hw) (by rw [hi.width]; exact hfit) h
  refine hi.put q.4 q.3 ?_ ?_ ?_
  · rw [e, allActs_append]
    congr 1
    show [_].flatMap _ = _
    rw [List.flatMap_cons, List.flatMap_nil, List.append_nil]
    show List.map (Act.put r'.context.pageMode.enabled) (List.map (Thing.box r'.context.text.color) _) = _
    rw [hi.color q.4, hi.mode q.4]
    dsimp only
    rw [grid_squares, hi.left, hi.justification, hi.y]
  · rw [hx, hi.left]; rfl
  · simp only [processCode2d, bind_ok, pure_ok, recorder, ok_ok, mulU32_ok] at h
    obtain ⟨_, ⟨_, rfl⟩, c1, h4, ⟨c2, gs⟩, h5, s', rfl, rfl⟩ := h
    have hx := setX_ok h4
    have hj := (C32_justification r.context (s.width * s.size)).2.1 (by rw [hi.width]; exact hfit)
    have hc : At2d ⟨s.modules.map (fun b => if b then 1 else 0), s.width, s.size, s.size⟩ r.context
        (r.context.justification (s.width * s.size)) r.context.getY 0 c1 := by
      subst hx
      exact ⟨baseX_putX _ _, getWidth_putX _ _, fun _ => ⟨getX_putX _ _, getY_putX _ _⟩, fun h => absurd h (by omega)⟩
    obtain ⟨_, e2⟩ := code2dLoop_grid hw hj hc h5
    dsimp only [Context.resetX]
    rw [getY_putX]
    rw [Nat.zero_add, List.length_map] at e2
    rcases Nat.eq_zero_or_pos s.modules.length with h0 | h0
    · rw [(e2.first h0).2, hi.y, h0, Nat.zero_sub, Nat.zero_div, Nat.zero_mul]; rfl
    · rw [(e2.later h0).2, hi.y]

/-! ### Barcodes -/

theorem Inked.caption {p : Press} {r r' : Recording} (hi : Inked p r) (hs : r.spanBuffer = []) {b : Barcode} {text : Str}
    (hrun : runOf b.text = (text, { p.desk.style.look with font := p.desk.style.barcodeFont })) (hset : Settable p.desk.left p.desk.width b.text)
    (h : barcodeText recorder r b = .ok r') : Inked (p.caption text) r' ∧ r'.spanBuffer = [] := by
  have q := barcodeText_quiet h
  simp only [barcodeText, bind_ok, pure_ok] at h
  obtain ⟨r1, h1, c, h2, rfl⟩ := h
  obtain ⟨new, e1, e2⟩ := processText_acts h1
  obtain ⟨t1, t2, t3, t4, t5⟩ := processText_typeset h1 (x := p.desk.x) hi.left hi.width hi.x
    (by intro t ht; simp only [Renderer.collectText, hs, List.nil_append, List.mem_singleton] at ht; subst ht; exact hset)
  have hb : (r.collectText b.text).spanBuffer.map runOf = [(text, { p.desk.style.look with font := p.desk.style.barcodeFont })] := by
    simp only [Renderer.collectText, hs, List.nil_append, List.map_cons, List.map_nil, hrun]
  rw [hb] at t1 t2 t3
  have hsp : r.context.text.lineSpacing.toNat = p.desk.style.lineSpacing := spacing hi.desk.styled
  have f1 : (r.collectText b.text).context = r.context := rfl
  have f2 : (r.collectText b.text).child = r.child := rfl
  have htabs : r.context.text.tabs.map (·.toNat) = p.desk.tabs := hi.desk.pos.tabs
  rw [f1, hi.y, htabs, hsp] at t1 t2 t3
  rw [e1, f2, List.append_cancel_left_eq] at t1
  rw [f1] at t5
  have hb1 : r1.context.baseX = p.desk.left := (hi.desk.pos.pen t5 t2 t3).baseX
  have hsp1 : r1.context.text.lineSpacing.toNat = p.desk.style.lineSpacing := spacing (hi.desk.styled.pen t5)
  simp only [Context.newline, bind_ok, mulU32_ok, offsetY_ok] at h2
  obtain ⟨_, ⟨_, rfl⟩, _, rfl⟩ := h2
  refine ⟨hi.put q.4 (q.3.trans hs.symm) ?_ ?_ ?_, q.3⟩
  · show allActs r1.child = _
    rw [e2, t1, f1, hi.desk.pos.mode, f2]
    unfold linesOn
    rw [List.map_map]; rfl
  · dsimp only
    simp only [Context.resetX]
    rw [getX_putY, getX_putX, hb1]; rfl
  · dsimp only
    simp only [Context.resetX]
    rw [getY_putY, getY_putX, t3, hsp1, Nat.mul_one]

theorem Inked.bars {p : Press} {r r' : Recording} (hi : Inked p r) {b : Barcode} (hpw : b.pointWidth.toNat = p.desk.style.barcodeWidth)
    (hph : b.pointHeight.toNat = p.desk.style.barcodeHeight) (hw : 0 < b.pointWidth.toNat)
    (h : barcodeBars recorder r b = .ok r') : Inked (p.bars b.points) r' := by
  have q := barcodeBars_quiet h
  simp only [barcodeBars, bind_ok, pure_ok, recorder, ok_ok, mulU32_ok] at h
  obtain ⟨_, ⟨_, rfl⟩, c1, h4, ⟨c2, gs⟩, h5, s, rfl, c3, h6, rfl⟩ := h
  have hx := setX_ok h4
  have hb := barcodeLoop_bars hw (c0 := r.context) (k := 0) (start := r.context.justification (b.points.length * b.pointWidth.toNat))
    (by rw [hx, Nat.zero_mul, Nat.add_zero]) h5
  have hy := barcodeLoop_getY h5
  rw [offsetY_ok] at h6
  obtain ⟨_, rfl⟩ := h6
  refine hi.put q.4 q.3 ?_ ?_ ?_
  · dsimp only
    rw [allActs_append]
    congr 1
    show [_].flatMap _ = _
    rw [List.flatMap_cons, List.flatMap_nil, List.append_nil]
    show List.map (Act.put c2.pageMode.enabled) (List.map (Thing.box c2.text.color) gs) = _
    have hmode : c2.pageMode.enabled = p.desk.onPage := by
      rw [← hi.mode q.4]
      show _ = ((c2.resetX).putY _).pageMode.enabled
      rw [Context.resetX, enabled_putY, enabled_putX]
    have hcol : c2.text.color = p.desk.style.color := by
      rw [← hi.color q.4]
      show _ = ((c2.resetX).putY _).text.color
      rw [text_putY, Context.resetX, text_putX]
    rw [hmode, hcol, show gs = _ from hb, List.nil_append, hi.left, hi.justification, hi.y, hi.width, hpw, hph]
  · dsimp only
    simp only [Context.resetX]
    rw [getX_putY, getX_putX, hy.2, hx, baseX_putX, hi.left]; rfl
  · dsimp only
    simp only [Context.resetX]
    rw [getY_putY, getY_putX, hy.1, hx, getY_putX, hi.y, hph]

theorem hri_style {s : Style} {c : Context} (h : Styled s c) : c.barcode.humanReadable = s.hri := by rw [← h.style]; rfl

theorem Inked.barcode {p : Press} {r r' : Recording} (hi : Inked p r) (hs : r.spanBuffer = []) {b : Barcode} {text : Str}
    (hpw : b.pointWidth.toNat = p.desk.style.barcodeWidth) (hph : b.pointHeight.toNat = p.desk.style.barcodeHeight)
    (hw : 0 < b.pointWidth.toNat)
    (hrun : runOf b.text = (text, { p.desk.style.look with font := p.desk.style.barcodeFont })) (hset : Settable p.desk.left p.desk.width b.text)
    (h : processBarcode recorder r b = .ok r') : Inked (p.barcode b.points text) r' := by
  simp only [processBarcode, bind_ok] at h
  obtain ⟨r1, h1, r2, h2, h3⟩ := h
  have a : Inked (if p.desk.style.hri = .above ∨ p.desk.style.hri = .both then p.caption text else p) r1 ∧ r1.spanBuffer = [] := by
    unfold barcodeAbove at h1
    rw [hri_style hi.desk.styled] at h1
    split at h1
    · rename_i hb
      rw [if_pos hb]
      exact hi.caption hs hrun hset h1
    · rename_i hb
      rw [if_neg hb]
      rw [ok_ok] at h1; subst h1; exact ⟨hi, hs⟩
  have hst : (if p.desk.style.hri = .above ∨ p.desk.style.hri = .both then p.caption text else p).desk.style = p.desk.style := by
    split <;> rfl
  have hed : (if p.desk.style.hri = .above ∨ p.desk.style.hri = .both then p.caption text else p).desk.left = p.desk.left ∧
      (if p.desk.style.hri = .above ∨ p.desk.style.hri = .both then p.caption text else p).desk.width = p.desk.width := by
    split <;> exact ⟨rfl, rfl⟩
  unfold Press.barcode
  dsimp only
  generalize (if p.desk.style.hri = .above ∨ p.desk.style.hri = .both then p.caption text else p) = p1 at a hst hed ⊢
  obtain ⟨a1, a2⟩ := a
  have b1 := a1.bars (by rw [hst]; exact hpw) (by rw [hst]; exact hph) hw h2
  have b2 : r2.spanBuffer = [] := (barcodeBars_quiet h2).3.trans a2
  have hst2 : (p1.bars b.points).desk.style = p.desk.style := hst
  have hed2 : (p1.bars b.points).desk.left = p.desk.left ∧ (p1.bars b.points).desk.width = p.desk.width := hed
  generalize p1.bars b.points = p2 at b1 hst2 hed2 ⊢
  unfold barcodeBelow at h3
  rw [hri_style b1.desk.styled] at h3
  split at h3
  · rename_i hb
    rw [if_pos hb]
    simp only [bind_ok, offsetY_ok] at h3
    obtain ⟨c, ⟨hlt, rfl⟩, h3⟩ := h3
    have hpd : PenDown r2.context (r2.context.putY (r2.context.getY + 8)) := PenDown.offsetY (offsetY_ok.2 ⟨hlt, rfl⟩)
    have c1 : Inked (p2.put [] p2.desk.x (p2.desk.y + 8)) { r2 with context := r2.context.putY (r2.context.getY + 8) } :=
      Inked.put (r' := { r2 with context := r2.context.putY (r2.context.getY + 8) }) (ts := []) b1 hpd rfl (List.append_nil _).symm ((getX_putY _ _).trans b1.x)
        ((getY_putY _ _).trans (congrArg (· + 8) b1.y))
    have hst3 : (p2.put [] p2.desk.x (p2.desk.y + 8)).desk.style = p.desk.style := hst2
    have hr3 : runOf b.text = (text, { (p2.put [] p2.desk.x (p2.desk.y + 8)).desk.style.look with
        font := (p2.put [] p2.desk.x (p2.desk.y + 8)).desk.style.barcodeFont }) := by rw [hst3]; exact hrun
    exact (c1.caption b2 hr3 (by
      show Settable p2.desk.left p2.desk.width b.text
      rw [hed2.1, hed2.2]; exact hset) h3).1
  · rename_i hb
    rw [if_neg hb]
    rw [ok_ok] at h3; subst h3; exact b1

end Thermal
