import Verif.Proofs.Unit
import Verif.Proofs.Spans
import Verif.Proofs.OpcodeInStream
import Verif.Props.ParserBasic
import Verif.Props.Settings
import Verif.Spec.Jobs
import Verif.Spec.Trace
/-
C49, C50, C56: print jobs, flushing of collected text, unknown commands.
-/
namespace Thermal
open Renderer
variable {σ Out : Type} {R : OutputRenderer σ Out} {ext : Ext}

/-! ### C49 -/

theorem deviceCommand_outputs {d : DeviceCommand} {r r' : Renderer σ Out} (h : deviceCommand R r d = .ok r') :
    r'.outputBuffer.length = r.outputBuffer.length + (if d = .endPrint then 1 else 0) := by
  simp only [deviceCommand, bind_ok] at h
  obtain ⟨s, _, h⟩ := h
  cases d <;> simp only [bind_ok, pure_ok] at h
  case endPrint => obtain ⟨⟨s, o⟩, _, rfl⟩ := h; simp
  case beginPrint => obtain ⟨c, h1, s, _, rfl⟩ := h; simp
  case feedLine => obtain ⟨c, h1, rfl⟩ := h; simp
  case feed => obtain ⟨c, h1, rfl⟩ := h; simp
  case fullCut => obtain ⟨c, h1, rfl⟩ := h; simp
  case partialCut => obtain ⟨c, h1, rfl⟩ := h; simp
  case beginPageMode => obtain ⟨c, h1, rfl⟩ := h; simp
  case endPageMode => obtain ⟨c, h1, rfl⟩ := h; simp
  case printPageMode => obtain ⟨s, _, y, h1, rfl⟩ := h; simp
  case changePageArea => obtain ⟨_, _, h3, _⟩ := pageAreaChanged_context h; simp [h3]
  case changePageModeDirection => obtain ⟨_, _, h3, _⟩ := pageAreaChanged_context h; simp [h3]
  all_goals (subst h; simp)

theorem deviceCommands_outputs {ds : List DeviceCommand} {r r' : Renderer σ Out} (h : deviceCommands R ds r = .ok r') :
    r'.outputBuffer.length = r.outputBuffer.length + ds.count .endPrint := by
  induction ds generalizing r with
  | nil => simp only [deviceCommands, ok_ok] at h; subst h; simp
  | cons d ds ih =>
    simp only [deviceCommands, bind_ok] at h
    obtain ⟨r1, h1, h2⟩ := h
    rw [ih h2, deviceCommand_outputs h1, List.count_cons]
    simp only [beq_iff_eq]
    omega

/-- Commands other than End Print and FF never finish a document. -/
theorem getDevice_endPrint {cmd : Command} {c : Context} {o} (h : getDevice cmd c = .ok o)
    (h1 : cmd.handler ≠ .unit .endPrint) (h2 : cmd.handler ≠ .unit .formfeed) : (o.getD []).count DeviceCommand.endPrint = 0 := by
  unfold getDevice at h
  split at h
  · rename_i id hh
    rw [hh] at h1 h2
    cases id <;> simp only [getDeviceUnit, pure_ok] at h
    case endPrint => exact absurd rfl h1
    case formfeed => exact absurd rfl h2
    case setTabLen => simp only [bind_ok, pure_ok] at h; obtain ⟨_, _, rfl⟩ := h; rfl
    case feedAndCut =>
      repeat' split at h
      all_goals simp only [pure_ok] at h
      all_goals (subst h; rfl)
    case pageModePrintData => split at h <;> (rw [pure_ok] at h; subst h; rfl)
    case selectStandardMode => split at h <;> (rw [pure_ok] at h; subst h; rfl)
    all_goals (subst h; rfl)
  · rw [pure_ok] at h; subst h; rfl
  · rw [pure_ok] at h; subst h; rfl

theorem processGraphicsOpt_outputs {r r' : Renderer σ Out} {g} (hs : r.spanBuffer = []) (h : processGraphicsOpt R r g = .ok r') :
    r'.outputBuffer = r.outputBuffer := by
  unfold processGraphicsOpt at h
  split at h
  · exact (processGraphics_context hs h).2.2
  · rw [ok_ok] at h; subst h; rfl

theorem processCommand_outputs {cmd : Command} {r r' : Renderer σ Out} (h : processCommand R ext r cmd = .ok r')
    (h1 : cmd.handler ≠ .unit .endPrint) (h2 : cmd.handler ≠ .unit .formfeed) :
    r'.outputBuffer.length = r.outputBuffer.length := by
  rcases hk : cmd.kind
  case control =>
    obtain ⟨r1, o, a, b, c⟩ := control_step h hk
    rw [deviceCommands_outputs c, getDevice_endPrint b h1 h2, (processText_quiet a).1]; rfl
  case context =>
    obtain ⟨r1, a, b, c⟩ := context_step h hk
    rw [c]; show r1.outputBuffer.length = _; rw [(processText_quiet a).1]
  case contextControl =>
    obtain ⟨r1, c, o, a, b, d, e⟩ := contextControl_step h hk
    rw [deviceCommands_outputs e, getDevice_endPrint d h1 h2]; show r1.outputBuffer.length = _; rw [(processText_quiet a).1]
  case textStyle =>
    obtain ⟨c, o, a, b, d⟩ := textStyle_step h hk
    rw [deviceCommands_outputs d, getDevice_endPrint b h1 h2]; rfl
  case graphics =>
    obtain ⟨r1, g, r2, o, a, b, c, d, e⟩ := graphics_step h hk
    rw [deviceCommands_outputs e, getDevice_endPrint d h1 h2, processGraphicsOpt_outputs (processText_quiet a).3 c, (processText_quiet a).1]; rfl
  case text =>
    obtain ⟨o, _, rfl⟩ := processCommand_text h hk
    rfl
  case subcommand =>
    unfold processCommand at h; rw [hk] at h; dsimp only at h; rw [pure_ok] at h; subst h; rfl
  case unknown =>
    unfold processCommand at h; rw [hk] at h; simp only [bind_ok, pure_ok] at h
    obtain ⟨r1, a, rfl⟩ := h
    show r1.outputBuffer.length = _; rw [(processText_quiet a).1]

theorem base_handlers : ∀ b ∈ baseCommands ++ [beginPrintCmd, endPrintCmd],
    (b.handler = .unit .formfeed → b = formfeedCmd) ∧ (b.handler = .unit .setPageMode → b = setPageModeCmd) ∧
    (b.handler = .unit .selectStandardMode → b = selectStandardModeCmd) := by decide +kernel

theorem known_handler {c : Command} (h : Known c) {id : Hid} (hh : c.handler = .unit id) :
    ∃ base ∈ baseCommands ++ [beginPrintCmd, endPrintCmd], Derived base c ∧ base.handler = .unit id := by
  rcases h with ⟨base, hb, hk, hd⟩ | ⟨op, hdr, x, h1, h2, h3, h4, h5⟩
  · refine ⟨base, hb, hd, ?_⟩
    have := hd.handler
    rw [hh] at this
    rcases h1 : base.handler <;> rw [h1] at this <;> simp [Handler.sameClass] at this
    rw [this]
  · rw [hh] at h4; cases h4

theorem penDown_enabled {c c' : Context} (h : PenDown c c') : c'.pageMode.enabled = c.pageMode.enabled := by
  obtain ⟨_, _, _, _, rfl, _, _⟩ := h; rfl

/-- What FF does. -/
theorem formfeed_step {cmd : Command} {r r' : Renderer σ Out} (h : processCommand R ext r cmd = .ok r')
    (hd : Derived formfeedCmd cmd) :
    r'.outputBuffer.length = r.outputBuffer.length + (if r.context.pageMode.enabled then 0 else 1) ∧
    r'.context.pageMode.enabled = false := by
  obtain ⟨r1, o, a, b, c⟩ := control_step h hd.kind
  have hh : cmd.handler = .unit .formfeed := derived_unit hd rfl
  have e1 : r1.context.pageMode.enabled = r.context.pageMode.enabled := penDown_enabled (processText_quiet a).4
  have e2 := deviceCommands_context c
  rw [deviceCommands_outputs c, (processText_quiet a).1]
  simp only [getDevice, hh, getDeviceUnit] at b
  cases hp : r.context.pageMode.enabled <;> rw [hp] at b e1 <;> simp only [pure_ok, if_true, Bool.false_eq_true, if_false] at b <;>
    subst b <;> refine ⟨rfl, ?_⟩
  · have e3 : r1.context = r'.context := by
      simp only [Option.getD, List.foldlM_cons, List.foldlM_nil, deviceContext, bind_ok, pure_ok, ok_ok] at e2
      obtain ⟨x, hx, e2⟩ := e2
      rw [hx]; exact e2
    rw [← e3]; exact e1
  · simp only [Option.getD, List.foldlM_cons, List.foldlM_nil, deviceContext, bind_ok, pure_ok, ok_ok] at e2
    obtain ⟨c1, rfl, c2, ⟨y, _, rfl⟩, e2⟩ := e2
    rw [← e2]; rfl

/-- One command, by its opcode. -/
theorem job_step {cmd : Command} (hc : Known cmd) (he : ¬ cmd.isEnd) {r r' : Renderer σ Out} (h : processCommand R ext r cmd = .ok r') :
    r'.outputBuffer.length = r.outputBuffer.length + (if cmd.commands = [0x0C] ∧ r.context.pageMode.enabled = false then 1 else 0) ∧
    r'.context.pageMode.enabled = Spec.pageModeAfter r.context.pageMode.enabled cmd.commands := by
  have he' : cmd.handler ≠ .unit .endPrint := he
  by_cases h1 : cmd.commands = [0x0C]
  · have hd : Derived formfeedCmd cmd := known_derived (by decide) hc h1
    obtain ⟨a, b⟩ := formfeed_step h hd
    refine ⟨?_, ?_⟩
    · rw [a, h1]; cases r.context.pageMode.enabled <;> rfl
    · rw [b, h1]; rfl
  · have h2 : cmd.handler ≠ .unit .formfeed := by
      intro hh
      obtain ⟨base, hb, hd, hh'⟩ := known_handler hc hh
      rw [(base_handlers base hb).1 hh'] at hd
      exact h1 hd.commands
    refine ⟨by rw [processCommand_outputs h he' h2, if_neg (fun h => h1 h.1)]; rfl, ?_⟩
    by_cases h3 : cmd.commands = [0x1B, 0x4C]
    · have hd : Derived setPageModeCmd cmd := known_derived (by decide) hc h3
      obtain ⟨r1, c, o, a, b, d, e⟩ := contextControl_step h hd.kind
      have hh : cmd.handler = .unit .setPageMode := derived_unit hd rfl
      have e2 := deviceCommands_context e
      simp only [getDevice, hh, getDeviceUnit, pure_ok] at d
      subst d
      simp only [Option.getD, List.foldlM_cons, List.foldlM_nil, deviceContext, bind_ok, pure_ok, ok_ok] at e2
      obtain ⟨c1, rfl, e2⟩ := e2
      rw [← e2, h3]; rfl
    · by_cases h4 : cmd.commands = [0x1B, 0x53]
      · have hd : Derived selectStandardModeCmd cmd := known_derived (by decide) hc h4
        obtain ⟨r1, a, b, _⟩ := context_step h hd.kind
        have hh : cmd.handler = .unit .selectStandardMode := derived_unit hd rfl
        simp only [applyContext, hh, applyUnit, pure_ok] at b
        rw [← b, h4]; rfl
      · unfold Spec.pageModeAfter
        rw [if_neg h3, if_neg (by simp [h4, h1])]
        refine processCommand_only h .pageEnabled ?_
        have n1 : ∀ h : Hid, h ≠ .selectStandardMode → Setting.pageEnabled ∉ applyWrites h := by intro h; cases h <;> decide
        have n2 : ∀ h : SubId, Setting.pageEnabled ∉ subWrites h := by intro h; cases h <;> decide
        have h5 : cmd.handler ≠ .unit .selectStandardMode := by
          intro hh
          obtain ⟨base, hb, hd, hh'⟩ := known_handler hc hh
          rw [(base_handlers base hb).2.2 hh'] at hd
          exact h4 hd.commands
        have h6 : cmd.handler ≠ .unit .setPageMode := by
          intro hh
          obtain ⟨base, hb, hd, hh'⟩ := known_handler hc hh
          rw [(base_handlers base hb).2.1 hh'] at hd
          exact h3 hd.commands
        have n3 : Setting.pageEnabled ∉ handlerWrites cmd.handler := by
          unfold handlerWrites; split
          · rename_i id hh; exact n1 _ (fun he => h5 (by rw [hh, he]))
          · exact n2 _
          · decide
          · split
            · exact n2 _
            · decide
          · decide
        have n4 : Setting.pageEnabled ∉ deviceHandlerWrites cmd.handler := by
          unfold deviceHandlerWrites
          split <;> first | decide | (rename_i hh; first | exact absurd hh h2 | exact absurd hh h5 | exact absurd hh h6)
        have n5 : Setting.pageEnabled ∉ penSettings := by decide
        unfold commandWrites
        split <;> simp [n3, n4, n5]

theorem jobs_steps {cmds : List Command} (hc : ∀ c ∈ cmds, Known c ∧ ¬ c.isEnd) {r r' : Renderer σ Out}
    (h : processCommands R ext cmds r = .ok r') :
    r'.outputBuffer.length = r.outputBuffer.length + Spec.formFeeds r.context.pageMode.enabled (cmds.map (·.commands)) := by
  induction cmds generalizing r with
  | nil => simp only [processCommands, ok_ok] at h; subst h; rfl
  | cons d ds ih =>
    simp only [processCommands, bind_ok] at h
    obtain ⟨r1, h1, h2⟩ := h
    have hs := job_step (hc d (by simp)).1 (hc d (by simp)).2 h1
    rw [ih (fun c hcm => hc c (List.mem_cons_of_mem _ hcm)) h2, hs.1, hs.2, List.map_cons, Spec.formFeeds]
    omega

theorem parseEscPos_framed {bytes : List Byte} {cmds : List Command} (h : parseEscPos bytes = .ok cmds) :
    ∃ mid, cmds = beginPrintCmd :: mid ++ [endPrintCmd] ∧ ∀ c ∈ mid, ¬ c.isBegin ∧ ¬ c.isEnd := by
  rw [parseEscPos_eq] at h
  rcases hx : PS.init.run bytes with e | s
  · rw [hx] at h; simp [Except.map] at h
  · rw [hx] at h
    simp only [Except.map, Except.ok.injEq] at h
    subst h
    exact finish_framed hx

theorem formFeeds_append (on : Bool) (xs ys : List (List Byte)) (hy : ∀ y ∈ ys, y ≠ [0x0C]) :
    Spec.formFeeds on (xs ++ ys) = Spec.formFeeds on xs := by
  induction xs generalizing on with
  | nil =>
    simp only [List.nil_append, Spec.formFeeds]
    induction ys generalizing on with
    | nil => rfl
    | cons y ys ih =>
      rw [Spec.formFeeds, ih (fun z hz => hy z (List.mem_cons_of_mem _ hz)), if_neg (fun h => hy y (by simp) h.1)]
  | cons x xs ih => rw [List.cons_append, Spec.formFeeds, Spec.formFeeds, ih]

/-- C49. Rendering a stream returns one document, and one more for each form feed executed in standard mode. -/
theorem C49_documents {r r' : Renderer σ Out} {bytes : List Byte} {cmds outs errs} (hp : parseEscPos bytes = .ok cmds)
    (h0 : r.outputBuffer = [])
    (h : render R ext r bytes = .ok (outs, errs, r')) :
    outs.length = 1 + Spec.formFeeds r.context.pageMode.enabled (cmds.map (·.commands)) ∧ r'.outputBuffer = [] := by
  simp only [render, bind_ok, pure_ok] at h
  obtain ⟨cmds', h1, r1, h2, h3⟩ := h
  rw [hp, ok_ok] at h1; subst h1
  simp only [Prod.mk.injEq] at h3
  obtain ⟨rfl, _, rfl⟩ := h3
  refine ⟨?_, rfl⟩
  obtain ⟨mid, hm, hb⟩ := parseEscPos_framed hp
  have hk := parse_known hp
  rw [hm] at h2 hk
  rw [processCommands_append, bind_ok] at h2
  obtain ⟨r2, ha, hz⟩ := h2
  have e1 := jobs_steps (cmds := beginPrintCmd :: mid) (by
    intro c hc
    refine ⟨hk c (List.mem_append_left _ hc), ?_⟩
    rcases List.mem_cons.1 hc with rfl | hc
    · decide
    · exact (hb c hc).2) ha
  simp only [processCommands, bind_ok, ok_ok] at hz
  obtain ⟨_, hz, rfl⟩ := hz
  obtain ⟨r3, o, a, b, c⟩ := control_step hz rfl
  simp only [getDevice, endPrintCmd, getDeviceUnit, pure_ok] at b
  subst b
  rw [deviceCommands_outputs c, (processText_quiet a).1]
  show r2.outputBuffer.length + 1 = _
  rw [e1, hm, h0, List.map_append, formFeeds_append]
  · simp; omega
  · intro y hy
    simp only [List.map_cons, List.map_nil, List.mem_singleton] at hy
    subst hy; decide

theorem formFeeds_none (on : Bool) (ops : List (List Byte)) (h : [0x0C] ∉ ops) : Spec.formFeeds on ops = 0 := by
  have := formFeeds_append on [] ops (fun y hy he => h (he ▸ hy))
  simpa [Spec.formFeeds] using this

/-- C49. A stream without the byte FF gives exactly one document. -/
theorem C49_one_document {r r' : Renderer σ Out} {bytes : List Byte} {outs errs} (h0 : r.outputBuffer = [])
    (hf : 0x0C ∉ bytes) (h : render R ext r bytes = .ok (outs, errs, r')) : outs.length = 1 := by
  have h' := h
  simp only [render, bind_ok, pure_ok] at h'
  obtain ⟨cmds, hp, _⟩ := h'
  rw [(C49_documents hp h0 h).1, formFeeds_none]
  intro hm
  obtain ⟨c, hc, he⟩ := List.mem_map.1 hm
  have := opcode_in_stream hp hc (by rw [he]; decide +kernel)
  rw [he] at this
  exact hf (this.subset (by simp))

/-- A job with two form feeds: one in standard mode, one that prints the page. -/
example : ∃ cmds outs errs r, parseEscPos [65, 12, 27, 76, 66, 12, 67] = .ok cmds ∧
    render silent noExt (Renderer.new ()) [65, 12, 27, 76, 66, 12, 67] = .ok (outs, errs, r) ∧
    Spec.formFeeds false (cmds.map (·.commands)) = 1 ∧ outs.length = 2 := by
  refine ⟨_, _, _, _, rfl, rfl, ?_⟩; decide +kernel

/-- `C49_one_document` on text, bold text and a cut. -/
example : ∃ outs errs r, render silent noExt (Renderer.new ()) [65, 27, 69, 1, 66, 10, 29, 86, 0] = .ok (outs, errs, r) ∧
    outs.length = 1 := by
  refine ⟨_, _, _, rfl, ?_⟩; decide +kernel

/-! ### C50 -/

/-- The recorder only ever adds calls. -/
theorem deviceCommand_calls {d : DeviceCommand} {r r' : Renderer (List (Context × Call)) Unit} (h : deviceCommand recorder r d = .ok r') :
    r.child <+: r'.child := by
  simp only [deviceCommand, bind_ok, recorder, ok_ok] at h
  obtain ⟨s, rfl, h⟩ := h
  cases d <;> simp only [bind_ok, pure_ok, ok_ok] at h
  case beginPrint => obtain ⟨c, h1, s, rfl, rfl⟩ := h; simp
  case endPrint => obtain ⟨_, rfl, rfl⟩ := h; simp
  case feedLine => obtain ⟨c, h1, rfl⟩ := h; simp
  case feed => obtain ⟨c, h1, rfl⟩ := h; simp
  case fullCut => obtain ⟨c, h1, rfl⟩ := h; simp
  case partialCut => obtain ⟨c, h1, rfl⟩ := h; simp
  case beginPageMode => obtain ⟨c, rfl, rfl⟩ := h; simp
  case endPageMode => obtain ⟨c, rfl, rfl⟩ := h; simp
  case printPageMode => obtain ⟨s, rfl, y, h1, rfl⟩ := h; simp
  case changePageArea =>
    simp only [pageAreaChanged, bind_ok, pure_ok, ok_ok] at h
    obtain ⟨⟨p, rot, w, hh⟩, h1, s, rfl, rfl⟩ := h; simp
  case changePageModeDirection =>
    simp only [pageAreaChanged, bind_ok, pure_ok, ok_ok] at h
    obtain ⟨⟨p, rot, w, hh⟩, h1, s, rfl, rfl⟩ := h; simp
  all_goals (subst h; simp)

theorem deviceCommands_calls {ds : List DeviceCommand} {r r' : Renderer (List (Context × Call)) Unit}
    (h : deviceCommands recorder ds r = .ok r') : r.child <+: r'.child := by
  induction ds generalizing r with
  | nil => simp only [deviceCommands, ok_ok] at h; subst h; exact List.prefix_refl _
  | cons d ds ih =>
    simp only [deviceCommands, bind_ok] at h
    obtain ⟨r1, h1, h2⟩ := h
    exact (deviceCommand_calls h1).trans (ih h2)

theorem renderLines_prefix {ls} {r r' : Renderer (List (Context × Call)) Unit} (h : renderLines recorder ls r = .ok r') :
    r.child <+: r'.child := by
  induction ls generalizing r with
  | nil => simp only [renderLines, ok_ok] at h; subst h; exact List.prefix_refl _
  | cons l ls ih =>
    simp only [renderLines, bind_ok] at h
    obtain ⟨r1, h1, h2⟩ := h
    refine List.IsPrefix.trans ?_ (ih h2)
    unfold renderLine at h1
    split at h1
    · rw [ok_ok] at h1; subst h1; exact List.prefix_refl _
    · simp only [bind_ok, pure_ok, recorder, ok_ok] at h1
      obtain ⟨_, _, _, _, s, rfl, rfl⟩ := h1
      simp

theorem processText_prefix {r r' : Renderer (List (Context × Call)) Unit} (h : processText recorder r = .ok r') :
    r.child <+: r'.child := by
  unfold processText at h
  split at h
  · rw [ok_ok] at h; subst h; exact List.prefix_refl _
  · simp only [bind_ok] at h
    obtain ⟨⟨c, ls⟩, _, h⟩ := h
    have := renderLines_prefix h; exact this

theorem barcodeText_prefix {r r' : Renderer (List (Context × Call)) Unit} {b} (h : barcodeText recorder r b = .ok r') :
    r.child <+: r'.child := by
  simp only [barcodeText, bind_ok, pure_ok] at h
  obtain ⟨r1, h1, c, _, rfl⟩ := h
  have := processText_prefix h1
  exact this

theorem processGraphicsOpt_calls {r r' : Renderer (List (Context × Call)) Unit} {g} (h : processGraphicsOpt recorder r g = .ok r') :
    r.child <+: r'.child := by
  unfold processGraphicsOpt at h
  split at h
  · unfold processGraphics at h
    split at h
    · rw [pure_ok] at h; subst h; exact List.prefix_refl _
    · simp only [processCode2d, bind_ok, pure_ok, recorder, ok_ok] at h
      obtain ⟨_, _, _, _, ⟨_, _⟩, _, _, rfl, rfl⟩ := h; simp
    · simp only [processBarcode, bind_ok] at h
      obtain ⟨r1, h1, r2, h2, h3⟩ := h
      have a : r.child <+: r1.child := by
        unfold barcodeAbove at h1
        split at h1
        · exact barcodeText_prefix h1
        · rw [ok_ok] at h1; subst h1; exact List.prefix_refl _
      have b : r1.child <+: r2.child := by
        simp only [barcodeBars, bind_ok, pure_ok, recorder, ok_ok] at h2
        obtain ⟨_, _, _, _, ⟨_, _⟩, _, _, rfl, _, _, rfl⟩ := h2; simp
      have c : r2.child <+: r'.child := by
        unfold barcodeBelow at h3
        split at h3
        · simp only [bind_ok] at h3
          obtain ⟨_, _, h3⟩ := h3
          have := barcodeText_prefix h3
          exact this
        · rw [ok_ok] at h3; subst h3; exact List.prefix_refl _
      exact a.trans (b.trans c)
    · simp only [processImage, bind_ok, pure_ok, recorder, ok_ok] at h
      obtain ⟨_, _, _, rfl, _, _, rfl⟩ := h; simp
    · rw [pure_ok] at h; subst h; exact List.prefix_refl _
  · rw [ok_ok] at h; subst h; exact List.prefix_refl _

/-- C50. Every command that is neither text nor text style first has all the collected text printed (that is, `r1`; C29
says which calls these are), and only then makes its own calls to the output renderer; no collected text is left. -/
theorem C50_flush_first {cmd : Command} {r r' : Renderer (List (Context × Call)) Unit} (h : processCommand recorder ext r cmd = .ok r')
    (hk : cmd.kind ≠ .text ∧ cmd.kind ≠ .textStyle ∧ cmd.kind ≠ .subcommand) :
    r'.spanBuffer = [] ∧ ∃ r1, processText recorder r = .ok r1 ∧ ∃ effect, r'.child = r1.child ++ effect := by
  refine ⟨processCommand_flushes h hk, ?_⟩
  suffices ∃ r1, processText recorder r = .ok r1 ∧ r1.child <+: r'.child by
    obtain ⟨r1, h1, e, h2⟩ := this
    exact ⟨r1, h1, e, h2.symm⟩
  rcases hkk : cmd.kind
  case control =>
    obtain ⟨r1, o, a, b, c⟩ := control_step h hkk
    exact ⟨r1, a, deviceCommands_calls c⟩
  case context =>
    obtain ⟨r1, a, b, c⟩ := context_step h hkk
    exact ⟨r1, a, by rw [c]; exact List.prefix_refl _⟩
  case contextControl =>
    obtain ⟨r1, c, o, a, b, d, e⟩ := contextControl_step h hkk
    have := deviceCommands_calls e
    exact ⟨r1, a, this⟩
  case textStyle => exact absurd hkk hk.2.1
  case graphics =>
    obtain ⟨r1, g, r2, o, a, b, c, d, e⟩ := graphics_step h hkk
    exact ⟨r1, a, (processGraphicsOpt_calls c).trans (deviceCommands_calls e)⟩
  case text => exact absurd hkk hk.1
  case subcommand => exact absurd hkk hk.2.2
  case unknown =>
    unfold processCommand at h; rw [hkk] at h; simp only [bind_ok, pure_ok] at h
    obtain ⟨r1, a, rfl⟩ := h
    exact ⟨r1, a, List.prefix_refl _⟩

theorem base_textStyle : ∀ b ∈ baseCommands ++ [beginPrintCmd, endPrintCmd], b.kind = .textStyle →
    b.handler = .unit .setCharacterSize ∨ b.handler = .unit .setTabLen ∨ deviceHandlerWrites b.handler = [] ∧
      b.handler ≠ .unit .endPrint ∧ b.handler ≠ .unit .cancel ∧ b.handler ≠ .unit .initialize := by decide +kernel

theorem sub_textStyle {c : Command} (hc : Known c) (hk : c.kind = .textStyle) :
    ∃ base ∈ baseCommands ++ [beginPrintCmd, endPrintCmd], Derived base c := by
  rcases hc with ⟨base, hb, _, hd⟩ | ⟨op, hdr, x, h1, h2, h3, h4, h5⟩
  · exact ⟨base, hb, hd⟩
  · exfalso
    have n1 : ∀ n < 256, ∀ x ∈ (Spec.graphicsFunction (UInt8.ofNat n)).toList, x.kind ≠ .textStyle := by decide +kernel
    have n2 : ∀ d < 7, ∀ n < 256, ∀ x ∈ (Spec.code2dImplemented (UInt8.ofNat (48 + d)) (UInt8.ofNat n)).toList, x.kind ≠ .textStyle := by decide +kernel
    rcases h5 with ⟨_, hx⟩ | ⟨_, _, hx⟩
    · have := n1 (metaFn hdr).toNat (UInt8.toNat_lt _) x (by rw [UInt8.ofNat_toNat, hx]; simp)
      exact this (by rw [← h2, hk])
    · obtain ⟨a, b⟩ := code2dImplemented_range hx
      have := n2 ((metaM hdr).toNat - 48) (by omega) (metaFn hdr).toNat (UInt8.toNat_lt _) x
        (by rw [show 48 + ((metaM hdr).toNat - 48) = (metaM hdr).toNat by omega, UInt8.ofNat_toNat, UInt8.ofNat_toNat, hx]; simp)
      exact this (by rw [← h2, hk])

/-- The device commands of a text style command. -/
theorem textStyle_device {cmd : Command} (hc : Known cmd) (hk : cmd.kind = .textStyle) {c : Context} {o}
    (h : getDevice cmd c = .ok o) : ∀ d ∈ o.getD [], (∃ w, d = .setTextWidth w) ∨ (∃ w, d = .setTextHeight w) ∨ (∃ n k, d = .changeTabs n k) := by
  obtain ⟨base, hb, hd⟩ := sub_textStyle hc hk
  have key : ∀ id, base.handler = .unit id → cmd.handler = .unit id := fun id => derived_unit hd
  unfold getDevice at h
  split at h
  · rename_i id hh
    have hbase : base.handler = .unit id := by
      have := hd.handler
      rw [hh] at this
      rcases h1 : base.handler <;> rw [h1] at this <;> simp [Handler.sameClass] at this
      rw [this]
    have hx := base_textStyle base hb (by rw [← hd.kind, hk])
    rw [hbase] at hx
    cases id <;> simp only [getDeviceUnit, pure_ok, bind_ok] at h <;> simp [deviceHandlerWrites, penSettings, pageGeometry] at hx
    case setCharacterSize => subst h; simp
    case setTabLen => obtain ⟨_, _, rfl⟩ := h; simp
    all_goals (subst h; simp)
  · rename_i hh
    have := hd.handler
    have hx := base_textStyle base hb (by rw [← hd.kind, hk])
    rw [hh] at this
    rcases h1 : base.handler <;> rw [h1] at this hx <;> simp [Handler.sameClass] at this
    subst this
    simp [deviceHandlerWrites] at hx
  · rw [pure_ok] at h; subst h; simp

theorem quiet_devices {ds : List DeviceCommand}
    (hd : ∀ d ∈ ds, (∃ w, d = .setTextWidth w) ∨ (∃ w, d = .setTextHeight w) ∨ (∃ n k, d = .changeTabs n k))
    {r r' : Renderer (List (Context × Call)) Unit} (h : deviceCommands recorder ds r = .ok r') :
    ∃ calls, r'.child = r.child ++ calls ∧ ∀ x ∈ calls, ∃ d, x.2 = .device d := by
  induction ds generalizing r with
  | nil => simp only [deviceCommands, ok_ok] at h; subst h; exact ⟨[], by simp⟩
  | cons d ds ih =>
    simp only [deviceCommands, bind_ok] at h
    obtain ⟨r1, h1, h2⟩ := h
    obtain ⟨calls, e1, e2⟩ := ih (fun d hm => hd d (List.mem_cons_of_mem _ hm)) h2
    have e3 : r1.child = r.child ++ [(r.context, .device d)] := by
      simp only [deviceCommand, bind_ok, recorder, ok_ok] at h1
      obtain ⟨s, rfl, h1⟩ := h1
      rcases hd d (by simp) with ⟨w, rfl⟩ | ⟨w, rfl⟩ | ⟨n, k, rfl⟩ <;>
        (dsimp only at h1; rw [pure_ok] at h1; subst h1; rfl)
    refine ⟨(r.context, .device d) :: calls, by rw [e1, e3]; simp, ?_⟩
    intro x hx
    rcases List.mem_cons.1 hx with rfl | hx
    · exact ⟨d, rfl⟩
    · exact e2 x hx

/-- C50. Text and text style commands print nothing: a text command adds its span to the collected text, a text style
command keeps the collected text as it is, and the only calls made are notifications. -/
theorem C50_collect {cmd : Command} (hp : Parsed cmd) {r r' : Renderer (List (Context × Call)) Unit}
    (h : processCommand recorder ext r cmd = .ok r') (hk : cmd.kind = .text ∨ cmd.kind = .textStyle) :
    (∃ spans, r'.spanBuffer = r.spanBuffer ++ spans ∧ (cmd.kind = .textStyle → spans = [])) ∧
    ∃ calls, r'.child = r.child ++ calls ∧ ∀ x ∈ calls, ∃ d, x.2 = .device d := by
  rcases hk with hk | hk
  · obtain ⟨o, _, rfl⟩ := processCommand_text h hk
    exact ⟨⟨_, rfl, fun h' => by rw [hk] at h'; cases h'⟩, [], by simp⟩
  · refine ⟨⟨[], by rw [processCommand_keeps h (.inl hk)]; simp, fun _ => rfl⟩, ?_⟩
    obtain ⟨c, o, _, b, d⟩ := textStyle_step h hk
    have := quiet_devices (textStyle_device hp.known hk b) d
    exact this

/-- C50. When rendering ends, no collected text is left. -/
theorem C50_nothing_left {r r' : Renderer σ Out} {bytes : List Byte} {outs errs}
    (h : render R ext r bytes = .ok (outs, errs, r')) : r'.spanBuffer = [] := by
  simp only [render, bind_ok, pure_ok] at h
  obtain ⟨cmds, hp, r1, h2, h3⟩ := h
  simp only [Prod.mk.injEq] at h3
  obtain ⟨_, _, rfl⟩ := h3
  obtain ⟨mid, hm, hb⟩ := parseEscPos_framed hp
  rw [hm, processCommands_append, bind_ok] at h2
  obtain ⟨r2, ha, hz⟩ := h2
  simp only [processCommands, bind_ok, ok_ok] at hz
  obtain ⟨r3, hz, rfl⟩ := hz
  show r3.spanBuffer = []
  exact processCommand_flushes (cmd := endPrintCmd) hz (by decide)

/-- Text before a line spacing command: the text is printed first. -/
example : ∃ cmds r1 r2, parseEscPos [72, 105, 27, 51, 40] = .ok cmds ∧
    processCommands recorder noExt (cmds.take 3) (Renderer.new []) = .ok r1 ∧ r1.spanBuffer.map (·.text) = ["Hi".toList] ∧
    processCommands recorder noExt (cmds.take 4) (Renderer.new []) = .ok r2 ∧ r2.spanBuffer = [] ∧
    (r2.child.flatMap (·.2.spans)).map (·.text) = ["Hi".toList] := by
  refine ⟨_, _, _, rfl, rfl, ?_, rfl, ?_⟩ <;> decide +kernel

/-! ### C56 -/

/-- C56. An unknown command adds one error, which shows its bytes, and has no effect of its own: what is left is what
flushing the collected text gives; without collected text the renderer is unchanged. -/
theorem C56_unknown {cmd : Command} {r r' : Renderer σ Out} (h : processCommand R ext r cmd = .ok r') (hk : cmd.kind = .unknown) :
    (∃ r1, processText R r = .ok r1 ∧ r' = { r1 with errorBuffer := r'.errorBuffer }) ∧
    (r.spanBuffer = [] → r' = { r with errorBuffer := r'.errorBuffer }) ∧
    r'.errorBuffer = r.errorBuffer ++ [⟨.unknownCommand, debugText cmd⟩] ∧ r'.outputBuffer = r.outputBuffer := by
  unfold processCommand at h; rw [hk] at h; simp only [bind_ok, pure_ok] at h
  obtain ⟨r1, a, rfl⟩ := h
  have q := processText_quiet a
  refine ⟨⟨r1, a, rfl⟩, ?_, ?_, q.1⟩
  · intro hs
    unfold processText at a
    rw [if_pos hs, ok_ok] at a
    subst a; rfl
  · show r1.errorBuffer ++ _ = _
    rw [q.2]

theorem deviceCommand_errors {d : DeviceCommand} {r r' : Renderer σ Out} (h : deviceCommand R r d = .ok r') :
    r'.errorBuffer.filter (·.kind = .unknownCommand) = r.errorBuffer.filter (·.kind = .unknownCommand) := by
  simp only [deviceCommand, bind_ok] at h
  obtain ⟨s, _, h⟩ := h
  cases d <;> simp only [bind_ok, pure_ok] at h
  case endPrint =>
    obtain ⟨⟨s, o⟩, _, rfl⟩ := h
    simp only [List.filter_append]
    rw [List.append_right_eq_self, List.filter_eq_nil_iff]
    intro e he
    obtain ⟨x, _, rfl⟩ := List.mem_map.1 he
    simp
  case beginPrint => obtain ⟨c, h1, s, _, rfl⟩ := h; simp
  case feedLine => obtain ⟨c, h1, rfl⟩ := h; simp
  case feed => obtain ⟨c, h1, rfl⟩ := h; simp
  case fullCut => obtain ⟨c, h1, rfl⟩ := h; simp
  case partialCut => obtain ⟨c, h1, rfl⟩ := h; simp
  case beginPageMode => obtain ⟨c, h1, rfl⟩ := h; simp
  case endPageMode => obtain ⟨c, h1, rfl⟩ := h; simp
  case printPageMode => obtain ⟨s, _, y, h1, rfl⟩ := h; simp
  case changePageArea => obtain ⟨_, _, _, h3⟩ := pageAreaChanged_context h; simp [h3]
  case changePageModeDirection => obtain ⟨_, _, _, h3⟩ := pageAreaChanged_context h; simp [h3]
  all_goals (subst h; simp)

theorem deviceCommands_errors {ds : List DeviceCommand} {r r' : Renderer σ Out} (h : deviceCommands R ds r = .ok r') :
    r'.errorBuffer.filter (·.kind = .unknownCommand) = r.errorBuffer.filter (·.kind = .unknownCommand) := by
  induction ds generalizing r with
  | nil => simp only [deviceCommands, ok_ok] at h; subst h; rfl
  | cons d ds ih =>
    simp only [deviceCommands, bind_ok] at h
    obtain ⟨r1, h1, h2⟩ := h
    rw [ih h2, deviceCommand_errors h1]

theorem processGraphicsOpt_errors {r r' : Renderer σ Out} {g} (hs : r.spanBuffer = []) (h : processGraphicsOpt R r g = .ok r') :
    r'.errorBuffer.filter (·.kind = .unknownCommand) = r.errorBuffer.filter (·.kind = .unknownCommand) := by
  unfold processGraphicsOpt at h
  split at h
  · unfold processGraphics at h
    split at h
    · rw [pure_ok] at h; subst h
      simp [logError]
    · rw [(processCode2d_quiet h).2]
    · rw [(processBarcode_quiet hs h).2]
    · rw [(processImage_quiet h).2]
    · rw [pure_ok] at h; subst h; rfl
  · rw [ok_ok] at h; subst h; rfl

theorem processCommand_errors {cmd : Command} {r r' : Renderer σ Out} (h : processCommand R ext r cmd = .ok r') :
    r'.errorBuffer.filter (·.kind = .unknownCommand) = r.errorBuffer.filter (·.kind = .unknownCommand) ++
      (if cmd.kind = .unknown then [⟨.unknownCommand, debugText cmd⟩] else []) := by
  by_cases hk : cmd.kind = .unknown
  · rw [(C56_unknown h hk).2.2.1, if_pos hk, List.filter_append]; rfl
  rw [if_neg hk, List.append_nil]
  rcases hkk : cmd.kind
  case control =>
    obtain ⟨r1, o, a, b, c⟩ := control_step h hkk
    rw [deviceCommands_errors c, (processText_quiet a).2]
  case context =>
    obtain ⟨r1, a, b, c⟩ := context_step h hkk
    rw [c]; show r1.errorBuffer.filter _ = _; rw [(processText_quiet a).2]
  case contextControl =>
    obtain ⟨r1, c, o, a, b, d, e⟩ := contextControl_step h hkk
    rw [deviceCommands_errors e]; show r1.errorBuffer.filter _ = _; rw [(processText_quiet a).2]
  case textStyle =>
    obtain ⟨c, o, a, b, d⟩ := textStyle_step h hkk
    rw [deviceCommands_errors d]
  case graphics =>
    obtain ⟨r1, g, r2, o, a, b, c, d, e⟩ := graphics_step h hkk
    rw [deviceCommands_errors e, processGraphicsOpt_errors (processText_quiet a).3 c, (processText_quiet a).2]
  case text =>
    obtain ⟨o, _, rfl⟩ := processCommand_text h hkk
    rfl
  case subcommand =>
    unfold processCommand at h; rw [hkk] at h; dsimp only at h; rw [pure_ok] at h; subst h; rfl
  case unknown => exact absurd hkk hk

theorem processCommands_errors {cmds : List Command} {r r' : Renderer σ Out} (h : processCommands R ext cmds r = .ok r') :
    r'.errorBuffer.filter (·.kind = .unknownCommand) = r.errorBuffer.filter (·.kind = .unknownCommand) ++
      (cmds.filter (·.kind = .unknown)).map (fun c => ⟨.unknownCommand, debugText c⟩) := by
  induction cmds generalizing r with
  | nil => simp only [processCommands, ok_ok] at h; subst h; simp
  | cons d ds ih =>
    simp only [processCommands, bind_ok] at h
    obtain ⟨r1, h1, h2⟩ := h
    rw [ih h2, processCommand_errors h1, List.filter_cons]
    by_cases hk : d.kind = .unknown <;> simp [hk]

/-- C56. The unknown commands reported for a job are exactly the unknown commands of the stream, one error each, in order. -/
theorem C56_reported {r r' : Renderer σ Out} {bytes : List Byte} {cmds outs errs} (hp : parseEscPos bytes = .ok cmds)
    (h0 : r.errorBuffer = []) (h : render R ext r bytes = .ok (outs, errs, r')) :
    errs.filter (·.kind = .unknownCommand) = (cmds.filter (·.kind = .unknown)).map (fun c => ⟨.unknownCommand, debugText c⟩) ∧
    r'.errorBuffer = [] := by
  simp only [render, bind_ok, pure_ok] at h
  obtain ⟨cmds', h1, r1, h2, h3⟩ := h
  rw [hp, ok_ok] at h1; subst h1
  simp only [Prod.mk.injEq] at h3
  obtain ⟨_, rfl, rfl⟩ := h3
  refine ⟨?_, rfl⟩
  rw [processCommands_errors h2, h0]; rfl

/-- `ESC ESC 1` between two texts: one error, and the text before it is printed. -/
example : ∃ cmds outs errs r, parseEscPos [72, 27, 27, 49, 10, 73] = .ok cmds ∧ (cmds.filter (·.kind = .unknown)).length = 2 ∧
    render silent noExt (Renderer.new ()) [72, 27, 27, 49, 10, 73] = .ok (outs, errs, r) ∧ errs.length = 2 ∧
    errs.map (fun e => String.ofList e.description) = ["Unknown Command", "Unknown Command [1B, 1B, 31]"] := by
  refine ⟨_, _, _, _, rfl, ?_, rfl, ?_⟩ <;> decide +kernel

end Thermal
