import Verif.Proofs.PrintedText
/-
C71: the text of a stream is printed in order, each character with the look the reference documents.
-/
namespace Thermal
open Renderer Spec
variable {ext : Ext}

/-- The state between two commands. -/
structure TextState (s : Style) (r : Recording) : Prop where
  styled : Styled s r.context
  limits : Limits r.context
  hri : s.hri = .none

theorem step_hri {s : Style} {op data : List Byte} (h : op ≠ [29, 72]) (hs : s.hri = .none) : (s.step op data).hri = .none := by
  unfold Style.step
  dsimp only
  split <;> first | exact hs | rfl | skip
  · unfold Style.effects; split <;> exact hs
  · exact absurd rfl h
  all_goals (unfold Style.graphics; split; (split <;> exact hs); exact hs)

theorem text_step {s : Style} {cmd : Command} {r r' : Recording} (hc : Known cmd) (hs : TextState s r)
    (hd : ¬ s.deviates cmd.commands cmd.data) (hh : cmd.commands ≠ [29, 72]) (h : processCommand recorder ext r cmd = .ok r') :
    TextState (s.step cmd.commands cmd.data) r' ∧
      shown r' = shown r ++ ((s.textOf cmd).map fun ch => (ch, s.look)).filter (fun p => !isControl p.1) := by
  refine ⟨⟨styled_step hc hs.styled hd h, ?_, step_hri hh hs.hri⟩, ?_⟩
  · exact processCommand_rel (P := fun c c' => Limits c → Limits c') (fun _ h => h) (fun f g h => g (f h)) Limits.pen Limits.apply
      (fun _ _ _ _ _ => Limits.device) h hs.limits
  · by_cases hk : cmd.kind = .text
    · obtain ⟨o, h1, rfl⟩ := processCommand_text h hk
      rw [getText_new hs.styled hc hk, ok_ok] at h1
      subst h1
      simp only [shown, Option.toList_some, ← List.append_assoc]
      rw [List.flatMap_append, List.filter_append]
      congr 2
      simp [looks, look_new hs.styled hs.limits]
      rfl
    · have hn : r.context.barcode.humanReadable = .none := by
        have := hs.hri; rw [← hs.styled.style] at this; exact this
      rw [processCommand_shown hn hk h]
      simp [Style.textOf, hk]

theorem text_steps {s : Style} {cmds : List Command} {r r' : Recording} (hc : ∀ c ∈ cmds, Known c) (hs : TextState s r)
    (hd : s.conforms cmds) (hh : ∀ c ∈ cmds, c.commands ≠ [29, 72]) (h : processCommands recorder ext cmds r = .ok r') :
    shown r' = shown r ++ (printed s cmds).filter (fun p => !isControl p.1) := by
  induction cmds generalizing s r with
  | nil => simp only [processCommands, ok_ok] at h; subst h; simp [printed]
  | cons c cs ih =>
    simp only [processCommands, bind_ok] at h
    obtain ⟨r1, h1, h2⟩ := h
    obtain ⟨a, b⟩ := text_step (hc c (by simp)) hs hd.1 (hh c (by simp)) h1
    rw [ih (fun x hx => hc x (by simp [hx])) a hd.2 (fun x hx => hh x (by simp [hx])) h2, b, printed, List.filter_append,
      List.append_assoc]

/-- C71. The characters the output renderer is asked to draw for a stream, line feeds and tabs aside (they only move the pen),
are exactly the characters of the stream's text in order, each byte read in the code table and character set in force, and each
with the font, size, emphasis, colours, ... in force when it was sent, according to the command reference. -/
theorem C71_printed {bytes : List Byte} {cmds : List Command} (hp : parseEscPos bytes = .ok cmds) (hd : Style.initial.conforms cmds)
    (hh : ∀ c ∈ cmds, c.commands ≠ [29, 72]) {outs errs} {r : Recording}
    (h : render recorder ext (Renderer.new []) bytes = .ok (outs, errs, r)) :
    ((r.child.flatMap (·.2.spans)).flatMap looks).filter (fun p => !isControl p.1) =
      (printed .initial cmds).filter (fun p => !isControl p.1) := by
  have hn := C50_nothing_left h
  simp only [render, bind_ok, pure_ok] at h
  obtain ⟨cmds', h1, r1, h2, h3⟩ := h
  rw [hp, ok_ok] at h1
  subst h1
  simp only [Prod.mk.injEq] at h3
  obtain ⟨rfl, rfl, rfl⟩ := h3
  have := text_steps (parse_known hp) (s := .initial) (r := Renderer.new []) ⟨Styled.start, Limits.start, rfl⟩ hd hh h2
  unfold shown at this
  rw [show r1.spanBuffer = [] from hn] at this
  simpa [Renderer.new] using this

/-- `C71_printed` on `ESC t 2`, "A", `ESC E 1`, the byte 9B (a small o with stroke on PC850), LF, `GS ! 0x11`, "b", `ESC @`, "c". -/
example : ∃ cmds outs errs r, parseEscPos [27, 116, 2, 65, 27, 69, 1, 0x9B, 10, 29, 33, 17, 98, 27, 64, 99] = .ok cmds ∧
    Style.initial.conforms cmds ∧ (∀ c ∈ cmds, c.commands ≠ [29, 72]) ∧
    render recorder noExt (Renderer.new []) [27, 116, 2, 65, 27, 69, 1, 0x9B, 10, 29, 33, 17, 98, 27, 64, 99] = .ok (outs, errs, r) ∧
    ((printed .initial cmds).map fun p => (p.1, p.2.bold, p.2.cell)) =
      [('A', false, 12, 24), ('ø', true, 12, 24), ('\n', true, 12, 24), ('b', true, 24, 48), ('c', false, 12, 24)] := by
  refine ⟨_, _, _, _, rfl, ?_, ?_, rfl, ?_⟩ <;> decide +kernel

/-! ### With captions -/

/-- Commands other than text keep what was shown. -/
theorem processCommand_keeps_shown {cmd : Command} {r r' : Recording} (hk : cmd.kind ≠ .text)
    (h : processCommand recorder ext r cmd = .ok r') : (shown r).Sublist (shown r') := by
  by_cases hkk : cmd.kind = .graphics
  · obtain ⟨r1, g, r2, o, a, b, c, d, e⟩ := graphics_step h hkk
    rw [deviceCommands_shown e, ← processText_shown a]
    have h1 : r1.spanBuffer = [] := (processText_quiet a).3
    obtain ⟨calls, hc⟩ := processGraphicsOpt_calls c
    unfold shown
    rw [h1, ← hc]
    simp only [List.append_nil, List.flatMap_append, List.filter_append, List.append_assoc]
    exact List.sublist_append_left _ _
  · suffices shown r' = shown r by rw [this]
    rcases hk2 : cmd.kind
    case control =>
      obtain ⟨r1, o, a, b, c⟩ := control_step h hk2
      rw [deviceCommands_shown c, processText_shown a]
    case context =>
      obtain ⟨r1, a, b, c⟩ := context_step h hk2
      rw [c]; have := processText_shown a; exact this
    case contextControl =>
      obtain ⟨r1, c, o, a, b, d, e⟩ := contextControl_step h hk2
      rw [deviceCommands_shown e]; have := processText_shown a; exact this
    case textStyle =>
      obtain ⟨c, o, a, b, d⟩ := textStyle_step h hk2
      rw [deviceCommands_shown d]; rfl
    case graphics => exact absurd hk2 hkk
    case text => exact absurd hk2 hk
    case subcommand =>
      unfold processCommand at h; rw [hk2] at h; dsimp only at h; rw [pure_ok] at h; subst h; rfl
    case unknown =>
      unfold processCommand at h; rw [hk2] at h; simp only [bind_ok, pure_ok] at h
      obtain ⟨r1, a, rfl⟩ := h
      have := processText_shown a; exact this

theorem keeps_steps {s : Style} {cmds : List Command} {r r' : Recording} (hc : ∀ c ∈ cmds, Known c) (hs : Styled s r.context)
    (hl : Limits r.context) (hd : s.conforms cmds) (h : processCommands recorder ext cmds r = .ok r') :
    (shown r ++ (printed s cmds).filter (fun p => !isControl p.1)).Sublist (shown r') := by
  induction cmds generalizing s r with
  | nil => simp only [processCommands, ok_ok] at h; subst h; simp [printed]
  | cons c cs ih =>
    simp only [processCommands, bind_ok] at h
    obtain ⟨r1, h1, h2⟩ := h
    have hs1 := styled_step (hc c (by simp)) hs hd.1 h1
    have hl1 : Limits r1.context := processCommand_rel (P := fun c c' => Limits c → Limits c') (fun _ h => h) (fun f g h => g (f h))
      Limits.pen Limits.apply (fun _ _ _ _ _ => Limits.device) h1 hl
    refine List.Sublist.trans ?_ (ih (fun x hx => hc x (by simp [hx])) hs1 hl1 hd.2 h2)
    rw [printed, List.filter_append, ← List.append_assoc]
    refine List.Sublist.append_right ?_ _
    by_cases hk : c.kind = .text
    · obtain ⟨o, h3, rfl⟩ := processCommand_text h1 hk
      rw [getText_new hs (hc c (by simp)) hk, ok_ok] at h3
      subst h3
      have e : shown { r with spanBuffer := r.spanBuffer ++ (some (TextSpan.new (s.textOf c) r.context)).toList } =
          shown r ++ ((s.textOf c).map fun ch => (ch, s.look)).filter (fun p => !isControl p.1) := by
        simp only [shown, Option.toList_some, ← List.append_assoc]
        rw [List.flatMap_append, List.filter_append]
        congr 2
        simp [looks, look_new hs hl]
        rfl
      rw [e]
    · have : s.textOf c = [] := by simp [Style.textOf, hk]
      rw [this]
      simpa using processCommand_keeps_shown hk h1

/-- C71. With captions under or over barcodes (`GS H`) the characters of the stream's text are all drawn, in order and with
their look; the captions come between them. -/
theorem C71_with_captions {bytes : List Byte} {cmds : List Command} (hp : parseEscPos bytes = .ok cmds)
    (hd : Style.initial.conforms cmds) {outs errs} {r : Recording}
    (h : render recorder ext (Renderer.new []) bytes = .ok (outs, errs, r)) :
    ((printed .initial cmds).filter (fun p => !isControl p.1)).Sublist
      (((r.child.flatMap (·.2.spans)).flatMap looks).filter (fun p => !isControl p.1)) := by
  have hn := C50_nothing_left h
  simp only [render, bind_ok, pure_ok] at h
  obtain ⟨cmds', h1, r1, h2, h3⟩ := h
  rw [hp, ok_ok] at h1
  subst h1
  simp only [Prod.mk.injEq] at h3
  obtain ⟨rfl, rfl, rfl⟩ := h3
  have := keeps_steps (parse_known hp) (s := .initial) (r := Renderer.new []) Styled.start Limits.start hd h2
  unfold shown at this
  rw [show r1.spanBuffer = [] from hn] at this
  simpa [Renderer.new] using this

/-- A caption below a barcode, `GS H 2`, between "a" and "b". -/
example : ∃ cmds outs errs r, parseEscPos [97, 29, 72, 2, 29, 107, 70, 4, 49, 50, 51, 52, 98] = .ok cmds ∧ Style.initial.conforms cmds ∧
    render recorder ⟨fun _ _ => .ok [1, 0, 1], fun _ _ _ => none⟩ (Renderer.new []) [97, 29, 72, 2, 29, 107, 70, 4, 49, 50, 51, 52, 98] = .ok (outs, errs, r) ∧
    (r.child.flatMap (·.2.spans)).map (·.text) = [['a'], ['1', '2', '3', '4'], ['b']] := by
  refine ⟨_, _, _, _, rfl, ?_, rfl, ?_⟩ <;> decide +kernel

end Thermal
