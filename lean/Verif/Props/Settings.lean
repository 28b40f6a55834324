import Verif.Proofs.Known
import Verif.Proofs.Touch
import Verif.Proofs.Spans
import Verif.Proofs.NoDiv
import Verif.Spec.Silent
/-
Properties of the printer settings over arbitrary histories of commands.
-/
namespace Thermal
open Renderer
variable {σ Out : Type} {R : OutputRenderer σ Out} {ext : Ext}

/-! ### C34 -/

theorem writes_not_defaults (cmd : Command) : Setting.defaults ∉ commandWrites cmd := by
  have h1 : ∀ h : Hid, Setting.defaults ∉ applyWrites h := by intro h; cases h <;> decide
  have h2 : ∀ h : SubId, Setting.defaults ∉ subWrites h := by intro h; cases h <;> decide
  have h3 : ∀ h : Handler, Setting.defaults ∉ handlerWrites h := by
    intro h; unfold handlerWrites; split
    · exact h1 _
    · exact h2 _
    · decide
    · split
      · exact h2 _
      · decide
    · decide
  have h4 : ∀ h : Handler, Setting.defaults ∉ deviceHandlerWrites h := by
    intro h; unfold deviceHandlerWrites; split <;> decide
  have h5 : Setting.defaults ∉ penSettings := by decide
  unfold commandWrites
  split <;> simp [h3, h4, h5]

/-- C34: no sequence of commands changes the stored defaults. -/
theorem C34_defaults_immutable {cmds : List Command} {r r' : Renderer σ Out} (h : processCommands R ext cmds r = .ok r') :
    r'.context.default = r.context.default := by
  refine processCommands_rel (P := fun c c' => c'.default = c.default) (fun _ => rfl) (fun h1 h2 => h2.trans h1) ?_ h
  intro cmd _ r r' hc
  exact processCommand_only hc .defaults (writes_not_defaults cmd)

/-- C34 for a print job: whatever is printed, the renderer's defaults are the factory settings afterwards. -/
theorem C34_render {s : σ} {bytes : List Byte} {outs errs} {r' : Renderer σ Out}
    (h : render R ext (Renderer.new s) bytes = .ok (outs, errs, r')) : r'.context.default = some defaultSettings := by
  simp only [render, bind_ok, pure_ok] at h
  obtain ⟨cmds, _, r1, h1, h2⟩ := h
  cases h2
  exact C34_defaults_immutable h1

/-! ### C36 -/

/-- Text and text style commands are collected without printing anything; every other command prints the collected text
first, which moves the pen. -/
def movesPen (k : CommandType) : List Setting := if k = .text ∨ k = .textStyle then [] else penSettings

theorem base_writes : ∀ base ∈ baseCommands ++ [beginPrintCmd, endPrintCmd], base.kind ≠ .subcommand →
    ∀ f ∈ commandWrites base, f ∈ documented base.commands ++ movesPen base.kind := by decide +kernel

theorem base_sub_control : ∀ base ∈ baseCommands ++ [beginPrintCmd, endPrintCmd], base.kind ≠ .subcommand →
    (match base.handler with | .sub _ => base.kind = .control | _ => True) := by
  have h : ∀ base ∈ baseCommands ++ [beginPrintCmd, endPrintCmd], base.kind ≠ .subcommand →
    (match base.handler with | .sub _ => decide (base.kind = .control) | _ => true) = true := by decide +kernel
  intro base hb hk
  have := h base hb hk
  split at this <;> simp_all

theorem derived_writes {base c : Command} (hb : base ∈ baseCommands ++ [beginPrintCmd, endPrintCmd])
    (hk : base.kind ≠ .subcommand) (hd : Derived base c) : commandWrites c = commandWrites base := by
  have hc := hd.handler
  have hs := base_sub_control base hb hk
  unfold commandWrites
  rw [hd.kind]
  have e2 : deviceHandlerWrites c.handler = deviceHandlerWrites base.handler := by
    rcases h1 : base.handler <;> rcases h2 : c.handler <;> rw [h1, h2] at hc <;> simp [Handler.sameClass] at hc <;>
      first | rfl | (subst hc; rfl)
  rcases h1 : base.handler <;> rcases h2 : c.handler <;> rw [h1, h2] at hc <;> simp only [Handler.sameClass] at hc <;>
    rw [h1, h2] at e2 <;> rw [h1] at hs
  case sub => dsimp only at hs; rw [hs]; dsimp only; rw [e2]
  case unit => subst hc; rfl
  case subUnit => subst hc; rfl
  all_goals (rw [e2]; rfl)

/-- The settings a selected function of `GS ( k` changes, as a command. -/
def subCommandWrites (x : SubCmd) : List Setting := commandWrites { x.toCommand with data := [] }

theorem graphics_writes (fn : Byte) {x : SubCmd} (h : Spec.graphicsFunction fn = some x) :
    ∀ f ∈ subCommandWrites x, f ∈ documentedGraphics fn ++ movesPen x.kind := by
  have key : ∀ n < 256, ∀ x ∈ (Spec.graphicsFunction (UInt8.ofNat n)).toList,
      ∀ f ∈ subCommandWrites x, f ∈ documentedGraphics (UInt8.ofNat n) ++ movesPen x.kind := by decide +kernel
  have := key fn.toNat (UInt8.toNat_lt fn)
  rw [UInt8.ofNat_toNat, h] at this
  exact this x (by simp)

theorem code2dImplemented_range {m fn : Byte} {x} (h : Spec.code2dImplemented m fn = some x) : 48 ≤ m.toNat ∧ m.toNat ≤ 54 := by
  unfold Spec.code2dImplemented at h
  split at h
  · rename_i hh; rw [hh.1]; decide
  · split at h
    · cases h
    · unfold Spec.code2dFunction at h
      split at h <;> first | omega | cases h

theorem code2d_writes (m fn : Byte) (hne : ¬ (m = 52 ∧ (fn = 67 ∨ fn = 71))) {x : SubCmd}
    (h : Spec.code2dImplemented m fn = some x) :
    ∀ f ∈ subCommandWrites x, f ∈ documentedCode2d m fn ++ movesPen x.kind := by
  have key : ∀ d < 7, ∀ n < 256, ¬ (UInt8.ofNat (48 + d) = 52 ∧ (UInt8.ofNat n = 67 ∨ UInt8.ofNat n = 71)) →
      ∀ x ∈ (Spec.code2dImplemented (UInt8.ofNat (48 + d)) (UInt8.ofNat n)).toList,
      ∀ f ∈ subCommandWrites x, f ∈ documentedCode2d (UInt8.ofNat (48 + d)) (UInt8.ofNat n) ++ movesPen x.kind := by decide +kernel
  obtain ⟨h1, h2⟩ := code2dImplemented_range h
  have := key (m.toNat - 48) (by omega) fn.toNat (UInt8.toNat_lt fn)
  rw [show 48 + (m.toNat - 48) = m.toNat by omega, UInt8.ofNat_toNat, UInt8.ofNat_toNat, h] at this
  exact this hne x (by simp)

theorem subUnit_writes {c : Command} {x : SubCmd} (hk : c.kind = x.kind) (hh : c.handler = .subUnit x.id) :
    commandWrites c = subCommandWrites x := by
  unfold subCommandWrites commandWrites
  rw [hk, hh]
  rfl

/-- `GS ( k` with symbol 52 (composite) and function 67 (width) or 71 (maximum width). -/
def compositeWidthCommand (opcode : List Byte) : Prop :=
  ∃ a b fn, opcode = [29, 40, 107, a, b, 52, fn] ∧ (fn = 67 ∨ fn = 71)

theorem known_writes {c : Command} (h : Known c) (hne : ¬ compositeWidthCommand c.commands) :
    ∀ f ∈ commandWrites c, f ∈ documented c.commands ++ movesPen c.kind := by
  rcases h with ⟨base, hb, hk, hd⟩ | ⟨op, hdr, x, h1, h2, h3, h4, h5⟩
  · rw [derived_writes hb hk hd, hd.commands, hd.kind]
    exact base_writes base hb hk
  · rw [subUnit_writes h2 h4, h2, h1]
    rw [h1] at hne
    rcases h5 with ⟨⟨rfl, hl⟩ | ⟨rfl, hl⟩, hx⟩ | ⟨rfl, hl, hx⟩
    · match hdr, hl with
      | [a, b, m, fn], _ => exact graphics_writes fn hx
    · match hdr, hl with
      | [a, b, p, q, m, fn], _ => exact graphics_writes fn hx
    · match hdr, hl with
      | [a, b, m, fn], _ =>
        refine code2d_writes m fn ?_ hx
        rintro ⟨rfl, hf⟩
        exact hne ⟨a, b, fn, rfl, hf⟩

/-- C36 except for the two settings of composite symbols: processing a command of any print job changes no setting other
than those documented for its opcode and, unless it is a text or text style command, the pen position.
Missing: `GS ( k` functions 67 and 71 of symbol 52 (see `C36_exceptions`). -/
theorem C36_only_documented_partial {bytes : List Byte} {cmds : List Command} (hp : parseEscPos bytes = .ok cmds)
    {cmd : Command} (hc : cmd ∈ cmds) (hne : ¬ compositeWidthCommand cmd.commands) {r r' : Renderer σ Out}
    (h : processCommand R ext r cmd = .ok r') :
    OnlyChanges (documented cmd.commands ++ movesPen cmd.kind) r.context r'.context :=
  (processCommand_only h).mono (known_writes (parse_known hp cmd hc) hne)

/-- C36 is false for two functions of composite symbols: `GS ( k 3 0 52 67 n` (composite width) changes the DataMatrix
width, and `GS ( k 4 0 52 71 n m` (composite maximum width) changes the GS1 DataBar maximum width. -/
theorem C36_exceptions :
    (∃ cmds cmd r', parseEscPos [29, 40, 107, 3, 0, 52, 67, 7, 27, 64] = .ok cmds ∧ cmd ∈ cmds ∧
      processCommand silent noExt (Renderer.new ()) cmd = .ok r' ∧
      ¬ OnlyChanges (documented cmd.commands ++ movesPen cmd.kind) (Renderer.new (Out := Unit) ()).context r'.context) ∧
    (∃ cmds cmd r', parseEscPos [29, 40, 107, 4, 0, 52, 71, 7, 0, 27, 64] = .ok cmds ∧ cmd ∈ cmds ∧
      processCommand silent noExt (Renderer.new ()) cmd = .ok r' ∧
      ¬ OnlyChanges (documented cmd.commands ++ movesPen cmd.kind) (Renderer.new (Out := Unit) ()).context r'.context) := by
  constructor
  · refine ⟨_, { datamatrixSetWidthSub.toCommand with commands := [29, 40, 107, 3, 0, 52, 67], data := [7] }, _, rfl, by decide, rfl, ?_⟩
    intro h
    exact absurd (show (7 : Byte) = 0 from h .datamatrixWidth (by decide)) (by decide)
  · refine ⟨_, { compositeSetMaxWidthSub.toCommand with commands := [29, 40, 107, 4, 0, 52, 71], data := [7, 0] }, _, rfl, by decide, rfl, ?_⟩
    intro h
    exact absurd (show (7 : Nat) = 0 from h .gs1DatabarMaxWidth (by decide)) (by decide)

/-! ### C54 -/

/-- The command was returned by some parse. -/
def Parsed (c : Command) : Prop := ∃ bytes cmds, parseEscPos bytes = .ok cmds ∧ c ∈ cmds

theorem Parsed.known {c : Command} (h : Parsed c) : Known c := by
  obtain ⟨_, _, h1, h2⟩ := h; exact parse_known h1 c h2

theorem base_initialize : ∀ base ∈ baseCommands ++ [beginPrintCmd, endPrintCmd], base.handler = .unit .initialize →
    base.commands = [27, 64] := by decide +kernel

theorem known_initialize {c : Command} (h : Known c) (hh : c.handler = .unit .initialize) : c.commands = [27, 64] := by
  rcases h with ⟨base, hb, hk, hd⟩ | ⟨op, hdr, x, h1, h2, h3, h4, h5⟩
  · have := hd.handler
    rw [hh] at this
    rw [hd.commands]
    refine base_initialize base hb ?_
    rcases h1 : base.handler <;> rw [h1] at this <;> simp [Handler.sameClass] at this
    rw [this]
  · rw [hh] at h4; cases h4

theorem paperY_writes {h : Handler} (hh : h ≠ .unit .initialize) : Setting.paperY ∉ handlerWrites h := by
  have h1 : ∀ h : Hid, h ≠ .initialize → Setting.paperY ∉ applyWrites h := by intro h; cases h <;> decide
  have h2 : ∀ h : SubId, Setting.paperY ∉ subWrites h := by intro h; cases h <;> decide
  unfold handlerWrites; split
  · exact h1 _ (fun he => hh (by rw [he]))
  · exact h2 _
  · decide
  · split
    · exact h2 _
    · decide
  · decide

theorem deviceContext_paperY {d} {c c' : Context} (h : deviceContext d c = .ok c') :
    c.graphics.renderArea.y ≤ c'.graphics.renderArea.y := by
  have pd : ∀ {c c' : Context}, PenDown c c' → c.graphics.renderArea.y ≤ c'.graphics.renderArea.y := by
    rintro c c' ⟨_, _, _, _, rfl, h, _⟩; exact h
  by_cases hd : Setting.paperY ∈ deviceWrites d
  · cases d <;> simp only [Renderer.deviceContext, bind_ok, ok_ok] at h <;> simp [deviceWrites, pageGeometry] at hd
    case beginPrint => exact pd (PenDown.newline h)
    case feedLine => exact pd (PenDown.newline h)
    case feed => exact pd (PenDown.feed h)
    case fullCut => exact pd (PenDown.newline h)
    case partialCut => exact pd (PenDown.newline h)
    case printPageMode =>
      obtain ⟨y, h1, rfl⟩ := h
      obtain ⟨_, rfl⟩ := addU32_ok.1 h1
      exact Nat.le_add_right _ _
  · exact Nat.le_of_eq (deviceContext_only h .paperY hd).symm

/-- C54: no history of commands without `ESC @` lowers the y position on the paper.  (Vertical positioning commands act
only in page mode, on the position in the page.) -/
theorem C54_paper_never_moves_up {cmds : List Command} (hp : ∀ c ∈ cmds, Parsed c) (hi : ∀ c ∈ cmds, c.commands ≠ [27, 64])
    {r r' : Renderer σ Out} (h : processCommands R ext cmds r = .ok r') :
    r.context.graphics.renderArea.y ≤ r'.context.graphics.renderArea.y := by
  refine processCommands_rel (P := fun c c' => c.graphics.renderArea.y ≤ c'.graphics.renderArea.y) (fun _ => Nat.le_refl _)
    (fun h1 h2 => Nat.le_trans h1 h2) ?_ h
  intro cmd hm r r' hc
  refine processCommand_rel (P := fun c c' => c.graphics.renderArea.y ≤ c'.graphics.renderArea.y) (fun _ => Nat.le_refl _)
    (fun h1 h2 => Nat.le_trans h1 h2) ?_ ?_ ?_ hc
  · rintro c c' ⟨_, _, _, _, rfl, h, _⟩; exact h
  · intro c c' ha
    refine Nat.le_of_eq (applyContext_only ha .paperY (paperY_writes ?_)).symm
    intro hh
    exact hi cmd hm (known_initialize (hp cmd hm).known hh)
  · intro c ds _ d _ c c' hd
    exact deviceContext_paperY hd

/-! ### C35 -/

/-- Multipliers between 1 and 8, and a character cell that is not empty. -/
def Scaled (t : TextContext) : Prop :=
  (1 ≤ t.widthMult.toNat ∧ t.widthMult.toNat ≤ 8) ∧ (1 ≤ t.heightMult.toNat ∧ t.heightMult.toNat ≤ 8) ∧
  0 < t.characterWidth.toNat ∧ 0 < t.characterHeight.toNat

/-- Both the current and the default text settings are scaled properly. -/
def ScaledContext (c : Context) : Prop := Scaled c.text ∧ ∀ d, c.default = some d → Scaled d.text

theorem scaled_of_only {fs : List Setting} {c c' : Context} (h : OnlyChanges fs c c')
    (h1 : Setting.widthMult ∉ fs) (h2 : Setting.heightMult ∉ fs) (h3 : Setting.characterWidth ∉ fs)
    (h4 : Setting.characterHeight ∉ fs) (h5 : Setting.defaults ∉ fs) : ScaledContext c → ScaledContext c' := by
  rintro ⟨a, b⟩
  have e1 := h _ h1
  have e2 := h _ h2
  have e3 := h _ h3
  have e4 := h _ h4
  have e5 := h _ h5
  simp only [Setting.same] at e1 e2 e3 e4 e5
  refine ⟨?_, ?_⟩
  · unfold Scaled; rw [e1, e2, e3, e4]; exact a
  · rw [e5]; exact b

theorem toSize_pos (f : Font) : 0 < f.toSize.1.toNat ∧ 0 < f.toSize.2.toNat := by cases f <;> decide

theorem applyContext_scaled {cmd : Command} {c c' : Context} (h : applyContext ext cmd c = .ok c') :
    ScaledContext c → ScaledContext c' := by
  have hdef : Setting.defaults ∉ handlerWrites cmd.handler := by
    intro hm
    have := writes_not_defaults { cmd with kind := .context }
    simp [commandWrites, hm] at this
  have hgen : Setting.widthMult ∉ handlerWrites cmd.handler → Setting.heightMult ∉ handlerWrites cmd.handler →
      Setting.characterWidth ∉ handlerWrites cmd.handler → Setting.characterHeight ∉ handlerWrites cmd.handler →
      ScaledContext c → ScaledContext c' := fun h1 h2 h3 h4 => scaled_of_only (applyContext_only h) h1 h2 h3 h4 hdef
  rcases hh : cmd.handler with id | id | _ | _ | _ | _ | s
  · by_cases h1 : id = .initialize
    · subst h1
      simp only [applyContext, hh, applyUnit, pure_ok] at h
      subst h
      rintro ⟨a, b⟩
      unfold Context.reset
      split
      · rename_i d hd
        exact ⟨b d hd, b⟩
      · exact ⟨a, b⟩
    · by_cases h2 : id = .setFont
      · subst h2
        simp only [applyContext, hh, applyUnit, pure_ok] at h
        subst h
        rintro ⟨a, b⟩
        exact ⟨⟨a.1, a.2.1, toSize_pos _⟩, b⟩
      · by_cases h3 : id = .setPrintMode
        · subst h3
          simp only [applyContext, hh, applyUnit, pure_ok] at h
          subst h
          rintro ⟨a, b⟩
          refine ⟨⟨?_, ?_, toSize_pos _⟩, b⟩
          · simp only [applyPrintMode, Context.modText]; split <;> decide
          · simp only [applyPrintMode, Context.modText]; split <;> decide
        · rw [hh] at hgen
          simp only [handlerWrites] at hgen
          apply hgen <;> (cases id <;> first | decide | exact absurd rfl h1 | exact absurd rfl h2 | exact absurd rfl h3)
  · rw [hh] at hgen
    simp only [handlerWrites] at hgen
    apply hgen <;> (cases id <;> decide)
  · rw [hh] at hgen; apply hgen <;> simp [handlerWrites]
  · rw [hh] at hgen; apply hgen <;> simp [handlerWrites]
  · rw [hh] at hgen; apply hgen <;> simp [handlerWrites]
  · rw [hh] at hgen; apply hgen <;> simp [handlerWrites]
  · rw [hh] at hgen
    simp only [handlerWrites] at hgen
    rcases hs : s.subcommand with _ | sc <;> rw [hs] at hgen
    · apply hgen <;> simp
    · dsimp only at hgen
      apply hgen <;> (cases sc.id <;> decide)

theorem parseStretch_range (n : Byte) : (1 ≤ (parseStretch n).1.toNat ∧ (parseStretch n).1.toNat ≤ 8) ∧
    (1 ≤ (parseStretch n).2.toNat ∧ (parseStretch n).2.toNat ≤ 8) := by
  refine byte_all (P := fun n => (1 ≤ (parseStretch n).1.toNat ∧ (parseStretch n).1.toNat ≤ 8) ∧
    (1 ≤ (parseStretch n).2.toNat ∧ (parseStretch n).2.toNat ≤ 8)) ?_ n
  decide +kernel

theorem getDevice_size {cmd : Command} {c : Context} {ds} (h : getDevice cmd c = .ok (some ds)) :
    ∀ d ∈ ds, (∀ w, d = .setTextWidth w → 1 ≤ w.toNat ∧ w.toNat ≤ 8) ∧ (∀ w, d = .setTextHeight w → 1 ≤ w.toNat ∧ w.toNat ≤ 8) := by
  intro d hd
  by_cases hh : cmd.handler = .unit .setCharacterSize
  · unfold getDevice at h
    rw [hh] at h
    simp only [getDeviceUnit, pure_ok, Option.some.injEq] at h
    subst h
    simp only [List.mem_cons, List.not_mem_nil, or_false] at hd
    have := parseStretch_range (getOr cmd.data 0 0)
    rcases hd with rfl | rfl
    · exact ⟨fun w hw => by cases hw; exact this.1, fun w hw => by cases hw⟩
    · exact ⟨fun w hw => (by cases hw), fun w hw => by cases hw; exact this.2⟩
  · have hw := getDevice_only h d hd
    constructor
    · rintro w rfl
      have := hw .widthMult (by simp [deviceWrites])
      exfalso
      unfold deviceHandlerWrites at this
      split at this <;> first | exact hh (by assumption) | simp [penSettings, pageGeometry] at this
    · rintro w rfl
      have := hw .heightMult (by simp [deviceWrites])
      exfalso
      unfold deviceHandlerWrites at this
      split at this <;> first | exact hh (by assumption) | simp [penSettings, pageGeometry] at this

theorem deviceContext_scaled {d : DeviceCommand} (hw : ∀ w, d = .setTextWidth w → 1 ≤ w.toNat ∧ w.toNat ≤ 8)
    (hh : ∀ w, d = .setTextHeight w → 1 ≤ w.toNat ∧ w.toNat ≤ 8) {c c' : Context} (h : deviceContext d c = .ok c') :
    ScaledContext c → ScaledContext c' := by
  by_cases h1 : ∃ w, d = .setTextWidth w
  · obtain ⟨w, rfl⟩ := h1
    simp only [deviceContext, ok_ok] at h
    subst h
    rintro ⟨a, b⟩
    exact ⟨⟨hw w rfl, a.2⟩, b⟩
  · by_cases h2 : ∃ w, d = .setTextHeight w
    · obtain ⟨w, rfl⟩ := h2
      simp only [deviceContext, ok_ok] at h
      subst h
      rintro ⟨a, b⟩
      exact ⟨⟨a.1, hh w rfl, a.2.2⟩, b⟩
    · apply scaled_of_only (deviceContext_only h) <;>
        (cases d <;> first | exact absurd ⟨_, rfl⟩ h1 | exact absurd ⟨_, rfl⟩ h2 | simp [deviceWrites, penSettings, pageGeometry])

theorem processCommand_scaled {cmd : Command} {r r' : Renderer σ Out} (h : processCommand R ext r cmd = .ok r') :
    ScaledContext r.context → ScaledContext r'.context := by
  refine processCommand_rel (P := fun c c' => ScaledContext c → ScaledContext c') (fun _ h => h) (fun h1 h2 h => h2 (h1 h)) ?_ ?_ ?_ h
  · rintro c c' ⟨_, _, _, _, rfl, _⟩ h; exact h
  · intro c c'; exact applyContext_scaled
  · intro c ds hg d hd c c'
    have := getDevice_size hg d hd
    exact deviceContext_scaled this.1 this.2

/-- Every span has a positive size. -/
def SolidSpans (ss : List TextSpan) : Prop := ∀ s ∈ ss, 0 < s.characterWidth ∧ 0 < s.characterHeight

theorem scaled_span {c : Context} (h : ScaledContext c) (s : Str) :
    0 < (TextSpan.new s c).characterWidth ∧ 0 < (TextSpan.new s c).characterHeight := by
  obtain ⟨⟨a, b, d, e⟩, _⟩ := h
  exact ⟨Nat.mul_pos d a.1, Nat.mul_pos e b.1⟩

theorem processCommands_scaled {cmds : List Command} {r r' : Renderer σ Out} (h : processCommands R ext cmds r = .ok r')
    (hs : ScaledContext r.context) (ht : SolidSpans r.spanBuffer) : ScaledContext r'.context ∧ SolidSpans r'.spanBuffer := by
  induction cmds generalizing r with
  | nil => simp only [processCommands, ok_ok] at h; subst h; exact ⟨hs, ht⟩
  | cons c cs ih =>
    simp only [processCommands, bind_ok] at h
    obtain ⟨r1, h1, h2⟩ := h
    exact ih h2 (processCommand_scaled h1 hs)
      (processCommand_spans_all (P := fun s => 0 < s.characterWidth ∧ 0 < s.characterHeight) (fun s => scaled_span hs s) ht h1)

/-- C35: after any sequence of commands, of any kind and with any data, the multipliers are between 1 and 8, the character
cell is not empty, every collected span has a positive size, and neither laying out the collected text nor adding the
text of a barcode to it divides by zero. -/
theorem C35_scale {s : σ} {cmds : List Command} {r : Renderer σ Out}
    (h : processCommands R ext cmds (Renderer.new s) = .ok r) :
    (1 ≤ r.context.text.widthMult.toNat ∧ r.context.text.widthMult.toNat ≤ 8) ∧
    (1 ≤ r.context.text.heightMult.toNat ∧ r.context.text.heightMult.toNat ≤ 8) ∧
    (0 < r.context.text.characterWidth.toNat ∧ 0 < r.context.text.characterHeight.toNat) ∧
    (∀ t ∈ r.spanBuffer, 0 < t.characterWidth ∧ 0 < t.characterHeight) ∧
    ∀ (c : Context) (text : Str), layoutText r.spanBuffer c ≠ .error .divZero ∧
      layoutText [TextSpan.newForBarcode text r.context] c ≠ .error .divZero := by
  have h0 : ScaledContext (Renderer.new (Out := Out) s).context := by
    have hd : Scaled defaultSettings.text := by unfold Scaled; decide
    refine ⟨hd, ?_⟩
    intro d hd
    have : defaultSettings = d := Option.some.inj hd
    subst this
    unfold Scaled; decide
  obtain ⟨a, b⟩ := processCommands_scaled h h0 (by intro t ht; simp [Renderer.new] at ht)
  refine ⟨a.1.1, a.1.2.1, a.1.2.2, b, ?_⟩
  intro c text
  refine ⟨NoDiv.layoutText (fun s hs => Nat.ne_of_gt (b s hs).1) c, NoDiv.layoutText ?_ c⟩
  intro t ht
  simp only [List.mem_singleton] at ht
  subst ht
  exact Nat.ne_of_gt (scaled_span a text).1

/-! ### C33 -/

/-- Processing `ESC @`. -/
theorem initialize_step {r r' : Renderer σ Out} (h : processCommand R ext r initializeCmd = .ok r')
    {d} (hd : r.context.default = some d) :
    r'.context.text = d.text ∧ r'.context.barcode = d.barcode ∧ r'.context.code2d = d.code2d ∧
    r'.context.graphics = d.graphics ∧ r'.context.default = some d ∧ r'.spanBuffer = [] ∧
    ∃ c, PenDown r.context c ∧ r'.context.pageMode = c.pageMode := by
  simp only [processCommand, initializeCmd, bind_ok] at h
  obtain ⟨r1, h1, c, h2, o, h3, h4⟩ := h
  have q := processText_quiet h1
  simp only [applyContext, applyUnit, pure_ok] at h2
  simp only [getDevice, getDeviceUnit, pure_ok] at h3
  subst h3 h2
  obtain ⟨_, _, _, _, hp⟩ := q.4
  have hd1 : r1.context.default = some d := by rw [hp.1]; exact hd
  simp only [Option.getD_some, deviceCommands, deviceCommand, bind_ok, pure_ok, ok_ok] at h4
  obtain ⟨_, ⟨s, _, rfl⟩, rfl⟩ := h4
  unfold Context.reset
  rw [hd1]
  exact ⟨rfl, rfl, rfl, rfl, rfl, q.3, r1.context, q.4, rfl⟩

/-- C33: `ESC @` after any history of commands restores the text, barcode, 2D code and graphics settings of a new
context and leaves no collected text. -/
theorem C33_initialize_restores {s : σ} {cmds : List Command} {r : Renderer σ Out}
    (h : processCommands R ext (cmds ++ [initializeCmd]) (Renderer.new s) = .ok r) :
    r.context.text = Context.new.text ∧ r.context.barcode = Context.new.barcode ∧
    r.context.code2d = Context.new.code2d ∧ r.context.graphics = Context.new.graphics ∧ r.spanBuffer = [] := by
  rw [processCommands_append] at h
  simp only [bind_ok, processCommands, ok_ok] at h
  obtain ⟨r1, h1, r2, h2, rfl⟩ := h
  have := initialize_step h2 (d := defaultSettings) (C34_defaults_immutable h1)
  exact ⟨this.1, this.2.1, this.2.2.1, this.2.2.2.1, this.2.2.2.2.2.1⟩

/-- C33: a second `ESC @` changes nothing in the context. -/
theorem C33_idempotent {s : σ} {cmds : List Command} {r r' : Renderer σ Out}
    (h : processCommands R ext (cmds ++ [initializeCmd]) (Renderer.new s) = .ok r)
    (h' : processCommand R ext r initializeCmd = .ok r') : r'.context = r.context := by
  have a := C33_initialize_restores h
  have e : processCommands R ext (cmds ++ [initializeCmd]) (Renderer.new s) = .ok r := h
  simp only [processCommand, initializeCmd, bind_ok, processText, a.2.2.2.2, if_true, ok_ok] at h'
  obtain ⟨r1, h1, c, h2, o, h3, h4⟩ := h'
  subst h1
  simp only [applyContext, applyUnit, pure_ok] at h2
  simp only [getDevice, getDeviceUnit, pure_ok] at h3
  subst h3 h2
  simp only [Option.getD_some, deviceCommands, deviceCommand, bind_ok, pure_ok, ok_ok] at h4
  obtain ⟨_, ⟨s, _, rfl⟩, rfl⟩ := h4
  have hd : r.context.default = some defaultSettings := C34_defaults_immutable e
  dsimp only
  unfold Context.reset
  rw [hd]
  rcases hr : r.context with ⟨⟨t, b, q, g, p⟩, dd⟩
  rw [hr] at a hd
  obtain ⟨rfl, rfl, rfl, rfl, _⟩ := a
  dsimp only at hd
  subst hd
  rfl

/-- C33: after `ESC @` two histories can be told apart only by the page mode settings, which `ESC @` does not reset. -/
theorem C33_history_forgotten {s1 s2 : σ} {cmds1 cmds2 : List Command} {r1 r2 : Renderer σ Out}
    (h1 : processCommands R ext (cmds1 ++ [initializeCmd]) (Renderer.new s1) = .ok r1)
    (h2 : processCommands R ext (cmds2 ++ [initializeCmd]) (Renderer.new s2) = .ok r2)
    (hp : r1.context.pageMode = r2.context.pageMode) : r1.context = r2.context ∧ r1.spanBuffer = r2.spanBuffer := by
  have a1 := C33_initialize_restores h1
  have a2 := C33_initialize_restores h2
  have d1 : r1.context.default = some defaultSettings := C34_defaults_immutable h1
  have d2 : r2.context.default = some defaultSettings := C34_defaults_immutable h2
  refine ⟨?_, by rw [a1.2.2.2.2, a2.2.2.2.2]⟩
  rcases e1 : r1.context with ⟨⟨t, b, q, g, p⟩, d⟩
  rcases e2 : r2.context with ⟨⟨t', b', q', g', p'⟩, d'⟩
  rw [e1] at a1 d1 hp
  rw [e2] at a2 d2 hp
  dsimp only at *
  obtain ⟨rfl, rfl, rfl, rfl, _⟩ := a1
  obtain ⟨rfl, rfl, rfl, rfl, _⟩ := a2
  subst hp d1 d2
  rfl

/-! ### The hypotheses are met -/

/-- "ESC E 1, GS ! 17, text": bold, double size and one collected span; the defaults stay as they were. -/
example : ∃ cmds r, parseEscPos [27, 69, 1, 29, 33, 17, 65, 66] = .ok cmds ∧
    processCommands silent noExt (cmds.take 4) (Renderer.new ()) = .ok r ∧
    r.context.text.bold = true ∧ r.context.text.widthMult = 2 ∧ r.spanBuffer.map (·.characterWidth) = [24] ∧
    r.context.graphics.renderArea.y = 108 := by
  refine ⟨_, _, rfl, rfl, ?_⟩
  decide +kernel

/-- The same followed by `ESC @`. -/
example : ∃ cmds r, parseEscPos [27, 69, 1, 29, 33, 17, 65, 66, 27, 64] = .ok cmds ∧ initializeCmd ∈ cmds ∧
    processCommands silent noExt (cmds.take 5) (Renderer.new ()) = .ok r ∧ r.context.text.bold = false ∧ r.spanBuffer = [] := by
  refine ⟨_, _, rfl, by decide, rfl, ?_⟩
  decide +kernel

/-- `ESC @` is the one command that moves the paper position up. -/
example : ∃ cmds r1 r2, parseEscPos [27, 64] = .ok cmds ∧
    processCommands silent noExt (cmds.take 1) (Renderer.new ()) = .ok r1 ∧
    processCommands silent noExt (cmds.take 2) (Renderer.new ()) = .ok r2 ∧
    r1.context.graphics.renderArea.y = 108 ∧ r2.context.graphics.renderArea.y = 60 := by
  refine ⟨_, _, _, rfl, rfl, rfl, ?_⟩
  decide +kernel

end Thermal
