import Verif.Props.Style
import Verif.Props.Layout
import Verif.Props.Jobs
import Verif.Props.Decoder
import Verif.Spec.PrintedText
import Verif.Proofs.F32Places
/-
Towards C71: text is printed in order with the style in force when it came.
-/
namespace Thermal
open Renderer Spec
variable {ext : Ext}

/-- The characters handed over so far and those waiting, without line feeds and tabs. -/
def shown (r : Recording) : List (Char × CharLook) :=
  ((r.child.flatMap (·.2.spans) ++ r.spanBuffer).flatMap looks).filter fun p => !isControl p.1

theorem lookOf_styled (t : TextSpan) : looks t = t.styled.map fun p => (p.1, lookOf p.2) := by
  simp only [looks, TextSpan.styled, List.map_map]
  rfl

theorem looks_flat (ts : List TextSpan) :
    (ts.flatMap looks).filter (fun p => !isControl p.1) =
      ((ts.flatMap TextSpan.styled).filter (fun p => !isControl p.1)).map fun p => (p.1, lookOf p.2) := by
  have : ts.flatMap looks = (ts.flatMap TextSpan.styled).map fun p => (p.1, lookOf p.2) := by
    rw [List.map_flatMap]
    congr 1; funext t; exact lookOf_styled t
  rw [this, List.filter_map]
  rfl

theorem processText_shown {r r' : Recording} (h : processText recorder r = .ok r') : shown r' = shown r := by
  obtain ⟨calls, e1, _, e2, _⟩ := C29_text_kept r r' h
  have e3 : r'.spanBuffer = [] := (processText_quiet h).3
  unfold shown
  rw [e1, e3, List.append_nil, List.flatMap_append, List.flatMap_append, List.filter_append, looks_flat (calls.flatMap _), e2,
    ← looks_flat, ← List.filter_append, ← List.flatMap_append]

theorem deviceCommand_shown {d : DeviceCommand} {r r' : Recording} (h : deviceCommand recorder r d = .ok r') : shown r' = shown r := by
  simp only [deviceCommand, bind_ok, recorder, ok_ok] at h
  obtain ⟨s, rfl, h⟩ := h
  cases d <;> simp only [bind_ok, pure_ok, ok_ok] at h
  case beginPrint => obtain ⟨c, h1, s, rfl, rfl⟩ := h; simp [shown, Call.spans]
  case endPrint => obtain ⟨_, rfl, rfl⟩ := h; simp [shown, Call.spans]
  case feedLine => obtain ⟨c, h1, rfl⟩ := h; simp [shown, Call.spans]
  case feed => obtain ⟨c, h1, rfl⟩ := h; simp [shown, Call.spans]
  case fullCut => obtain ⟨c, h1, rfl⟩ := h; simp [shown, Call.spans]
  case partialCut => obtain ⟨c, h1, rfl⟩ := h; simp [shown, Call.spans]
  case beginPageMode => obtain ⟨c, rfl, rfl⟩ := h; simp [shown, Call.spans]
  case endPageMode => obtain ⟨c, rfl, rfl⟩ := h; simp [shown, Call.spans]
  case printPageMode => obtain ⟨s, rfl, y, h1, rfl⟩ := h; simp [shown, Call.spans]
  case changePageArea =>
    simp only [pageAreaChanged, bind_ok, pure_ok, ok_ok] at h
    obtain ⟨⟨p, rot, w, hh⟩, h1, s, rfl, rfl⟩ := h; simp [shown, Call.spans]
  case changePageModeDirection =>
    simp only [pageAreaChanged, bind_ok, pure_ok, ok_ok] at h
    obtain ⟨⟨p, rot, w, hh⟩, h1, s, rfl, rfl⟩ := h; simp [shown, Call.spans]
  all_goals (subst h; simp [shown, Call.spans])

theorem deviceCommands_shown {ds : List DeviceCommand} {r r' : Recording} (h : deviceCommands recorder ds r = .ok r') :
    shown r' = shown r := by
  induction ds generalizing r with
  | nil => simp only [deviceCommands, ok_ok] at h; subst h; rfl
  | cons d ds ih =>
    simp only [deviceCommands, bind_ok] at h
    obtain ⟨r1, h1, h2⟩ := h
    rw [ih h2, deviceCommand_shown h1]

/-- Without captions graphics add no text. -/
theorem processGraphicsOpt_shown {r r' : Recording} {g} (hn : r.context.barcode.humanReadable = .none)
    (h : processGraphicsOpt recorder r g = .ok r') : shown r' = shown r := by
  unfold processGraphicsOpt at h
  split at h
  · unfold processGraphics at h
    split at h
    · rw [pure_ok] at h; subst h; rfl
    · simp only [processCode2d, bind_ok, pure_ok, recorder, ok_ok] at h
      obtain ⟨_, _, _, _, ⟨_, _⟩, _, _, rfl, rfl⟩ := h; simp [shown, Call.spans]
    · simp only [processBarcode, bind_ok] at h
      obtain ⟨r1, h1, r2, h2, h3⟩ := h
      have a : r1 = r := by
        unfold barcodeAbove at h1
        rw [if_neg (by simp [hn]), ok_ok] at h1
        exact h1.symm
      subst a
      have hc := (barcodeBars_quiet h2).context
      have hn2 : r2.context.barcode.humanReadable = .none := by
        rw [show r2.context.barcode.humanReadable = _ from hc.only .barcodeHumanReadable (by decide)]; exact hn
      have b : shown r2 = shown r1 := by
        simp only [barcodeBars, bind_ok, pure_ok, recorder, ok_ok] at h2
        obtain ⟨_, _, _, _, ⟨_, _⟩, _, _, rfl, _, _, rfl⟩ := h2; simp [shown, Call.spans]
      unfold barcodeBelow at h3
      rw [if_neg (by simp [hn2]), ok_ok] at h3
      subst h3; exact b
    · simp only [processImage, bind_ok, pure_ok, recorder, ok_ok] at h
      obtain ⟨_, _, _, rfl, _, _, rfl⟩ := h; simp [shown, Call.spans]
    · rw [pure_ok] at h; subst h; rfl
  · rw [ok_ok] at h; subst h; rfl

/-- Commands other than text print what was waiting and add nothing. -/
theorem processCommand_shown {cmd : Command} {r r' : Recording} (hn : r.context.barcode.humanReadable = .none)
    (hk : cmd.kind ≠ .text) (h : processCommand recorder ext r cmd = .ok r') : shown r' = shown r := by
  rcases hkk : cmd.kind
  case control =>
    obtain ⟨r1, o, a, b, c⟩ := control_step h hkk
    rw [deviceCommands_shown c, processText_shown a]
  case context =>
    obtain ⟨r1, a, b, c⟩ := context_step h hkk
    rw [c]; have := processText_shown a; exact this
  case contextControl =>
    obtain ⟨r1, c, o, a, b, d, e⟩ := contextControl_step h hkk
    rw [deviceCommands_shown e]; have := processText_shown a; exact this
  case textStyle =>
    obtain ⟨c, o, a, b, d⟩ := textStyle_step h hkk
    rw [deviceCommands_shown d]; rfl
  case graphics =>
    obtain ⟨r1, g, r2, o, a, b, c, d, e⟩ := graphics_step h hkk
    have hc := (processText_quiet a).context
    have hn1 : r1.context.barcode.humanReadable = .none := by
      rw [show r1.context.barcode.humanReadable = _ from hc.only .barcodeHumanReadable (by decide)]; exact hn
    rw [deviceCommands_shown e, processGraphicsOpt_shown hn1 c, processText_shown a]
  case text => exact absurd hkk hk
  case subcommand =>
    unfold processCommand at h; rw [hkk] at h; dsimp only at h; rw [pure_ok] at h; subst h; rfl
  case unknown =>
    unfold processCommand at h; rw [hkk] at h; simp only [bind_ok, pure_ok] at h
    obtain ⟨r1, a, rfl⟩ := h
    have := processText_shown a; exact this

/-- The look of a new span is that of the style. -/
theorem look_new {s : Style} {c : Context} (hs : Styled s c) (hl : Limits c) (t : Str) : lookOf (TextSpan.new t c) = s.look := by
  obtain ⟨e1, e2, e3, e4, e5, e6⟩ := hs
  subst e1
  have hpe : ∀ n, n = 1 ∨ n = 2 → c.pointsToPixels n = n * c.graphics.dotsPerInch / 96 := fun n hn =>
    F32.points_exact c (by rcases hl.dpi with h | h | h <;> rw [h] <;> decide) hn
  have hp : ∀ n, n = 1 ∨ n = 2 → c.pointsToPixels n ≠ 0 := by
    intro n hn
    rw [hpe n hn]
    rcases hl.dpi with h | h | h <;> rw [h] <;> omega
  have h3 : c.text.characterWidth.toNat = (fontCell c.text.font).1 ∧ c.text.characterHeight.toNat = (fontCell c.text.font).2 := by
    rw [Prod.mk.injEq] at e3
    rw [e3.1, e3.2]
    cases c.text.font <;> decide
  have b1 : ∀ n, n = 1 ∨ n = 2 → (c.pointsToPixels n != 0) = true := fun n hn => by simpa using hp n hn
  have hu : ((TextSpan.new t c).underline != 0) = (c.text.underline != .off) := by
    simp only [TextSpan.new]
    cases c.text.underline <;> first | rfl | exact b1 _ (by decide)
  have hx : (TextSpan.new t c).strikethrough =
      if (match c.text.strikethrough with | .off => false | _ => true) = true then strikeDots c.graphics.dotsPerInch else 0 := by
    simp only [TextSpan.new]
    revert e4
    cases c.text.strikethrough <;> intro e4 <;> first | rfl | exact absurd rfl e4 | exact hpe 2 (.inr rfl)
  simp only [lookOf, Style.look, styleOf, CharLook.mk.injEq]
  refine ⟨rfl, rfl, rfl, hu, hx, rfl, rfl, rfl, rfl, rfl, ?_, ?_⟩
  · simp only [TextSpan.new, h3.1, h3.2]
  · simp only [TextSpan.new, h3.1, h3.2]

theorem base_text : ∀ base ∈ baseCommands ++ [beginPrintCmd, endPrintCmd], base.kind = .text →
    (base.handler = .unit .text ∧ base.commands = []) ∨ (base.handler = .unit .linefeed ∧ base.commands = [10]) ∨
    (base.handler = .unit .horizontalTab ∧ base.commands = [9]) ∨ (base.handler = .unit .carriageReturn ∧ base.commands = [13]) := by
  decide +kernel

/-- The text of a text command. -/
theorem getText_new {s : Style} {cmd : Command} {c : Context} (hs : Styled s c) (hc : Known cmd) (hk : cmd.kind = .text) :
    getText cmd c = .ok (some (TextSpan.new (s.textOf cmd) c)) := by
  have hb : (cmd.handler = .unit .text ∧ cmd.commands = []) ∨ (cmd.handler = .unit .linefeed ∧ cmd.commands = [10]) ∨
      (cmd.handler = .unit .horizontalTab ∧ cmd.commands = [9]) ∨ (cmd.handler = .unit .carriageReturn ∧ cmd.commands = [13]) := by
    rcases hc with ⟨base, hb, _, hd⟩ | ⟨op, hdr, x, h1, h2, h3, h4, h5⟩
    · have ek : cmd.kind = base.kind := hd.kind
      have ec : cmd.commands = base.commands := hd.commands
      rw [ec]
      rcases base_text base hb (ek ▸ hk) with ⟨a, b⟩ | ⟨a, b⟩ | ⟨a, b⟩ | ⟨a, b⟩
      · exact .inl ⟨derived_unit hd a, b⟩
      · exact .inr (.inl ⟨derived_unit hd a, b⟩)
      · exact .inr (.inr (.inl ⟨derived_unit hd a, b⟩))
      · exact .inr (.inr (.inr ⟨derived_unit hd a, b⟩))
    · exfalso
      rw [h2] at hk
      have n1 : ∀ n < 256, ∀ x ∈ (Spec.graphicsFunction (UInt8.ofNat n)).toList, x.kind ≠ .text := by decide +kernel
      have n2 : ∀ d < 7, ∀ n < 256, ∀ x ∈ (Spec.code2dImplemented (UInt8.ofNat (48 + d)) (UInt8.ofNat n)).toList, x.kind ≠ .text := by
        decide +kernel
      rcases h5 with ⟨_, hx⟩ | ⟨_, _, hx⟩
      · exact n1 (metaFn hdr).toNat (UInt8.toNat_lt _) x (by rw [UInt8.ofNat_toNat, hx]; simp) hk
      · obtain ⟨a, b⟩ := code2dImplemented_range hx
        exact n2 ((metaM hdr).toNat - 48) (by omega) (metaFn hdr).toNat (UInt8.toNat_lt _) x
          (by rw [show 48 + ((metaM hdr).toNat - 48) = (metaM hdr).toNat by omega, UInt8.ofNat_toNat, UInt8.ofNat_toNat, hx]; simp) hk
  unfold getText Style.textOf
  rw [if_neg (by simp [hk])]
  rcases hb with ⟨a, b⟩ | ⟨a, b⟩ | ⟨a, b⟩ | ⟨a, b⟩ <;> rw [a, b] <;> dsimp only
  · rw [hs.decoder, ← hs.style]
    show _ = Except.ok (some (TextSpan.new (if c.text.codeTable.toNat = 255 then fromUtf8Lossy cmd.data
      else cmd.data.flatMap (byteText (.ofNat c.text.codeTable.toNat) (.ofNat c.text.characterSet.toNat))) c))
    by_cases h255 : c.text.codeTable.toNat = 255
    · have : c.text.codeTable = 255 := UInt8.toNat_inj.1 h255
      rw [if_pos h255, this]
      simp [contextDecoder, Codepage.decode, bind, Except.bind, pure, Except.pure]
    · have : c.text.codeTable ≠ 255 := fun h => h255 (by rw [h]; rfl)
      rw [if_neg h255, C59_text _ _ _ this]
      simp [bind, Except.bind, pure, Except.pure]
  all_goals rfl

end Thermal
