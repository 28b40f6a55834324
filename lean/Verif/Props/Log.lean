import Verif.Spec.Log
import Verif.Props.Style
import Verif.Props.Decoder
/-
C95. The log: one line for every command, in order, that describes it; writing it never fails and changes nothing.  The lines of ESC t and ESC R show the
tables that were selected before.
-/
namespace Thermal
open Renderer

theorem digits_show (n : Nat) : Spec.digits n = showNat n := by
  unfold Spec.digits showNat Nat.repr
  exact String.toList_ofList

theorem digits_byte (b : Byte) : Spec.digits b.toNat = decimal b := digits_show _

theorem hex02_byte (b : Byte) : hex02 b = Spec.hexByte b := byte_all (P := fun b => hex02 b = Spec.hexByte b) (by decide +kernel) b

theorem symbology_eq (k : BarcodeType) : kindToString k = (Spec.symbologyName k).toList := by cases k <;> rfl

theorem hexList_show (bs : List Byte) : Spec.hexList bs = showBytes bs := by
  unfold Spec.hexList showBytes
  rw [show (Spec.hexByte : Byte → Str) = hex02 from funext fun b => (hex02_byte b).symm]
  rfl

theorem debugText_line (cmd : Command) :
    debugText cmd = if cmd.data = [] then cmd.name.toList else cmd.name.toList ++ " ".toList ++ Spec.hexList cmd.data := by
  unfold debugText
  split
  · rfl
  · rw [hexList_show]
    unfold showBytes
    have : " [".toList = " ".toList ++ "[".toList := by decide
    rw [this]
    simp only [List.append_assoc]

theorem getD_or (data : List Byte) (i : Nat) : data.getD i 0 = getOr data i 0 := by simp [getOr, List.getD]

theorem word_u16 (data : List Byte) (i : Nat) : parseU16 data i = Spec.word data i := by
  unfold parseU16 Spec.word
  rw [getD_or, getD_or]
  dsimp only
  have h1 := UInt8.toNat_lt (getOr data i 0)
  rw [← Nat.shiftLeft_add_eq_or_of_lt (by exact h1), Nat.shiftLeft_eq]
  omega

theorem word_pos (data : List Byte) : getPos data = Spec.word data 0 := by
  unfold getPos Spec.word
  rw [getD_or, getD_or]

theorem word_lt (data : List Byte) : Spec.word data 0 < 65536 := by
  unfold Spec.word
  have h1 := UInt8.toNat_lt (data.getD 0 0)
  have h2 := UInt8.toNat_lt (data.getD (0 + 1) 0)
  omega

theorem word_signed (data : List Byte) : showInt (getPosI16 data) = Spec.signedWord data := by
  unfold getPosI16 Spec.signedWord showInt
  rw [word_pos, digits_show, digits_show]
  have := word_lt data
  by_cases h : Spec.word data 0 < 32768
  · rw [if_pos h, if_pos h, if_neg (by omega)]
    rfl
  · rw [if_neg h, if_neg h, if_pos (by omega)]
    congr 2
    omega

theorem pageName_eq (n : Byte) : codepageName n = (Spec.pageName n).toList := by
  refine byte_all (P := fun n => codepageName n = (Spec.pageName n).toList) ?_ n
  decide +kernel

theorem setName_eq (n : Byte) : languageName n = (Spec.setName n).toList := by
  refine byte_all (P := fun n => languageName n = (Spec.setName n).toList) ?_ n
  decide +kernel

theorem stretch_eq (n : Byte) : parseStretch n = (UInt8.ofNat (n.toNat / 16 % 8 + 1), UInt8.ofNat (n.toNat % 8 + 1)) := by
  refine byte_all (P := fun n => parseStretch n = (UInt8.ofNat (n.toNat / 16 % 8 + 1), UInt8.ofNat (n.toNat % 8 + 1))) ?_ n
  decide +kernel

theorem printMode_eq (name : Str) (data : List Byte) :
    printModeDebug name data = name ++ ": ".toList ++ Spec.wordList
      [if (data.getD 0 0).toNat.testBit 0 then "Font B" else "Font A", if (data.getD 0 0).toNat.testBit 3 then "Bold" else "Not Bold",
       if (data.getD 0 0).toNat.testBit 4 then "Double Height" else "Standard Height",
       if (data.getD 0 0).toNat.testBit 5 then "Double Width" else "Standard Width",
       if (data.getD 0 0).toNat.testBit 6 then "Underline" else "No Underline"] := by
  have key : ∀ n : Byte, ∀ i < 8, (bitflagsLsb n).getD i false = n.toNat.testBit i := by
    intro n
    refine byte_all (P := fun n => ∀ i < 8, (bitflagsLsb n).getD i false = n.toNat.testBit i) ?_ n
    decide +kernel
  rw [getD_or]
  unfold printModeDebug
  dsimp only
  rw [key _ 0 (by decide), key _ 3 (by decide), key _ 4 (by decide), key _ 5 (by decide), key _ 6 (by decide)]
  unfold Spec.wordList
  have : ": [".toList = ": ".toList ++ "[".toList := by decide
  rw [this]
  have q : ∀ w : String, '"' :: w.toList ++ ['"'] = ("\"" ++ w ++ "\"").toList := by
    intro w
    rw [String.toList_append, String.toList_append]
    rfl
  simp only [q, List.append_assoc]
  rfl

/-- The decoder is the one of the selected code page and character set, and power-on defaults are remembered. -/
structure Reading (page set : Byte) (c : Context) : Prop where
  selectedPage : c.text.codeTable = page
  selectedSet : c.text.characterSet = set
  decoder : c.text.decoder = contextDecoder page set
  default : c.default = some defaultSettings

theorem Reading.decode {page set : Byte} {c : Context} (h : Reading page set c) (bs : List Byte) :
    c.text.decoder.decode bs = .ok (Spec.readText page set bs) := by
  rw [h.decoder]
  unfold Spec.readText
  split
  · next hp =>
    subst hp
    unfold contextDecoder Codepage.decode
    simp [pure, Except.pure]
  · next hp => exact C59_text page set bs hp

theorem Reading.of_only {page set : Byte} {fs : List Setting} {c c' : Context} (h : OnlyChanges fs c c')
    (hd : ∀ f ∈ [Setting.codeTable, .characterSet, .decoder, .defaults], f ∉ fs) (hc : Reading page set c) : Reading page set c' := by
  have e1 : c'.text.codeTable = c.text.codeTable := h _ (hd .codeTable (by decide))
  have e2 : c'.text.characterSet = c.text.characterSet := h _ (hd .characterSet (by decide))
  have e3 : c'.text.decoder = c.text.decoder := h _ (hd .decoder (by decide))
  have e4 : c'.default = c.default := h _ (hd .defaults (by decide))
  exact ⟨e1.trans hc.selectedPage, e2.trans hc.selectedSet, e3.trans hc.decoder, e4.trans hc.default⟩

theorem Reading.start : Reading 0 0 Context.new := ⟨rfl, rfl, rfl, rfl⟩

/-- The rows of the command table: three select tables, the others do not touch them. -/
theorem base_reading : ∀ base ∈ baseCommands ++ [beginPrintCmd, endPrintCmd], base.kind ≠ .subcommand →
    base = setCodeTableCmd ∨ base = setInternationalCharsetCmd ∨ base = initializeCmd ∨
    (base.commands ∉ ([[27, 116], [27, 82], [27, 64]] : List (List Byte)) ∧
      ∀ f ∈ [Setting.codeTable, .characterSet, .decoder, .defaults], f ∉ commandWrites base) := by decide +kernel

theorem selects_other {page set : Byte} {cmd : Command} (h : cmd.commands ∉ ([[27, 116], [27, 82], [27, 64]] : List (List Byte))) :
    Spec.selects page set cmd = (page, set) := by
  unfold Spec.selects
  split <;> first | rfl | (rename_i e; rw [e] at h; simp at h)

variable {σ Out : Type} {R : OutputRenderer σ Out} {ext : Ext}

theorem reading_step {page set : Byte} {cmd : Command} {r r' : Renderer σ Out} (hk : Known cmd) (hs : Reading page set r.context)
    (h : processCommand R ext r cmd = .ok r') :
    Reading (Spec.selects page set cmd).1 (Spec.selects page set cmd).2 r'.context := by
  rcases hk with ⟨base, hb, hk, hder⟩ | ⟨op, hdr, x, h1, h2, h3, h4, h5⟩
  · have e0 := hder.commands
    have ek := hder.kind
    rcases base_reading base hb hk with rfl | rfl | rfl | ⟨b1, b2⟩
    · have hh := derived_unit hder (show setCodeTableCmd.handler = .unit .setCodeTable from rfl)
      obtain ⟨c, o, a1, a2, a3⟩ := textStyle_step h ek
      simp only [applyContext, hh, applyUnit, pure_ok] at a1
      simp only [getDevice, hh, getDeviceUnit, pure_ok] at a2
      subst a1; subst a2
      simp only [Option.getD_none, deviceCommands, ok_ok] at a3
      subst a3
      have e : Spec.selects page set cmd = (getOr cmd.data 0 0, set) := by
        unfold Spec.selects
        rw [e0, ← getD_or]
        rfl
      rw [e]
      refine ⟨rfl, hs.selectedSet, ?_, hs.default⟩
      show contextDecoder _ _ = _
      exact congrArg _ hs.selectedSet
    · have hh := derived_unit hder (show setInternationalCharsetCmd.handler = .unit .setInternationalCharset from rfl)
      obtain ⟨c, o, a1, a2, a3⟩ := textStyle_step h ek
      simp only [applyContext, hh, applyUnit, pure_ok] at a1
      simp only [getDevice, hh, getDeviceUnit, pure_ok] at a2
      subst a1; subst a2
      simp only [Option.getD_none, deviceCommands, ok_ok] at a3
      subst a3
      have e : Spec.selects page set cmd = (page, getOr cmd.data 0 0) := by
        unfold Spec.selects
        rw [e0, ← getD_or]
        rfl
      rw [e]
      refine ⟨hs.selectedPage, rfl, ?_, hs.default⟩
      show contextDecoder _ _ = _
      exact congrArg (fun p => contextDecoder p (getOr cmd.data 0 0)) hs.selectedPage
    · have hh := derived_unit hder (show initializeCmd.handler = .unit .initialize from rfl)
      obtain ⟨r1, c, o, a0, a1, a2, a3⟩ := contextControl_step h ek
      simp only [applyContext, hh, applyUnit, pure_ok] at a1
      simp only [getDevice, hh, getDeviceUnit, pure_ok] at a2
      subst a1; subst a2
      rw [initialize_context (.inr rfl) a3]
      have e : Spec.selects page set cmd = (0, 0) := by
        unfold Spec.selects
        rw [e0]
        rfl
      rw [e]
      have hp : Reading page set r1.context := hs.of_only (processText_quiet a0).4.only (by decide)
      show Reading 0 0 r1.context.reset
      unfold Context.reset
      rw [hp.default]
      exact ⟨rfl, rfl, rfl, rfl⟩
    · rw [selects_other (by rw [e0]; exact b1)]
      refine hs.of_only (processCommand_only h) ?_
      rw [derived_writes hb hk hder]
      exact b2
  · have hn : cmd.commands ∉ ([[27, 116], [27, 82], [27, 64]] : List (List Byte)) := by
      rw [h1]
      rcases h5 with ⟨⟨rfl, _⟩ | ⟨rfl, _⟩, _⟩ | ⟨rfl, _⟩ <;> simp
    rw [selects_other hn]
    refine hs.of_only (processCommand_only h) ?_
    have h6 : ∀ f ∈ [Setting.codeTable, .characterSet, .decoder, .defaults], f ∉ penSettings := by decide
    have h7 : ∀ id : SubId, ∀ f ∈ [Setting.codeTable, .characterSet, .decoder, .defaults],
      f ∉ deviceHandlerWrites (.subUnit id) ∧ f ∉ subWrites id := by intro id; cases id <;> decide
    intro f hf hw
    have a := h6 f hf
    obtain ⟨b, c⟩ := h7 x.id f hf
    unfold commandWrites at hw
    rw [h4] at hw
    have e : handlerWrites (.subUnit x.id) = subWrites x.id := rfl
    rw [e] at hw
    split at hw <;> simp_all

/-- The line of a command that does not have its own. -/
theorem plain_line (quote : Str → Str) (page set : Byte) (cmd : Command)
    (ho : cmd.commands ∉ ([[29, 33], [27, 33], [27, 87], [27, 36], [29, 36], [29, 92], [27, 82], [27, 116]] : List (List Byte)))
    (ht : cmd.commands = [] → cmd.kind ≠ .text) (hb : ∀ s, cmd.handler ≠ .barcode s) :
    Spec.logLine quote page set cmd = debugText cmd := by
  rw [debugText_line]
  unfold Spec.logLine
  dsimp only
  split
  · next e => rw [if_neg (ht e)]
  all_goals first | (rename_i e; rw [e] at ho; simp at ho) | skip
  split
  · next s e => exact absurd e (hb s)
  · rfl

/-- A command of the parser without sub-command: the one with such a handler, GS ( H, has no functions. -/
def Whole (cmd : Command) : Prop := Known cmd ∧ ∀ s, cmd.handler = .sub s → s.subcommand = none

theorem emitted_whole {c : Command} (h : OpenOk c) : ∀ d ∈ emitted c, Whole d := by
  intro d hm
  refine ⟨emitted_known h d hm, ?_⟩
  intro s hs
  obtain ⟨⟨base, hb, hd⟩, hsub⟩ := h
  unfold emitted at hm
  split at hm
  · split at hm
    · simp only [List.mem_singleton] at hm
      subst hm
      simp [SubCmd.toCommand] at hs
    · simp at hm
  · next hk =>
    simp only [List.mem_singleton] at hm
    subst hm
    have hcl := hd.handler
    rw [hs] at hcl
    have hbs : ∀ base ∈ baseCommands, base.kind ≠ .subcommand → ∀ t, base.handler = .sub t → t.table = .none ∧ t.useM = false := by
      have : ∀ base ∈ baseCommands, base.kind ≠ .subcommand →
          (match base.handler with | .sub t => decide (t.table = .none ∧ t.useM = false) | _ => true) = true := by decide +kernel
      intro base hb hk t ht
      have := this base hb hk
      rw [ht] at this
      simpa using this
    rcases hbh : base.handler with id | id | k | t | t | t | t <;> rw [hbh] at hcl <;> simp only [Handler.sameClass] at hcl
    obtain ⟨t1, t2⟩ := hbs base hb (by rw [← hd.kind]; exact hk) t hbh
    obtain ⟨c1, c2, c3⟩ := hcl
    cases hn : s.subcommand with
    | none => rfl
    | some sub =>
      obtain ⟨hl, x, h1, _⟩ := (hsub s hs).2 sub hn
      rw [← c1, ← c3, t1, t2] at h1
      exact nomatch h1

theorem parse_whole {bytes : List Byte} {cmds : List Command} (h : parseEscPos bytes = .ok cmds) : ∀ c ∈ cmds, Whole c := by
  refine parse_all (J := OpenOk) (Q := Whole) ?_ ?_ ?_ ?_ ?_ (fun c => emitted_whole) ?_ ?_ ?_ h
  · intro c hc
    refine ⟨⟨c, List.mem_append_left _ hc, Derived.refl c⟩, ?_⟩
    intro s hs
    have := table_sub_none c hc
    rw [hs] at this
    exact subOk_none this
  · exact ⟨⟨textCmd, by simp [baseCommands], Derived.refl _⟩, by intro s hs; simp [textCmd] at hs⟩
  · exact ⟨⟨unknownCmd, by simp [baseCommands], Derived.refl _⟩, by intro s hs; simp [unknownCmd] at hs⟩
  · intro c d ⟨⟨base, hb, hd⟩, hs⟩
    exact ⟨⟨base, hb, hd.1, hd.2, hd.3, hd.4, hd.5⟩, hs⟩
  · intro c b c' ok; exact openOk_push
  · exact ⟨.inl ⟨beginPrintCmd, by simp, by decide, Derived.refl _⟩, by intro s hs; simp [beginPrintCmd] at hs⟩
  · exact ⟨.inl ⟨endPrintCmd, by simp, by decide, Derived.refl _⟩, by intro s hs; simp [endPrintCmd] at hs⟩
  · exact ⟨.inl ⟨unknownCmd, by simp [baseCommands], by decide, Derived.refl _⟩, by intro s hs; simp [unknownCmd] at hs⟩

/-- The line that is written: an empty one for GS ( H. -/
def writtenLine (quote : Str → Str) (page set : Byte) (cmd : Command) : Str :=
  if cmd.commands = [29, 40, 72] then [] else Spec.logLine quote page set cmd

/-- The handlers that describe their commands themselves. -/
def ownLine : Handler → Bool
  | .unit id => [Hid.setCharacterSize, .setPrintMode, .text, .pageModePrintArea, .setVerticalPos, .setHorizontalPos, .offsetVerticalPos,
      .setInternationalCharset, .setCodeTable].contains id
  | .barcode _ | .sub _ => true
  | _ => false

theorem plain_debug (quote : Str → Str) (cmd : Command) (c : Context) (h : ownLine cmd.handler = false) :
    handlerDebug quote cmd c = .ok (debugText cmd) := by
  unfold handlerDebug
  dsimp only
  rcases hh : cmd.handler with id | id | k | s | s | s | s <;> rw [hh] at h <;> first | rfl | (simp [ownLine] at h; done) | skip
  cases id <;> first | rfl | (exfalso; revert h; decide)

theorem sameClass_own {a b : Handler} (h : a.sameClass b) : ownLine b = ownLine a := by
  cases a <;> cases b <;> simp_all [Handler.sameClass, ownLine]

theorem base_lines : ∀ base ∈ baseCommands ++ [beginPrintCmd, endPrintCmd], base.kind ≠ .subcommand →
    base ∈ [setCharacterSizeCmd, setPrintModeCmd, textCmd, pageModePrintAreaCmd, setVerticalPosCmd, setHorizontalPosCmd, offsetVerticalPosCmd,
      setInternationalCharsetCmd, setCodeTableCmd, barcodeCmd, requestResponseTransmissionCmd] ∨
    (base.commands ∉ ([[29, 33], [27, 33], [27, 87], [27, 36], [29, 36], [29, 92], [27, 82], [27, 116], [29, 40, 72]] : List (List Byte)) ∧
      (base.commands = [] → base.kind ≠ .text) ∧ ownLine base.handler = false) := by decide +kernel

theorem command_line (quote : Str → Str) {page set : Byte} {cmd : Command} {c : Context} (hk : Whole cmd) (hs : Reading page set c) :
    handlerDebug quote cmd c = .ok (writtenLine quote page set cmd) := by
  obtain ⟨hk, hsub⟩ := hk
  have plain : ∀ (_ : cmd.commands ∉ ([[29, 33], [27, 33], [27, 87], [27, 36], [29, 36], [29, 92], [27, 82], [27, 116], [29, 40, 72]] : List (List Byte)))
      (_ : cmd.commands = [] → cmd.kind ≠ .text) (_ : ownLine cmd.handler = false),
      handlerDebug quote cmd c = .ok (writtenLine quote page set cmd) := by
    intro h1 h2 h3
    simp only [List.mem_cons, List.not_mem_nil, or_false, not_or] at h1
    unfold writtenLine
    rw [if_neg (by simp [h1]), plain_debug quote cmd c h3, plain_line quote page set cmd (by simp [h1]) h2]
    intro s e
    rw [e] at h3
    simp [ownLine] at h3
  rcases hk with ⟨base, hb, hk, hder⟩ | ⟨op, hdr, x, h1, h2, h3, h4, h5⟩
  · have en := hder.name
    have e0 := hder.commands
    have ek := hder.kind
    have eh := hder.handler
    rcases base_lines base hb hk with hm | ⟨b1, b2, b3⟩
    · simp only [List.mem_cons, List.not_mem_nil, or_false] at hm
      rcases hm with rfl | rfl | rfl | rfl | rfl | rfl | rfl | rfl | rfl | rfl | rfl
      · have hh := derived_unit hder (show setCharacterSizeCmd.handler = .unit .setCharacterSize from rfl)
        unfold handlerDebug writtenLine Spec.logLine
        rw [hh, e0]
        dsimp only [setCharacterSizeCmd]
        rw [stretch_eq, ← digits_byte, ← digits_byte, getD_or]
        have q1 : ∀ n : Byte, (UInt8.ofNat (n.toNat / 16 % 8 + 1)).toNat = n.toNat / 16 % 8 + 1 ∧ (UInt8.ofNat (n.toNat % 8 + 1)).toNat = n.toNat % 8 + 1 := by
          intro n
          refine byte_all (P := fun n => (UInt8.ofNat (n.toNat / 16 % 8 + 1)).toNat = n.toNat / 16 % 8 + 1 ∧ (UInt8.ofNat (n.toNat % 8 + 1)).toNat = n.toNat % 8 + 1) ?_ n
          decide +kernel
        rw [(q1 _).1, (q1 _).2]
        rfl
      · have hh := derived_unit hder (show setPrintModeCmd.handler = .unit .setPrintMode from rfl)
        unfold handlerDebug writtenLine Spec.logLine
        rw [hh, e0]
        dsimp only [setPrintModeCmd]
        rw [printMode_eq]
        rfl
      · have hh := derived_unit hder (show textCmd.handler = .unit .text from rfl)
        unfold handlerDebug writtenLine Spec.logLine
        rw [hh, e0, ek]
        dsimp only [textCmd]
        rw [hs.decode]
        rfl
      · have hh := derived_unit hder (show pageModePrintAreaCmd.handler = .unit .pageModePrintArea from rfl)
        unfold handlerDebug writtenLine Spec.logLine
        rw [hh, e0]
        dsimp only [pageModePrintAreaCmd]
        unfold printAreaDebug calculatePageArea
        dsimp only
        rw [word_u16, word_u16, word_u16, word_u16, ← digits_show, ← digits_show, ← digits_show, ← digits_show]
        rfl
      · have hh := derived_unit hder (show setVerticalPosCmd.handler = .unit .setVerticalPos from rfl)
        unfold handlerDebug writtenLine Spec.logLine
        rw [hh, e0]
        dsimp only [setVerticalPosCmd]
        rw [word_pos, ← digits_show]
        rfl
      · have hh := derived_unit hder (show setHorizontalPosCmd.handler = .unit .setHorizontalPos from rfl)
        unfold handlerDebug writtenLine Spec.logLine
        rw [hh, e0]
        dsimp only [setHorizontalPosCmd]
        rw [word_pos, ← digits_show]
        rfl
      · have hh := derived_unit hder (show offsetVerticalPosCmd.handler = .unit .offsetVerticalPos from rfl)
        unfold handlerDebug writtenLine Spec.logLine
        rw [hh, e0]
        dsimp only [offsetVerticalPosCmd]
        rw [word_signed]
        rfl
      · have hh := derived_unit hder (show setInternationalCharsetCmd.handler = .unit .setInternationalCharset from rfl)
        unfold handlerDebug writtenLine Spec.logLine
        rw [hh, e0]
        dsimp only [setInternationalCharsetCmd]
        rw [hs.selectedPage, hs.selectedSet, pageName_eq, setName_eq, ← digits_byte]
        rfl
      · have hh := derived_unit hder (show setCodeTableCmd.handler = .unit .setCodeTable from rfl)
        unfold handlerDebug writtenLine Spec.logLine
        rw [hh, e0]
        dsimp only [setCodeTableCmd]
        rw [hs.selectedPage, hs.selectedSet, pageName_eq, setName_eq, ← digits_byte]
        rfl
      · obtain ⟨s, hh⟩ : ∃ s, cmd.handler = .barcode s := by
          have : Handler.sameClass (.barcode {}) cmd.handler := eh
          rcases hh : cmd.handler with id | id | k | s | s | s | s <;> rw [hh] at this <;> simp [Handler.sameClass] at this
          exact ⟨s, rfl⟩
        unfold handlerDebug writtenLine Spec.logLine
        rw [hh, e0]
        dsimp only [barcodeCmd]
        unfold barcodeDebug Spec.barcodeLine
        dsimp only
        rw [← digits_show, ← digits_byte, ← hexList_show, symbology_eq]
        rfl
      · obtain ⟨s, hh⟩ : ∃ s, cmd.handler = .sub s := by
          rcases hh : cmd.handler with id | id | k | s | s | s | s <;> rw [hh] at eh <;>
            simp [Handler.sameClass, requestResponseTransmissionCmd] at eh
          exact ⟨s, rfl⟩
        unfold handlerDebug writtenLine
        have e0' : cmd.commands = [29, 40, 72] := e0
        rw [if_pos e0', hh]
        dsimp only
        rw [hsub s hh]
        rfl
    · exact plain (by rw [e0]; exact b1) (by rw [e0, ek]; exact b2) (by rw [sameClass_own eh]; exact b3)
  · refine plain ?_ ?_ (by rw [h4]; rfl)
    · rw [h1]
      rcases h5 with ⟨⟨rfl, _⟩ | ⟨rfl, _⟩, _⟩ | ⟨rfl, _⟩ <;> simp
    · rw [h1]
      rcases h5 with ⟨⟨rfl, _⟩ | ⟨rfl, _⟩, _⟩ | ⟨rfl, _⟩ <;> simp

/-- The lines that are written for commands. -/
def writtenLines (quote : Str → Str) : Byte → Byte → List Command → List Str
  | _, _, [] => []
  | page, set, cmd :: cmds =>
    writtenLine quote page set cmd :: writtenLines quote (Spec.selects page set cmd).1 (Spec.selects page set cmd).2 cmds

theorem processLogged_lines (quote : Str → Str) {page set : Byte} {cmds : List Command} (hk : ∀ c ∈ cmds, Whole c) {r : Renderer σ Out}
    (hs : Reading page set r.context) :
    processLogged R ext quote cmds r = (processCommands R ext cmds r).map fun r' => (r', writtenLines quote page set cmds) := by
  induction cmds generalizing page set r with
  | nil => rfl
  | cons cmd cmds ih =>
    unfold processLogged processCommands
    rw [command_line quote (hk cmd (List.mem_cons_self ..)) hs]
    show (processCommand R ext r cmd >>= _) = Except.map _ (processCommand R ext r cmd >>= _)
    cases h : processCommand R ext r cmd with
    | error e => rfl
    | ok r1 =>
      have := ih (fun c hc => hk c (List.mem_cons_of_mem _ hc)) (reading_step (hk cmd (List.mem_cons_self ..)).1 hs h)
      show (processLogged R ext quote cmds r1 >>= _) = Except.map _ (processCommands R ext cmds r1)
      rw [this]
      cases processCommands R ext cmds r1 <;> rfl

theorem reading_steps {page set : Byte} {cmds : List Command} (hk : ∀ c ∈ cmds, Whole c) {r r' : Renderer σ Out} (hs : Reading page set r.context)
    (h : processCommands R ext cmds r = .ok r') : ∃ page' set', Reading page' set' r'.context := by
  induction cmds generalizing page set r with
  | nil => simp only [processCommands, ok_ok] at h; subst h; exact ⟨_, _, hs⟩
  | cons cmd cmds ih =>
    simp only [processCommands, bind_ok] at h
    obtain ⟨r1, h1, h2⟩ := h
    exact ih (fun c hc => hk c (List.mem_cons_of_mem _ hc)) (reading_step (hk cmd (List.mem_cons_self ..)).1 hs h1) h2

/-- C95, partial, for a renderer that may have been used before: it is in the state `Reading`, in which it begins (`Reading.start`) and in which every job leaves
it.  Missing: as in `C95_log_partial`. -/
theorem C95_again_partial (quote : Str → Str) {page set : Byte} {r : Renderer σ Out} (hr : Reading page set r.context) (bytes : List Byte) :
    (renderLogged R ext quote r bytes =
      (parseEscPos bytes).bind fun cmds => (render R ext r bytes).map fun out => (out, writtenLines quote page set cmds)) ∧
    ∀ outs errs r', render R ext r bytes = .ok (outs, errs, r') → ∃ page' set', Reading page' set' r'.context := by
  refine ⟨?_, ?_⟩
  · unfold renderLogged render
    cases hp : parseEscPos bytes with
    | error e => rfl
    | ok cmds =>
      show (processLogged R ext quote cmds r >>= _) = Except.map _ (processCommands R ext cmds r >>= _)
      rw [processLogged_lines quote (parse_whole hp) hr]
      cases processCommands R ext cmds r <;> rfl
  · intro outs errs r' h
    simp only [render, bind_ok, pure_ok] at h
    obtain ⟨cmds, h1, r1, h2, h3⟩ := h
    simp only [Prod.mk.injEq] at h3
    obtain ⟨rfl, rfl, rfl⟩ := h3
    have := reading_steps (parse_whole h1) hr h2
    exact this

/-- C95, partial. For every stream and every output renderer: the log can be written and changes nothing - rendering with the log gives the outcome of
rendering without it - and it has one line for every command, in order: the line of Spec/Log with the tables selected when the command is reached.
Missing: the lines of ESC t and ESC R, which show the tables selected before, and the line of GS ( H, which is empty (`C95_deviations`). -/
theorem C95_log_partial (quote : Str → Str) (s : σ) (bytes : List Byte) :
    renderLogged R ext quote (Renderer.new s) bytes =
      (parseEscPos bytes).bind fun cmds => (render R ext (Renderer.new s) bytes).map fun out => (out, writtenLines quote 0 0 cmds) :=
  (C95_again_partial quote (r := Renderer.new s) (by exact Reading.start) bytes).1

/-- C95. Without GS ( H, and when ESC t and ESC R select what is selected already, the log is exactly that of the specification, in which every line describes the
tables in force after its command. -/
theorem C95_line_partial (quote : Str → Str) (page set : Byte) (cmd : Command) (h1 : cmd.commands ≠ [29, 40, 72])
    (h2 : cmd.commands = [27, 116] ∨ cmd.commands = [27, 82] → Spec.selects page set cmd = (page, set)) :
    writtenLine quote page set cmd = Spec.logLine quote (Spec.selects page set cmd).1 (Spec.selects page set cmd).2 cmd := by
  unfold writtenLine
  rw [if_neg h1]
  by_cases h3 : cmd.commands = [27, 116] ∨ cmd.commands = [27, 82]
  · rw [h2 h3]
  · by_cases h4 : cmd.commands = [27, 64]
    · unfold Spec.logLine
      rw [h4]
      rfl
    · rw [selects_other]
      simp only [List.mem_cons, List.not_mem_nil, or_false, not_or]
      simp only [not_or] at h3
      exact ⟨h3.1, h3.2, h4⟩

/-- C95. The text in the line of a text is the text that is printed: the one of the span the command gives. -/
theorem C95_text (quote : Str → Str) {page set : Byte} {cmd : Command} {c : Context} (hk : Whole cmd) (hs : Reading page set c)
    (ho : cmd.commands = []) (ht : cmd.kind = .text) :
    ∃ span, getText cmd c = .ok (some span) ∧ handlerDebug quote cmd c = .ok (quote span.text) := by
  have hh : cmd.handler = .unit .text := by
    rcases hk.1 with ⟨base, hb, hk, hder⟩ | ⟨op, hdr, x, h1, _, _, _, h5⟩
    · have : ∀ base ∈ baseCommands ++ [beginPrintCmd, endPrintCmd], base.commands = [] → base.kind = .text → base.handler = .unit .text := by
        decide +kernel
      exact derived_unit hder (this base hb (by rw [← hder.commands]; exact ho) (by rw [← hder.kind]; exact ht))
    · exfalso
      rw [ho] at h1
      rcases h5 with ⟨⟨rfl, _⟩ | ⟨rfl, _⟩, _⟩ | ⟨rfl, _⟩ <;> simp at h1
  refine ⟨TextSpan.new (Spec.readText page set cmd.data) c, ?_, ?_⟩
  · unfold getText
    rw [hh]
    dsimp only
    rw [hs.decode]
    rfl
  · unfold handlerDebug
    rw [hh]
    dsimp only
    rw [hs.decode]
    rfl

theorem hex02_inj {a b : Byte} (h : hex02 a = hex02 b) : a = b := by
  have hd : ∀ m < 16, ∀ n < 16, hexDigit m = hexDigit n → m = n := by decide +kernel
  unfold hex02 at h
  simp only [List.cons.injEq, and_true] at h
  have ha := UInt8.toNat_lt a
  have hb := UInt8.toNat_lt b
  have h1 := hd _ (by omega) _ (by omega) h.1
  have h2 := hd _ (by omega) _ (by omega) h.2
  apply UInt8.toNat_inj.1
  omega

theorem hexJoin_inj : ∀ {as bs : List Byte}, ((as.map hex02).intersperse ", ".toList).flatten = ((bs.map hex02).intersperse ", ".toList).flatten → as = bs
  | [], [], _ => rfl
  | [], [b], h => by simp [hex02] at h
  | [], b :: b' :: bs, h => by simp [hex02] at h
  | [a], [], h => by simp [hex02] at h
  | a :: a' :: as, [], h => by simp [hex02] at h
  | [a], [b], h => by
    have : hex02 a = hex02 b := by simpa using h
    rw [hex02_inj this]
  | [a], b :: b' :: bs, h => by simp [hex02] at h
  | a :: a' :: as, [b], h => by simp [hex02] at h
  | a :: a' :: as, b :: b' :: bs, h => by
    have h : hex02 a ++ (", ".toList ++ (((a' :: as).map hex02).intersperse ", ".toList).flatten) =
      hex02 b ++ (", ".toList ++ (((b' :: bs).map hex02).intersperse ", ".toList).flatten) := h
    have e := List.append_inj h (by rfl)
    have e2 := List.append_cancel_left e.2
    rw [hex02_inj e.1, hexJoin_inj e2]

/-- C95. A line in the general form shows all parameters: two commands with the same name and the same line have the same parameters. -/
theorem C95_shows_data {cmd cmd' : Command} {c c' : Context} (quote : Str → Str) (h : ownLine cmd.handler = false) (h' : ownLine cmd'.handler = false)
    (hn : cmd.name = cmd'.name) {line : Str} (hl : handlerDebug quote cmd c = .ok line) (hl' : handlerDebug quote cmd' c' = .ok line) :
    cmd.data = cmd'.data := by
  rw [plain_debug quote cmd c h] at hl
  rw [plain_debug quote cmd' c' h'] at hl'
  have e := (Except.ok.inj hl).trans (Except.ok.inj hl').symm
  unfold debugText at e
  rw [hn] at e
  split at e <;> split at e
  · next a b => rw [a, b]
  · exfalso
    have := congrArg List.length e
    simp at this
  · exfalso
    have := congrArg List.length e
    simp at this
  · simp only [List.append_assoc, List.append_cancel_left_eq] at e
    exact hexJoin_inj (List.append_cancel_right e)

theorem base_names : ∀ base ∈ baseCommands ++ [beginPrintCmd, endPrintCmd], base.kind ≠ .subcommand →
    (base.commands ≠ [] → base.commands ≠ [13] → Spec.commandNames.lookup base.commands = some base.name) ∧
    (base.commands = [] → base.name = if base.kind = .text then "Text" else if base.handler = .unit .beginPrint then "Begin Print" else "End Print") := by
  decide +kernel

/-- C95. Every command has the name of what it does, but carriage returns (which are called line feeds: `C95_deviations`), and the functions of GS ( L, GS 8 L and
GS ( k; what has no bytes of its own is text, or the beginning or the end of the job. -/
theorem C95_names_partial {bytes : List Byte} {cmds : List Command} (h : parseEscPos bytes = .ok cmds) : ∀ c ∈ cmds, (∀ id, c.handler ≠ .subUnit id) →
    (c.commands ≠ [] → c.commands ≠ [13] → Spec.commandNames.lookup c.commands = some c.name) ∧
    (c.commands = [] → c.kind = .text → c.name = "Text") ∧
    (c.commands = [] → c.kind ≠ .text → c.name = "Begin Print" ∨ c.name = "End Print") := by
  intro c hc hs
  rcases (parse_whole h c hc).1 with ⟨base, hb, hk, hd⟩ | ⟨op, hdr, x, _, _, _, e, _⟩
  · obtain ⟨h1, h2⟩ := base_names base hb hk
    rw [hd.commands, hd.kind, hd.name]
    refine ⟨h1, fun e1 e2 => by rw [h2 e1, if_pos e2], fun e1 e2 => ?_⟩
    rw [h2 e1, if_neg e2]
    split <;> simp
  · exact absurd e (hs x.id)

/-- C95_names_partial, concrete: bold, text, an unknown command, cut. -/
example : ∃ cmds, parseEscPos [27, 69, 1, 72, 105, 28, 0, 29, 86, 0] = .ok cmds ∧
    cmds.map (·.name) = ["Begin Print", "Enable Emphasis", "Text", "Unknown Command", "Feed and Cut", "End Print"] := ⟨_, rfl, by decide +kernel⟩

/-- The lines of a stream, for examples; texts are written between quotation marks. -/
def logOf (bytes : List Byte) : Option (List String) :=
  match parseEscPos bytes with
  | .ok cmds => some ((writtenLines (fun t => '"' :: t ++ ['"']) 0 0 cmds).map String.ofList)
  | .error _ => none

/-- C95, concrete: `ESC a 1`, text, `GS ! 17h`, `GS \ -3`, LF. -/
example : logOf [27, 97, 1, 72, 105, 29, 33, 0x17, 29, 92, 0xFD, 0xFF, 10] =
    some ["Begin Print", "Set Text Justification [01]", "\"Hi\"", "Set Character Size Stretch w2 h8", "Set Relative Vertical Position --> -3", "Line Feed",
      "End Print"] := by decide +kernel

/-- C95, deviations: the line of ESC t 2 tells that code page 0 is selected, that of ESC R 5 that character set 0 is; with code page 255, which reads UTF-8,
ESC R tells code page 437; carriage returns are called line feeds; the line of GS ( H is empty. -/
theorem C95_deviations :
    logOf [27, 116, 2] = some ["Begin Print", "Set Code Table to 0. Default (Codepage 437) (Us English)", "End Print"] ∧
    logOf [27, 82, 5] = some ["Begin Print", "Set International Character Set to 0. Default (Codepage 437) (Us English)", "End Print"] ∧
    logOf [27, 116, 255, 27, 82, 5] = some ["Begin Print", "Set Code Table to 0. Default (Codepage 437) (Us English)",
      "Set International Character Set to 0. Default (Codepage 437) (Us English)", "End Print"] ∧
    logOf [13] = some ["Begin Print", "Line Feed", "End Print"] ∧
    logOf [29, 40, 72, 2, 0, 48, 48] = some ["Begin Print", "", "End Print"] := by decide +kernel

end Thermal
