import Verif.Proofs.ParserTail
/-
C08, C09, C11, C13: streams of well-formed items.
-/
namespace Thermal
set_option linter.unusedSimpArgs false
open Spec

/-- **C08** (general form, exactly what the code does).  The concatenated encodings of any well-formed items are
split into exactly these items.  `leading` is the blank Unknown command in front of a stream that starts with
text, and the last item is reported as `commandsAtEnd`. -/
theorem C08_stream {items : List Item} (hw : ∀ it ∈ items, it.WF) (hs : separated items) :
    parseEscPos (streamBytes items) =
      .ok (beginPrintCmd :: (leading items ++ streamCommands items ++ [endPrintCmd])) := by
  rw [parseEscPos_eq]
  obtain ⟨s', h1, h2, h3, h4, h5, h6⟩ := items_run items init_closes hw hs (by intro it _ _; rfl)
  rw [h1]
  have hb : blankLead PS.init items = leading items := by simp [blankLead, PS.init]
  simp only [Except.map]
  by_cases hne : items = []
  · rw [h6 hne]; subst hne; rfl
  · rw [h5 hne, hb]; simp

/-- the bytes a returned command stands for (`get_command_bytes`, opcode part then data part) -/
def wire (c : Command) : List Byte := c.getCommandBytes.1 ++ c.getCommandBytes.2

/-- items the code hands back in full: not GS ( H, and a function of the table -/
def Spec.Item.clean : Item → Prop
  | .graphics _ fn _ => graphicsFunction fn ≠ none
  | .largeGraphics _ fn _ => graphicsFunction fn ≠ none
  | .code2d cn fn _ => code2dImplemented cn fn ≠ none
  | .request _ _ _ => False
  | _ => True

/-- items that are also read in full when the input ends right after them -/
def Spec.Item.endSafe : Item → Prop
  | .barcodeA _ _ | .graphics _ _ _ | .largeGraphics _ _ _ | .code2d _ _ _ | .request _ _ _ => False
  | _ => True

theorem fixed_plain_wire : ∀ c ∈ escPosCommands, paramCount c.dataKind ≠ none →
    (match c.handler with | .barcode _ => false | .bitImage _ => false | .raster _ => false | _ => true) = true := by
  decide +kernel

theorem wire_fixed {c : Command} (h : (match c.handler with
    | .barcode _ => false | .bitImage _ => false | .raster _ => false | _ => true) = true) (args) :
    wire { c with data := args } = c.commands ++ args := by
  unfold wire Command.getCommandBytes
  cases hh : c.handler <;> simp_all

/-- Each returned command carries exactly the bytes of its item. -/
theorem clean_wire {it : Item} (hw : it.WF) (hc : it.clean) : it.commands.flatMap wire = it.bytes := by
  cases it with
  | text t => simp [Item.commands, Item.bytes, wire, Command.getCommandBytes, textCmd]
  | fixed c args =>
    obtain ⟨h1, h2⟩ := hw
    have := wire_fixed (fixed_plain_wire c h1 (by simp [h2])) args
    simp [Item.commands, Item.bytes, this]
  | pagePrint => decide
  | cut m => simp [Item.commands, Item.bytes, wire, Command.getCommandBytes, feedAndCutCmd, GS, ch]
  | feedCut m n => simp [Item.commands, Item.bytes, wire, Command.getCommandBytes, feedAndCutCmd, GS, ch]
  | effects body =>
    simp [Item.commands, Item.bytes, wire, Command.getCommandBytes, setCharacterEffectsCmd, GS, ch]
  | barcodeA m data =>
    have h6 : m ≤ 6 := hw.1
    simp [Item.commands, Item.bytes, wire, Command.getCommandBytes, barcodeCommand, h6, NUL]
  | barcodeB m data =>
    have h6 : ¬ m ≤ 6 := by have := hw.1; have := UInt8.le_iff_toNat_le.1 this; rw [UInt8.le_iff_toNat_le]; simp at *; omega
    simp [Item.commands, Item.bytes, wire, Command.getCommandBytes, barcodeCommand, h6]
  | bitImage m w data =>
    simp [Item.commands, Item.bytes, wire, Command.getCommandBytes, bitImageCmd, ESC, ch]
  | raster m w h data =>
    simp [Item.commands, Item.bytes, wire, Command.getCommandBytes, rasterBitImageCmd, GS, ch]
  | graphics m fn p =>
    obtain ⟨f, hf⟩ := Option.ne_none_iff_exists'.1 hc
    simp [Item.commands, Item.bytes, hf, subCommand, wire, Command.getCommandBytes]
  | largeGraphics m fn p =>
    obtain ⟨f, hf⟩ := Option.ne_none_iff_exists'.1 hc
    simp [Item.commands, Item.bytes, hf, subCommand, wire, Command.getCommandBytes]
  | code2d m fn p =>
    obtain ⟨f, hf⟩ := Option.ne_none_iff_exists'.1 hc
    simp [Item.commands, Item.bytes, hf, subCommand, wire, Command.getCommandBytes]
  | request m fn p => exact absurd hc (fun h => h)

theorem streamCommands_endSafe {items : List Item} (hl : ∀ it ∈ items.getLast?, it.endSafe) :
    streamCommands items = items.flatMap Item.commands := by
  induction items with
  | nil => rfl
  | cons it rest ih =>
    rcases rest with _ | ⟨it2, rest⟩
    · have := hl it (by simp)
      simp only [streamCommands, List.flatMap_cons, List.flatMap_nil, List.append_nil]
      cases it <;> first | rfl | exact this.elim
    · have hx : streamCommands (it :: it2 :: rest) = it.commands ++ streamCommands (it2 :: rest) := rfl
      rw [hx, ih (by simpa using hl)]
      simp

/-- **C08** (partial): items come back exactly, in order, one command per item, and their bytes restore the input.
Missing with respect to the full claim, because the code does not satisfy it: a stream that starts with text gets
an extra blank Unknown command; GS ( H loses its header bytes; unrecognised functions are dropped; an input that
ends with a sub-command or a function-A barcode is not reported in full (`C08_stream` says what is returned). -/
theorem C08_split_partial {items : List Item} (hw : ∀ it ∈ items, it.WF) (hs : separated items)
    (hc : ∀ it ∈ items, it.clean) (hl : ∀ it ∈ items.getLast?, it.endSafe)
    (hf : ∀ it ∈ items.head?, it.isText = false) :
    ∃ cmds, parseEscPos (streamBytes items) = .ok (beginPrintCmd :: (cmds ++ [endPrintCmd])) ∧
      items.map Item.commands = cmds.map (fun c => [c]) ∧ cmds.map wire = items.map Item.bytes ∧
      cmds.flatMap wire = streamBytes items := by
  have hlead : leading items = [] := by
    rcases items with _ | ⟨it, rest⟩
    · rfl
    · simp [leading, hf it (by simp)]
  have hone : ∀ it ∈ items, ∃ c, it.commands = [c] ∧ wire c = it.bytes := by
    intro it hit
    have hw' := clean_wire (hw it hit) (hc it hit)
    have : ∃ c, it.commands = [c] := by
      have hcl := hc it hit
      cases it with
      | graphics m fn p => obtain ⟨f, hf⟩ := Option.ne_none_iff_exists'.1 hcl; exact ⟨_, by simp [Item.commands, hf]; rfl⟩
      | largeGraphics m fn p =>
        obtain ⟨f, hf⟩ := Option.ne_none_iff_exists'.1 hcl; exact ⟨_, by simp [Item.commands, hf]; rfl⟩
      | code2d m fn p => obtain ⟨f, hf⟩ := Option.ne_none_iff_exists'.1 hcl; exact ⟨_, by simp [Item.commands, hf]; rfl⟩
      | request m fn p => exact hcl.elim
      | _ => exact ⟨_, rfl⟩
    obtain ⟨c, hcc⟩ := this
    exact ⟨c, hcc, by simpa [hcc] using hw'⟩
  have hboth : items.map Item.commands = (items.flatMap Item.commands).map (fun c => [c]) ∧
      (items.flatMap Item.commands).map wire = items.map Item.bytes := by
    clear hw hs hc hl hf hlead
    induction items with
    | nil => simp
    | cons it rest ih =>
      obtain ⟨c, h1, h2⟩ := hone it (by simp)
      obtain ⟨g1, g2⟩ := ih (fun i hi => hone i (by simp [hi]))
      simp [h1, h2, g1, g2]
  refine ⟨items.flatMap Item.commands, ?_, hboth.1, hboth.2, ?_⟩
  · rw [C08_stream hw hs, hlead, streamCommands_endSafe hl]; simp
  · rw [streamBytes, List.flatMap_assoc]
    clear hone hlead hf hl hs hboth
    induction items with
    | nil => rfl
    | cons it rest ih =>
      simp only [List.flatMap_cons]
      rw [clean_wire (hw it (by simp)) (hc it (by simp)), ih (fun i hi => hw i (by simp [hi])) (fun i hi => hc i (by simp [hi]))]

/-- The full claim of C08 is false of the code: one text run, a GS ( L at the end of the input, and a GS ( H in
the middle are each returned differently from what was sent. -/
theorem C08_full_claim_false :
    ¬ ∀ items : List Item, (∀ it ∈ items, it.WF) → separated items → ∃ cmds,
      parseEscPos (streamBytes items) = .ok (beginPrintCmd :: (cmds ++ [endPrintCmd])) ∧
      cmds.flatMap wire = streamBytes items := by
  intro h
  obtain ⟨cmds, h1, h2⟩ := h [.graphics 48 69 [32, 32, 1, 1]] (by simp [Item.WF]) trivial
  rw [C08_stream (items := [.graphics 48 69 [32, 32, 1, 1]]) (by simp [Item.WF]) trivial] at h1
  simp only [leading, streamCommands, Except.ok.injEq, List.cons.injEq, true_and] at h1
  have := List.append_inj_left' h1 rfl
  rw [← this] at h2
  revert h2
  decide

instance (it : Item) : Decidable it.WF := by cases it <;> unfold Item.WF <;> infer_instance
instance (it : Item) : Decidable it.clean := by cases it <;> unfold Item.clean <;> infer_instance

/-- C08: a receipt with a text run, a two-parameter command, an image, a stored graphic, a QR code and a cut. -/
def sampleItems : List Item :=
  [.fixed initializeCmd [], .text [72, 105, 33], .fixed linefeedCmd [], .bitImage 0 3 [1, 27, 64],
   .graphics 48 69 [32, 32, 1, 1], .code2d 49 80 [48, 29, 86, 0], .barcodeB 73 [123, 66, 0], .raster 0 1 2 [255, 0],
   .barcodeA 4 [65, 66], .effects [48, 1], .feedCut 65 3, .text [66], .cut 0]

example : (∀ it ∈ sampleItems, it.WF) ∧ separated sampleItems ∧ (∀ it ∈ sampleItems, it.clean) ∧
    (∀ it ∈ sampleItems.getLast?, it.endSafe) ∧ (∀ it ∈ sampleItems.head?, it.isText = false) := by
  refine ⟨?_, ?_, ?_, ?_, ?_⟩
  · decide +kernel
  · simp [sampleItems, separated, Item.isText]
  · decide +kernel
  · simp [sampleItems, Item.endSafe]
  · simp [sampleItems, Item.isText]

/-! ### C09 -/

/-- items whose payload length is known in advance -/
def Spec.Item.hasPayload : Item → Prop
  | .barcodeB _ _ | .bitImage _ _ _ | .raster _ _ _ _ | .graphics _ _ _ | .largeGraphics _ _ _ | .code2d _ _ _
  | .request _ _ _ | .effects _ => True
  | _ => False

/-- the payload bytes of an item -/
def Spec.Item.payload : Item → List Byte
  | .barcodeB _ d | .bitImage _ _ d | .raster _ _ _ d | .graphics _ _ d | .largeGraphics _ _ d | .code2d _ _ d
  | .request _ _ d | .effects d => d
  | _ => []

theorem getLast_append_singleton {α} (l : List α) (a : α) : (l ++ [a]).getLast? = some a := by simp

theorem separated_snoc {pre : List Item} {it : Item} (h : separated pre) (ht : it.isText = false) :
    separated (pre ++ [it]) := by
  induction pre with
  | nil => trivial
  | cons a rest ih =>
    rcases rest with _ | ⟨b, rest⟩
    · exact ⟨by simp [ht], trivial⟩
    · exact ⟨h.1, ih h.2⟩

/-- **C09**.  After any well-formed prefix `pre`, an item `it` with a length-known payload is read to its end
whatever bytes the payload contains: the commands of `pre` and then the command of `it`, with the payload as its
data, are returned, and the bytes after it are read as a function `tail` of these bytes alone — the same function
whatever the prefix, the item and its payload were. -/
theorem C09_payload_opaque (rest : List Byte) (hne : rest ≠ []) :
    ∃ tail : Rs (List Command), ∀ (pre : List Item) (it : Item), (∀ i ∈ pre, i.WF) → separated pre → it.WF →
      it.hasPayload →
      parseEscPos (streamBytes pre ++ it.bytes ++ rest) = tail.map (fun tl =>
        beginPrintCmd :: (leading pre ++ pre.flatMap Item.commands ++ it.commands ++ tl)) := by
  refine ⟨tailOf rest, ?_⟩
  intro pre it hw hs hit hp
  have ht : it.isText = false := by cases it <;> first | rfl | exact hp.elim
  obtain ⟨s', h1, h2, h3, h4, h5, h6⟩ := items_run (pre ++ [it]) init_closes
    (by intro i hi; rcases List.mem_append.1 hi with hi | hi
        · exact hw i hi
        · simp only [List.mem_singleton] at hi; subst hi; exact hit)
    (separated_snoc hs ht) (by intro i _ _; rfl)
  have hb : blankLead PS.init (pre ++ [it]) = leading pre := by
    simp only [blankLead, PS.init, if_true]
    rcases pre with _ | ⟨a, pre⟩
    · simp [leading, ht]
    · simp [leading]
  have hd : s'.isDef = false := by rw [h3 it (by simp), ht]
  have htl := closes_tail h2 hd (h4 (by simp)) rest hne
  have hbytes : streamBytes pre ++ it.bytes ++ rest = streamBytes (pre ++ [it]) ++ rest := by simp [streamBytes]
  rw [parseEscPos_eq, hbytes, PS.run_append, h1]
  simp only [Except.bind]
  rw [htl, hb]
  congr 1
  funext tl
  simp

/-- C09, the data part: the command returned for a payload item carries exactly the payload as its data (the
effects command keeps its two length bytes in front). -/
theorem C09_payload_data {it : Item} (hp : it.hasPayload) (hc : it.commands ≠ []) :
    ∃ c, it.commands = [c] ∧ (c.data = it.payload ∨ c.data = lo it.payload.length :: hi it.payload.length :: it.payload) := by
  cases it with
  | graphics m fn p =>
    rcases hf : graphicsFunction fn with _ | f
    · simp [Item.commands, hf] at hc
    · exact ⟨_, by simp [Item.commands, hf]; rfl, .inl rfl⟩
  | largeGraphics m fn p =>
    rcases hf : graphicsFunction fn with _ | f
    · simp [Item.commands, hf] at hc
    · exact ⟨_, by simp [Item.commands, hf]; rfl, .inl rfl⟩
  | code2d m fn p =>
    rcases hf : code2dImplemented m fn with _ | f
    · simp [Item.commands, hf] at hc
    · exact ⟨_, by simp [Item.commands, hf]; rfl, .inl rfl⟩
  | effects body => exact ⟨_, rfl, .inr (by simp [Item.payload])⟩
  | barcodeB m d => exact ⟨_, rfl, .inl rfl⟩
  | bitImage m w d => exact ⟨_, rfl, .inl rfl⟩
  | raster m w h d => exact ⟨_, rfl, .inl rfl⟩
  | request m fn p => exact ⟨_, rfl, .inl rfl⟩
  | _ => exact hp.elim

/-- a payload made of opcodes: ESC @, GS V 0, LF, NUL -/
example : (Item.raster 0 1 7 [27, 64, 29, 86, 0, 10, 0]).WF ∧ (Item.raster 0 1 7 [27, 64, 29, 86, 0, 10, 0]).hasPayload :=
  ⟨by simp [Item.WF], trivial⟩
example : parseEscPos ((Item.raster 0 1 7 [27, 64, 29, 86, 0, 10, 0]).bytes ++ [27, 64]) =
    .ok [beginPrintCmd, (Item.raster 0 1 7 [27, 64, 29, 86, 0, 10, 0]).commands.head (by simp [Item.commands]),
      initializeCmd, endPrintCmd] := by decide +kernel

/-! ### C11 -/

/-- a byte string that starts a command for sure: it begins with HT, LF, FF, CR, ESC, GS, DLE or FS, or with
CAN @, or is a lone CAN at the end -/
def startsCommand : List Byte → Prop
  | [] => True
  | 0x18 :: rest => ∀ b ∈ rest.head?, b = 0x40
  | b :: _ => opener b = true

theorem opener_lead {b : Byte} (h : opener b = true) :
    b = 9 ∨ b = 10 ∨ b = 12 ∨ b = 13 ∨ b = 16 ∨ b = 24 ∨ b = 27 ∨ b = 28 ∨ b = 29 := by
  simpa [opener] using h

theorem nolead_one {b : Byte} (h : opener b = true) (hl : look [b] = .nomatch) : isLead [b] = true := by
  rcases opener_lead h with rfl | rfl | rfl | rfl | rfl | rfl | rfl | rfl | rfl <;> first | rfl | (exfalso; revert hl; decide +kernel)

theorem part_lead {b : Byte} (h : opener b = true) (h24 : b ≠ 0x18) (hl : look [b] = .part) : isLead [b] = true := by
  rcases opener_lead h with rfl | rfl | rfl | rfl | rfl | rfl | rfl | rfl | rfl <;>
    first | rfl | (exfalso; revert h24; decide) | (exfalso; revert hl; decide +kernel)

/-- **C11**.  A stream of bytes none of which starts an opcode is returned as one Text command with exactly these
bytes, whatever command (or end of input) follows; it is preceded only by the blank Unknown command. -/
theorem C11_text_verbatim {t rest : List Byte} {cmds : List Command} (hne : t ≠ []) (ht : ∀ b ∈ t, opener b = false)
    (hr : startsCommand rest) (h : parseEscPos (t ++ rest) = .ok cmds) :
    ∃ more, cmds = beginPrintCmd :: unknownCmd :: { textCmd with data := t } :: more := by
  rw [parseEscPos_eq, PS.run_append] at h
  have hrun := init_closes.text rfl hne ht
  rw [hrun] at h
  simp only [Except.bind] at h
  have goal : ∀ l : List Command, [beginPrintCmd, unknownCmd, { textCmd with data := t }] <+: l →
      ∃ more, l = beginPrintCmd :: unknownCmd :: { textCmd with data := t } :: more := by
    rintro l ⟨more, rfl⟩; exact ⟨more, rfl⟩
  apply goal
  set_option maxRecDepth 4000 in
  have hs0 : PS.inText t ([beginPrintCmd] ++ if PS.init.cur = none then [unknownCmd] else []) =
    PS.inText t [beginPrintCmd, unknownCmd] := by simp [PS.init]
  rw [hs0] at h
  have hem : emittedOpt (some { textCmd with data := t }) = [{ textCmd with data := t }] := emitted_plain (by simp [textCmd])
  rcases rest with _ | ⟨b, rest⟩
  · simp only [PS.run, pure, Except.pure, Except.map, Except.ok.injEq] at h
    rw [← h]; simp [PS.finish, PS.inText, hem]
  · have hob : opener b = true := by
      by_cases hb : b = 0x18
      · subst hb; rfl
      · unfold startsCommand at hr
        split at hr
        · simp_all
        · simp_all
        · simp_all
    have hstep : (PS.inText t [beginPrintCmd, unknownCmd]).step b = .ok ((PS.inText t [beginPrintCmd, unknownCmd]).search b) := by
      simp [PS.step, PS.inText, pure, Except.pure]
    simp only [PS.run, hstep, bind, Except.bind] at h
    have hseal : ∀ (u : PS) (bs : List Byte), Sealed u [beginPrintCmd, unknownCmd, { textCmd with data := t }] →
        (u.run bs).map PS.finish = .ok cmds → [beginPrintCmd, unknownCmd, { textCmd with data := t }] <+: cmds := by
      intro u bs hu hrn
      rcases hv : u.run bs with e | v
      · rw [hv] at hrn; simp [Except.map] at hrn
      · rw [hv] at hrn
        simp only [Except.map, Except.ok.injEq] at hrn
        rw [← hrn]
        exact sealed_finish (sealed_run hu hv)
    rcases hl : look [b] with c | _ | _
    · refine hseal _ rest ?_ h
      left
      simp [PS.search, PS.inText, hl, hem]
    · by_cases hb : b = 0x18
      · subst hb
        have hsr : (PS.inText t [beginPrintCmd, unknownCmd]).search 0x18 =
            { PS.inText t [beginPrintCmd, unknownCmd] with pend := [0x18] } := by
          simp [PS.search, PS.inText, hl]
        rw [hsr] at h
        rcases rest with _ | ⟨x, rest⟩
        · simp only [PS.run, pure, Except.pure, Except.map, Except.ok.injEq] at h
          rw [← h]; simp [PS.finish, PS.inText, hem]
        · have hx : x = 0x40 := by
            have : ∀ b ∈ (x :: rest).head?, b = 0x40 := hr
            exact this x (by simp)
          subst hx
          have hlk : look [0x18, 0x40] = .complete cancelCmd := look_opcode (c := cancelCmd) (by decide +kernel)
          have hst2 : PS.step { PS.inText t [beginPrintCmd, unknownCmd] with pend := [0x18] } 0x40 = .ok
              { cur := some cancelCmd
                isDef := false
                pend := []
                out := [beginPrintCmd, unknownCmd, { textCmd with data := t }] } := by
            simp [PS.step, PS.inText, pure, Except.pure, PS.search, hlk, hem]
          simp only [PS.run, hst2, bind, Except.bind] at h
          exact hseal _ rest (.inl (List.prefix_refl _)) h
      · refine hseal _ rest ?_ h
        right
        refine ⟨by simp [PS.search, PS.inText, hl], .inr ?_, ?_⟩
        · simp only [PS.search, PS.inText, List.nil_append, hl]; exact part_lead hob hb hl
        · simp [PS.search, PS.inText, hl, hem]
    · have hL := nolead_one hob hl
      refine hseal _ rest ?_ h
      left
      simp [PS.search, PS.inText, hl, hL, emittedOrUnknown, emitted_plain (c := { textCmd with data := t }) (by simp [textCmd])]

/-- C11: nothing else is returned when the text is the whole input. -/
theorem C11_text_alone {t : List Byte} (hne : t ≠ []) (ht : ∀ b ∈ t, opener b = false) :
    parseEscPos t = .ok [beginPrintCmd, unknownCmd, { textCmd with data := t }, endPrintCmd] := by
  have := C08_stream (items := [.text t]) (by simp [Item.WF]; exact ⟨hne, ht⟩) trivial
  simpa [streamBytes, Item.bytes, leading, Item.isText, streamCommands, Item.commandsAtEnd, Item.commands] using this

/-- C11, the exception: a CAN byte that is not the start of CAN @ continues the text run. -/
example : parseEscPos [72, 0x18, 73] = .ok [beginPrintCmd, unknownCmd, { textCmd with data := [72, 73] }, endPrintCmd] := by
  decide +kernel

example : (∀ b ∈ [0xE4, 72, 0x7F], opener b = false) ∧ startsCommand [0x1B, 0x40] ∧
    (∃ cmds, parseEscPos ([0xE4, 72, 0x7F] ++ [0x1B, 0x40]) = .ok cmds) := by
  refine ⟨by decide, by simp [startsCommand, opener], ⟨_, rfl⟩⟩

/-! ### C13 -/

/-- **C13** (graphics).  At any item boundary, GS ( L with function `fn` and any payload hands out the function
named by `fn` with exactly the payload, or nothing for an unknown function; either way the payload is consumed and
reading continues with the byte after it. -/
theorem C13_graphics_routing {pre : List Item} (hw : ∀ i ∈ pre, i.WF) (hs : separated pre) (m fn : Byte)
    (p rest : List Byte) (hp : p.length + 2 < 65536) (hne : rest ≠ []) :
    ∃ tail : Rs (List Command), parseEscPos
        (streamBytes pre ++ ([0x1D, 0x28, 0x4C, lo (p.length + 2), hi (p.length + 2), m, fn] ++ p) ++ rest) =
      tail.map (fun tl => beginPrintCmd :: (leading pre ++ pre.flatMap Item.commands ++
        (match graphicsFunction fn with
         | some f => [subCommand f [0x1D, 0x28, 0x4C, lo (p.length + 2), hi (p.length + 2), m, fn] p]
         | none => []) ++ tl)) ∧
      (∀ (q : List Byte) (fn' : Byte), q.length + 2 < 65536 → parseEscPos
        ([0x1D, 0x28, 0x4C, lo (q.length + 2), hi (q.length + 2), m, fn'] ++ q ++ rest) =
          tail.map (fun tl => beginPrintCmd :: ((match graphicsFunction fn' with
         | some f => [subCommand f [0x1D, 0x28, 0x4C, lo (q.length + 2), hi (q.length + 2), m, fn'] q]
         | none => []) ++ tl))) := by
  obtain ⟨tail, ht⟩ := C09_payload_opaque rest hne
  refine ⟨tail, ?_, ?_⟩
  · have := ht pre (.graphics m fn p) hw hs hp trivial
    simp only [Item.bytes, small, Item.commands, List.cons_append, List.nil_append] at this ⊢
    rw [this]
    congr 1; funext tl
    cases graphicsFunction fn <;> simp
  · intro q fn' hq
    have := ht [] (.graphics m fn' q) (by simp) trivial hq trivial
    simp only [Item.bytes, small, Item.commands, streamBytes, List.flatMap_nil, List.nil_append, leading, List.cons_append] at this ⊢
    rw [this]
    congr 1; funext tl
    cases graphicsFunction fn' <;> simp

/-- **C13** (GS 8 L, four length bytes). -/
theorem C13_large_graphics_routing {pre : List Item} (hw : ∀ i ∈ pre, i.WF) (hs : separated pre) (m fn : Byte)
    (p rest : List Byte) (hp : p.length + 2 < 4294967296) (hne : rest ≠ []) :
    ∃ tail : Rs (List Command), parseEscPos
        (streamBytes pre ++ ([0x1D, 0x38, 0x4C, lo (p.length + 2), hi (p.length + 2), hi2 (p.length + 2),
          hi3 (p.length + 2), m, fn] ++ p) ++ rest) =
      tail.map (fun tl => beginPrintCmd :: (leading pre ++ pre.flatMap Item.commands ++
        (match graphicsFunction fn with
         | some f => [subCommand f [0x1D, 0x38, 0x4C, lo (p.length + 2), hi (p.length + 2), hi2 (p.length + 2),
             hi3 (p.length + 2), m, fn] p]
         | none => []) ++ tl)) := by
  obtain ⟨tail, ht⟩ := C09_payload_opaque rest hne
  refine ⟨tail, ?_⟩
  have := ht pre (.largeGraphics m fn p) hw hs hp trivial
  simp only [Item.bytes, large, Item.commands, List.cons_append, List.nil_append] at this ⊢
  rw [this]
  congr 1; funext tl
  cases graphicsFunction fn <;> simp

/-- **C13** (GS ( k, partial): as documented by Epson for every (cn, fn) except (52,67) and (54,67). -/
theorem C13_code2d_routing_partial {pre : List Item} (hw : ∀ i ∈ pre, i.WF) (hs : separated pre) (cn fn : Byte)
    (hx : ¬ (fn = 67 ∧ (cn = 52 ∨ cn = 54)))
    (p rest : List Byte) (hp : p.length + 2 < 65536) (hne : rest ≠ []) :
    ∃ tail : Rs (List Command), parseEscPos
        (streamBytes pre ++ ([0x1D, 0x28, 0x6B, lo (p.length + 2), hi (p.length + 2), cn, fn] ++ p) ++ rest) =
      tail.map (fun tl => beginPrintCmd :: (leading pre ++ pre.flatMap Item.commands ++
        (match code2dFunction cn fn with
         | some f => [subCommand f [0x1D, 0x28, 0x6B, lo (p.length + 2), hi (p.length + 2), cn, fn] p]
         | none => []) ++ tl)) := by
  obtain ⟨tail, ht⟩ := C09_payload_opaque rest hne
  refine ⟨tail, ?_⟩
  have := ht pre (.code2d cn fn p) hw hs hp trivial
  simp only [Item.bytes, small, Item.commands, List.cons_append, List.nil_append] at this ⊢
  rw [this]
  congr 1; funext tl
  have he : code2dImplemented cn fn = code2dFunction cn fn := by
    unfold code2dImplemented
    rw [if_neg (by rintro ⟨rfl, rfl⟩; exact hx ⟨rfl, .inl rfl⟩), if_neg (by rintro ⟨rfl, rfl⟩; exact hx ⟨rfl, .inr rfl⟩)]
  rw [he]
  cases code2dFunction cn fn <;> simp

/-- C13: the two exceptions. (52,67), composite "set width", selects DataMatrix "set width"; (54,67) is dropped. -/
theorem C13_exceptions :
    parseEscPos ([0x1D, 0x28, 0x6B, 3, 0, 52, 67, 2] ++ [27, 64]) =
      .ok [beginPrintCmd, subCommand datamatrixSetWidthSub [0x1D, 0x28, 0x6B, 3, 0, 52, 67] [2], initializeCmd, endPrintCmd] ∧
    parseEscPos ([0x1D, 0x28, 0x6B, 3, 0, 54, 67, 2] ++ [27, 64]) = .ok [beginPrintCmd, initializeCmd, endPrintCmd] ∧
    datamatrixSetWidthSub ≠ compositeSetWidthSub := by
  decide +kernel

example : parseEscPos ([0x1D, 0x28, 0x6B, 5, 0, 49, 80, 48, 27, 64] ++ [27, 64]) =
    .ok [beginPrintCmd, subCommand qrStoreSub [0x1D, 0x28, 0x6B, 5, 0, 49, 80] [48, 27, 64], initializeCmd, endPrintCmd] := by
  decide +kernel

end Thermal
