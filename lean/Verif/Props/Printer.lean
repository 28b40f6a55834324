import Verif.Proofs.Printer
import Verif.Props.ParserStream
/-
C81: the reference printer.  What the program tells an output renderer to put on the paper, for whole streams of commands, is what
the reference printer of Spec/Printer puts there.
-/
namespace Thermal
open Renderer Spec
variable {ext : Ext}

/-! ### What is remembered -/

/-- A key of a memory: nothing, or the picture. -/
def Keeps : Option Picture → Option GraphicsCommand → Prop
  | none, g => g = none
  | some pic, g => ∃ i, g = some (.image i) ∧ Stamp i .block pic

/-- A layer of the print buffer. -/
def Layer (pic : Picture) (g : GraphicsCommand) : Prop := ∃ i, g = .image i ∧ Stamp i .block pic

/-- The reference printer and the program agree. -/
structure AtPress (p : Press) (r : Recording) : Prop where
  inked : Inked p r
  qr : QrAt p.qr r.context
  memory : ∀ m a b, Keeps (p.memory m a b) (r.context.graphics.storedGraphics.get (memKey m a b))
  buffer : List.Forall₂ Layer p.buffer r.context.graphics.bufferGraphics

theorem Inked.fixed {p : Press} {r : Recording} (h : Inked p r) : Fixed r.context := ⟨h.desk.styled.colors, h.desk.styled.default⟩

theorem remember_step {mem : Memory → Byte → Byte → Option Picture} {op : StoreOp} {m m' : GraphicsMap}
    (h : ∀ k a b, Keeps (mem k a b) (m.get (memKey k a b))) (hs : MemStep op m m')
    (hop : ∀ k a b data, op = .define k a b data → completeDefinition data = true) :
    ∀ k a b, Keeps (remember mem op k a b) (m'.get (memKey k a b)) := by
  intro k a b
  cases op with
  | define m2 a2 b2 data =>
    obtain ⟨g, hg, e⟩ := hs
    rw [e]
    dsimp only [remember]
    by_cases hc : m2 = k ∧ a2 = a ∧ b2 = b
    · rw [if_pos hc, if_pos hc]
      obtain ⟨i, pic, e1, e2, _, _, e3⟩ := defined_stamp hg (hop _ _ _ _ rfl)
      rw [e2, e1]
      exact ⟨i, rfl, e3⟩
    · rw [if_neg hc, if_neg hc]; exact h k a b
  | delete m2 a2 b2 =>
    rw [show _ = _ from hs k a b]
    dsimp only [remember]
    by_cases hc : m2 = k ∧ a2 = a ∧ b2 = b
    · rw [if_pos hc, if_pos hc]; rfl
    · rw [if_neg hc, if_neg hc]; exact h k a b
  | deleteAll m2 =>
    rw [show _ = _ from hs k a b]
    dsimp only [remember]
    by_cases hc : m2 = k
    · rw [if_pos hc, if_pos hc]; rfl
    · rw [if_neg hc, if_neg hc]; exact h k a b
  | reset => rw [show m' = [] from hs]; rfl
  | other => rw [show m' = m from hs]; exact h k a b

theorem collect_step {buf : List Picture} {op : BufferOp} {b b' : List GraphicsCommand} (h : List.Forall₂ Layer buf b)
    (hs : BufStep op b b') (hop : ∀ column data, op = .store column data → completeBuffer column data = true) :
    List.Forall₂ Layer (collect buf op) b' := by
  cases op with
  | store column data =>
    obtain ⟨g, hg, rfl⟩ := hs
    obtain ⟨i, pic, e1, e2, _, _, e3⟩ := buffer_stamp hg (hop _ _ rfl)
    dsimp only [collect]
    rw [e2]
    exact List.rel_append h (.cons ⟨i, e1, e3⟩ .nil)
  | empty => rw [show b' = [] from hs]; exact .nil
  | other => rw [show b' = b from hs]; exact h

/-! ### The kinds of items -/

theorem graphics_kinds (fn : Byte) {x : SubCmd} (h : graphicsFunction fn = some x) :
    x.kind = .graphics → fn.toNat = 2 ∨ fn.toNat = 50 ∨ fn.toNat = 69 ∨ fn.toNat = 85 := by
  have key : ∀ fn : Byte, ((graphicsFunction fn).all fun x => x.kind != .graphics || fn.toNat == 2 || fn.toNat == 50 || fn.toNat == 69 || fn.toNat == 85) = true := by
    apply byte_all; decide +kernel
  have := key fn
  rw [h] at this
  intro hk
  simp only [Option.all_some, hk, Bool.or_eq_true, beq_iff_eq, bne_self_eq_false, Bool.false_eq_true, false_or] at this
  omega

theorem code2d_kinds {cn fn : Byte} {x : SubCmd} (h : code2dImplemented cn fn = some x) : x.kind = .graphics → fn = 81 := by
  have hr := code2dImplemented_range h
  have key : ∀ fn : Byte, ∀ cn ∈ [(48 : Byte), 49, 50, 51, 52, 53, 54], ((code2dImplemented cn fn).all fun x => x.kind != .graphics || fn == 81) = true := by
    apply byte_all; decide +kernel
  have hm : cn ∈ [(48 : Byte), 49, 50, 51, 52, 53, 54] := by
    have : cn.toNat = 48 ∨ cn.toNat = 49 ∨ cn.toNat = 50 ∨ cn.toNat = 51 ∨ cn.toNat = 52 ∨ cn.toNat = 53 ∨ cn.toNat = 54 := by omega
    simp only [List.mem_cons, List.not_mem_nil, or_false]
    rcases this with h | h | h | h | h | h | h <;> simp [← UInt8.toNat_inj, h]
  have := key fn cn hm
  rw [h] at this
  intro hk
  simpa [hk] using this

theorem fixed_kinds : ∀ c ∈ escPosCommands, (paramCount c.dataKind).isSome → c.kind ≠ .graphics ∧ ¬ c.isBegin ∧ ¬ c.isEnd := by
  unfold Command.isBegin Command.isEnd
  decide +kernel

/-! ### Drawing commands -/

theorem Inked.draws {p : Press} {cmd : Command} (hk : cmd.kind = .graphics) (hd : ∀ c, getDevice cmd c = .ok none) {r r' : Recording}
    (hi : Inked p r) (h : processCommand recorder ext r cmd = .ok r') :
    ∃ r1 g, Inked p.flush r1 ∧ r1.spanBuffer = [] ∧ PenDown r.context r1.context ∧ getGraphics ext cmd r1.context = .ok g ∧
      processGraphicsOpt recorder r1 g = .ok r' := by
  obtain ⟨r1, g, r2, o, h1, h2, h3, h4, h5⟩ := graphics_step h hk
  rw [hd, ok_ok] at h4
  subst h4
  simp only [Option.getD_none, deviceCommands, ok_ok] at h5
  subst h5
  obtain ⟨f1, f2⟩ := hi.flush h1
  exact ⟨r1, g, f1, f2, (processText_quiet h1).4, h2, h3⟩

theorem Inked.error {p : Press} {r r' : Recording} (hi : Inked p r) {e : String}
    (h : processGraphicsOpt recorder r (some (.error e)) = .ok r') : Inked p r' := by
  have := Except.ok.inj h
  subst this
  exact hi.same rfl rfl rfl

/-- A barcode in the settings of the context. -/
theorem Inked.encoded {p : Press} {r r' : Recording} (hi : Inked p r) (hs : r.spanBuffer = []) {b : Barcode} {text : Str}
    (h1 : b.pointWidth = r.context.barcode.width) (h2 : b.pointHeight = r.context.barcode.height)
    (h3 : b.text = { TextSpan.new text r.context with font := r.context.barcode.font }) {ms : List Byte} (h4 : b.points = ms)
    (hcap : p.captionFair text) (h : processBarcode recorder r b = .ok r') : Inked (p.barcode ms text) r' := by
  have hst := hi.desk.styled.style
  dsimp only at hst
  have hlook := look_new hi.desk.styled hi.desk.limits text
  dsimp only at hlook
  have e3 : r.context.barcode.font = p.desk.style.barcodeFont := by rw [← hst]; rfl
  have hrun : runOf b.text = (text, { p.desk.style.look with font := p.desk.style.barcodeFont }) := by
    rw [h3, ← e3, ← hlook]; rfl
  subst h4
  refine hi.barcode hs ?_ ?_ ?_ hrun ⟨?_, by rw [hrun]; exact hcap⟩ h
  · rw [h1, ← hst]; rfl
  · rw [h2, ← hst]; rfl
  · have := hi.desk.limits.width; rw [h1]; omega
  · have : b.text.characterWidth = (runOf b.text).2.cell.1 := rfl
    rw [this, hrun]
    refine Nat.mul_pos ?_ hi.desk.wide
    cases p.desk.style.font <;> decide

theorem print_barcode {p : Press} {it : Item} {m : Byte} {data : List Byte} (hit : it = .barcodeA m data ∨ it = .barcodeB m data) (hw : it.WF)
    (hdev : ¬ barcodeDeviates m data) (hcap : ∀ b, Spec.barcode ext m data = some b → p.captionFair b.2) {cmd : Command}
    (hc : cmd ∈ it.commands) {r r' : Recording} (hi : Inked p r) (h : processCommand recorder ext r cmd = .ok r') :
    Inked ((Spec.barcode ext m data).elim p.flush fun b => p.flush.barcode b.1 b.2) r' := by
  obtain ⟨_, _, hk, s, hh, _⟩ := barcode_item hit hw hc
  obtain ⟨r1, g, f1, f2, f3, h2, h3⟩ := hi.draws hk (by intro c; unfold getDevice; rw [hh]; rfl) h
  have key := C79_barcode_partial (ext := ext) hit hw hdev hc r1.context
  rcases hb : Spec.barcode ext m data with _ | ⟨ms, text⟩
  · rw [hb] at key
    obtain ⟨e, he⟩ := key
    rw [he, ok_ok] at h2
    subst h2
    exact f1.error h3
  · rw [hb] at key
    dsimp only at key
    rw [key, ok_ok] at h2
    subst h2
    exact f1.encoded f2 rfl rfl rfl rfl (hcap _ hb) h3

/-! ### Images -/

theorem print_raster {p : Press} {m : Byte} {w h : Nat} {data : List Byte} (hw : (Item.raster m w h data).WF)
    (hm : m ≤ 3 ∨ (48 ≤ m ∧ m ≤ 50)) {cmd : Command} (hc : cmd ∈ (Item.raster m w h data).commands) {r r' : Recording} (hi : Inked p r)
    (hr : processCommand recorder ext r cmd = .ok r') : Inked (p.flush.block (rasterPicture m w h data)) r' := by
  simp only [Item.commands, List.mem_singleton] at hc
  subst hc
  obtain ⟨r1, g, f1, f2, f3, h2, h3⟩ := hi.draws rfl (fun c => rfl) hr
  unfold getGraphics at h2
  dsimp only at h2
  simp only [rasterGraphics, bind_ok, pure_ok] at h2
  obtain ⟨g, h2, rfl⟩ := h2
  obtain ⟨w1, w2, w3⟩ := hw
  rw [f1.fixed.1, colorFor_ink] at h2
  obtain ⟨i, rfl, _, _, hs⟩ := raster_stamp (n := 1) (by decide) (by unfold rowBytes; rw [w3]; congr 1; omega) (by unfold U32; omega) (by unfold U32; omega) h2
  have hst : max (rasterStretch m).1.toNat 1 = (rasterScale m).1 ∧ max (rasterStretch m).2.toNat 1 = (rasterScale m).2 := by
    have key : ∀ m : Byte, (m ≤ 3 ∨ (48 ≤ m ∧ m ≤ 50)) →
        max (rasterStretch m).1.toNat 1 = (rasterScale m).1 ∧ max (rasterStretch m).2.toNat 1 = (rasterScale m).2 := by
      apply byte_all; decide +kernel
    exact key m hm
  rw [hst.1, hst.2] at hs
  exact f1.block hs h3

theorem print_column {p : Press} {m : Byte} {w : Nat} {data : List Byte} (hw : (Item.bitImage m w data).WF)
    (hm : m = 0 ∨ m = 33) {cmd : Command} (hc : cmd ∈ (Item.bitImage m w data).commands) {r r' : Recording} (hi : Inked p r)
    (hr : processCommand recorder ext r cmd = .ok r') : Inked (p.flush.inline (columnPicture m w data)) r' := by
  simp only [Item.commands, List.mem_singleton] at hc
  subst hc
  obtain ⟨r1, g, f1, f2, f3, h2, h3⟩ := hi.draws rfl (fun c => rfl) hr
  unfold getGraphics at h2
  dsimp only at h2
  unfold bitImageGraphics at h2
  dsimp only at h2
  rw [if_pos rfl] at h2
  simp only [bind_ok, pure_ok] at h2
  obtain ⟨g, h2, rfl⟩ := h2
  obtain ⟨w1, w2⟩ := hw
  have hb : bytesPerColumn m ≤ 3 := by unfold bytesPerColumn; split <;> omega
  rw [f1.fixed.1, show defaultColors.color1 = ink defaultColors 1 from rfl] at h2
  obtain ⟨i, rfl, _, _, hs⟩ := column_stamp (n := 1) (by decide) (by unfold rowBytes; rw [w2, Nat.mul_comm]; congr 1; omega)
    (by unfold U32; omega) (by unfold U32; omega) h2
  have hst : max (UInt8.ofNat (if m = 0 ∨ m = 32 then ((2, 3) : Nat × Nat) else (1, 1)).1).toNat 1 = (columnScale m).1 ∧
      max (UInt8.ofNat (if m = 0 ∨ m = 32 then ((2, 3) : Nat × Nat) else (1, 1)).2).toNat 1 = (columnScale m).2 := by
    rcases hm with rfl | rfl <;> decide
  rw [hst.1, hst.2] at hs
  exact f1.inline hs h3

/-! ### QR codes -/

theorem print_qr {p : Press} {payload : List Byte} (hfit : ∀ s, p.qr.symbol = some s → 2 ≤ s.width ∧ s.width * s.size ≤ p.desk.width)
    {cmd : Command} (hc : cmd ∈ (Item.code2d 49 81 payload).commands) {r r' : Recording} (hi : Inked p r) (hq : QrAt p.qr r.context)
    (h : processCommand recorder ext r cmd = .ok r') : Inked (p.qr.symbol.elim p.flush p.flush.symbol) r' := by
  have hc : cmd = subCommand qrPrintSub (small [0x1D, 0x28, 0x6B] 49 81 payload) payload := by
    simpa [Item.commands, show code2dImplemented 49 81 = some qrPrintSub by decide] using hc
  subst hc
  obtain ⟨r1, g, f1, f2, f3, h2, h3⟩ := hi.draws rfl (fun c => rfl) h
  have hq1 := hq.of_code2d f3.code2d
  have hsym := hq1.4
  unfold getGraphics at h2
  dsimp only [subCommand] at h2
  unfold subGraphics at h2
  dsimp only [qrPrintSub] at h2
  rcases hs : p.qr.symbol with _ | s
  · rw [hs, Option.map_none] at hsym
    rw [hsym] at h2
    have h2 := Except.ok.inj h2
    subst h2
    exact f1.error h3
  · rw [hs, Option.map_some] at hsym
    rw [hsym] at h2
    have h2 := Except.ok.inj h2
    subst h2
    exact f1.symbol (hfit s hs).1 (hfit s hs).2 h3

/-! ### The graphics memories and the print buffer -/

theorem print_stored {p : Press} {cmd : Command} {m : Memory} {k1 k2 : Byte} {rest : List Byte} (hd : cmd.data = k1 :: k2 :: rest)
    (hk : cmd.kind = .graphics) (hh : cmd.handler = .subUnit (match m with | .nv => .printNv | .download => .printDownload))
    {r r' : Recording} (hi : Inked p r)
    (hm : ∀ m a b, Keeps (p.memory m a b) (r.context.graphics.storedGraphics.get (memKey m a b)))
    (h : processCommand recorder ext r cmd = .ok r') : Inked ((p.memory m k1 k2).elim p.flush p.flush.block) r' := by
  obtain ⟨r1, g, f1, f2, f3, h2, h3⟩ := hi.draws hk (by intro c; unfold getDevice; rw [hh]; cases m <;> rfl) h
  have hg : getGraphics ext cmd r1.context = .ok (r1.context.graphics.storedGraphics.get (memKey m k1 k2)) := by
    unfold getGraphics; rw [hh, hd]; cases m <;> rfl
  rw [hg, ok_ok] at h2
  subst h2
  rw [f3.graphics.1] at h3
  have key := hm m k1 k2
  rcases hp : p.memory m k1 k2 with _ | pic
  · rw [hp] at key
    rw [show _ = none from key] at h3
    have h3 := Except.ok.inj h3
    subst h3
    exact f1
  · rw [hp] at key
    obtain ⟨i, e, hs⟩ := key
    rw [e] at h3
    exact f1.block hs h3

theorem Inked.emptied {p : Press} {r r' : Recording} (hi : Inked p r) (h : deviceCommands recorder [.clearBufferGraphics] r = .ok r') :
    Inked p r' := by
  have hm := (deviceCommands_lines h).1
  have ht := deviceCommands_mute (by simp [Mute]) h
  simp only [deviceCommands, deviceCommand, bind_ok, pure_ok, ok_ok, recorder] at h
  obtain ⟨_, ⟨s, rfl, rfl⟩, rfl⟩ := h
  obtain ⟨⟨a1, a2, a3, a4, a5, a6, a7⟩, b⟩ := hi
  refine ⟨⟨?_, ?_, a3, ?_, a5, a6, ?_⟩, by rw [ht]; exact b⟩
  · exact ⟨a1.1, a1.2, a1.3, a1.4, a1.5, a1.6⟩
  · exact ⟨a2.1, a2.2, a2.3⟩
  · exact ⟨a4.1, a4.2, a4.3, a4.4, a4.5, a4.6, a4.7, a4.8, a4.9, a4.10, a4.11, a4.12, a4.13, a4.14⟩
  · rfl

theorem print_layers {p : Press} {cmd : Command} (hk : cmd.kind = .graphics) (hh : cmd.handler = .subUnit .printBuffer)
    {r r' : Recording} (hi : Inked p r) (hb : List.Forall₂ Layer p.buffer r.context.graphics.bufferGraphics)
    (hsz : ∀ a ∈ p.buffer, ∀ b ∈ p.buffer, a.width = b.width ∧ a.height = b.height)
    (h : processCommand recorder ext r cmd = .ok r') :
    Inked (match p.buffer with | [] => p.flush | first :: later => p.flush.block (.over first later)) r' := by
  obtain ⟨r1, g, r2, o, h1, h2, h3, h4, h5⟩ := graphics_step h hk
  simp only [getDevice, hh, pure_ok] at h4
  subst h4
  simp only [Option.getD_some] at h5
  obtain ⟨f1, f2⟩ := hi.flush h1
  refine Inked.emptied ?_ h5
  have hbuf : r1.context.graphics.bufferGraphics = r.context.graphics.bufferGraphics := (processText_quiet h1).4.graphics.2.1
  rw [← hbuf] at hb
  have h2 : printBufferGraphics r1.context = .ok g := by
    unfold getGraphics at h2; rw [hh] at h2; exact h2
  have all : ∀ {ps : List Picture} {gs : List GraphicsCommand}, List.Forall₂ Layer ps gs →
      ∃ is : List Image, gs = is.map .image ∧ List.Forall₂ (fun i p => Stamp i .block p) is ps := by
    intro ps gs hf
    induction hf with
    | nil => exact ⟨[], rfl, .nil⟩
    | cons hx _ ih =>
      obtain ⟨i, rfl, hs⟩ := hx
      obtain ⟨is, rfl, ihs⟩ := ih
      exact ⟨i :: is, rfl, .cons hs ihs⟩
  obtain ⟨is, e, hst⟩ := all hb
  have hshow := printBuffer_shows (by rw [e]; intro g hg; obtain ⟨i, _, rfl⟩ := List.mem_map.1 hg; exact .inr ⟨i, rfl⟩) h2
  rw [e] at hshow
  rcases hshow with ⟨before, msg, after, e1, _⟩ | ⟨e1, rfl⟩ | ⟨images, e1, hne, x, hx, hres⟩
  · have : GraphicsCommand.error msg ∈ is.map GraphicsCommand.image := by rw [e1]; simp
    obtain ⟨i, _, e2⟩ := List.mem_map.1 this
    cases e2
  · rw [List.map_eq_nil_iff] at e1
    subst e1
    have : p.buffer = [] := List.forall₂_nil_left_iff.1 hst
    rw [this]
    have h3 := Except.ok.inj h3
    subst h3
    exact f1
  · have e2 : images = is := by
      have := List.map_injective_iff.2 (fun a b h => GraphicsCommand.image.inj h) e1
      exact this.symm
    subst e2
    rcases images with _ | ⟨first, later⟩
    · exact absurd rfl hne
    · generalize p.buffer = buf at hst hsz ⊢
      cases hst with
      | @cons _ q _ qs s1 s2 =>
        obtain ⟨i, rfl, _, _, hi2⟩ := over_stamp s1 s2 (fun a ha => hsz a (by simp [ha]) q (by simp)) hx
        rcases hres with ⟨i2, e3, rfl⟩ | ⟨m, m', e3, _⟩
        · obtain rfl := Except.ok.inj e3
          exact f1.block hi2 h3
        · cases e3

/-! ### Items -/

/-- An item that does not draw. -/
theorem print_other {p : Press} {it : Item} (hp : p.print ext it = p.type it.commands) {cmd : Command} (hc : it.commands = [cmd])
    (hknown : Known cmd) (hk : cmd.kind ≠ .graphics) (hb : ¬ cmd.isBegin) (he : ¬ cmd.isEnd) (hf : p.fair ext it) {r r' : Recording} (hi : Inked p r)
    (h : processCommand recorder ext r cmd = .ok r') : Inked (p.print ext it) r' := by
  obtain ⟨f1, f2, f3⟩ := hf.1 cmd (by rw [hc]; simp)
  rw [hp, hc]
  exact hi.type hknown hk (f1 hk) hb he f2 f3 h

/-- The graphics functions. -/
theorem print_function {p : Press} {it : Item} {fn : Byte} {payload header : List Byte} (hit : p.print ext it = p.graphics it fn payload)
    {x : SubCmd} (hx : graphicsFunction fn = some x) (hc : it.commands = [subCommand x header payload])
    (hknown : Known (subCommand x header payload)) (hf : p.fair ext it) (hg : p.graphicsFair fn payload) {r r' : Recording} (ha : AtPress p r)
    (h : processCommand recorder ext r (subCommand x header payload) = .ok r') : Inked (p.print ext it) r' := by
  by_cases hk : x.kind = .graphics
  · rw [hit]
    unfold Press.graphicsFair at hg
    have hx2 := hx
    rcases graphics_kinds fn hx hk with hn | hn | hn | hn <;> unfold graphicsFunction at hx <;> rw [hn] at hx hg <;> obtain rfl := Option.some.inj hx
    · unfold Press.graphics; rw [hn]
      exact print_layers rfl rfl ha.inked ha.buffer hg h
    · unfold Press.graphics; rw [hn]
      exact print_layers rfl rfl ha.inked ha.buffer hg h
    · rcases payload with _ | ⟨k1, _ | ⟨k2, rest⟩⟩
      · cases hg
      · cases hg
      · unfold Press.graphics; rw [hn]
        exact print_stored (m := .nv) (k1 := k1) (k2 := k2) (rest := rest) rfl rfl rfl ha.inked ha.memory h
    · rcases payload with _ | ⟨k1, _ | ⟨k2, rest⟩⟩
      · cases hg
      · cases hg
      · unfold Press.graphics; rw [hn]
        exact print_stored (m := .download) (k1 := k1) (k2 := k2) (rest := rest) rfl rfl rfl ha.inked ha.memory h
  · refine print_other ?_ hc hknown hk (by unfold Command.isBegin subCommand; simp) (by unfold Command.isEnd subCommand; simp) hf ha.inked h
    rw [hit]
    unfold graphicsFunction at hx
    split at hx <;> first
      | (cases hx; done)
      | (rename_i hn
         obtain rfl := Option.some.inj hx
         first
           | (exact absurd rfl hk)
           | (unfold Press.graphics; rw [hn]; rfl))

theorem press_print {p : Press} {it : Item} (hw : it.WF) {cmd : Command} (hc : it.commands = [cmd]) (hknown : Known cmd)
    (hf : p.fair ext it) {r r' : Recording} (ha : AtPress p r) (h : processCommand recorder ext r cmd = .ok r') :
    Inked (p.print ext it) r' := by
  have hmem : cmd ∈ it.commands := by rw [hc]; simp
  cases it with
  | text t =>
    obtain rfl := List.singleton_inj.1 hc
    exact print_other rfl rfl hknown (by show textCmd.kind ≠ _; decide) (by show ¬ textCmd.isBegin; decide)
      (by show ¬ textCmd.handler = _; decide) hf ha.inked h
  | fixed c args =>
    have := fixed_kinds c hw.1 (by rw [hw.2]; rfl)
    obtain rfl := List.singleton_inj.1 hc
    exact print_other rfl rfl hknown this.1 this.2.1 this.2.2 hf ha.inked h
  | pagePrint =>
    obtain rfl := List.singleton_inj.1 hc
    exact print_other rfl rfl hknown (by decide) (by unfold Command.isBegin; decide) (by unfold Command.isEnd; decide) hf ha.inked h
  | cut m =>
    obtain rfl := List.singleton_inj.1 hc
    exact print_other rfl rfl hknown (by show feedAndCutCmd.kind ≠ _; decide) (by show ¬ feedAndCutCmd.isBegin; decide)
      (by show ¬ feedAndCutCmd.handler = _; decide) hf ha.inked h
  | feedCut m n =>
    obtain rfl := List.singleton_inj.1 hc
    exact print_other rfl rfl hknown (by show feedAndCutCmd.kind ≠ _; decide) (by show ¬ feedAndCutCmd.isBegin; decide)
      (by show ¬ feedAndCutCmd.handler = _; decide) hf ha.inked h
  | effects body =>
    obtain rfl := List.singleton_inj.1 hc
    exact print_other rfl rfl hknown (by show setCharacterEffectsCmd.kind ≠ _; decide) (by unfold Command.isBegin; simp)
      (by unfold Command.isEnd; simp) hf ha.inked h
  | barcodeA m data => exact print_barcode (.inl rfl) hw hf.2.1 hf.2.2 hmem ha.inked h
  | barcodeB m data => exact print_barcode (.inr rfl) hw hf.2.1 hf.2.2 hmem ha.inked h
  | bitImage m w data => exact print_column hw hf.2 hmem ha.inked h
  | raster m w hh data => exact print_raster hw hf.2 hmem ha.inked h
  | graphics m fn payload =>
    cases hx : graphicsFunction fn with
    | none => simp [Item.commands, hx] at hc
    | some x =>
      have hc2 : (Item.graphics m fn payload).commands = [subCommand x (small [0x1D, 0x28, 0x4C] m fn payload) payload] := by
        simp [Item.commands, hx]
      rw [hc2] at hc
      obtain rfl := List.singleton_inj.1 hc
      exact print_function rfl hx hc2 hknown hf hf.2 ha h
  | largeGraphics m fn payload =>
    cases hx : graphicsFunction fn with
    | none => simp [Item.commands, hx] at hc
    | some x =>
      have hc2 : (Item.largeGraphics m fn payload).commands = [subCommand x (large [0x1D, 0x38, 0x4C] m fn payload) payload] := by
        simp [Item.commands, hx]
      rw [hc2] at hc
      obtain rfl := List.singleton_inj.1 hc
      exact print_function rfl hx hc2 hknown hf hf.2 ha h
  | code2d cn fn payload =>
    by_cases hp : cn = 49 ∧ fn = 81
    · obtain ⟨rfl, rfl⟩ := hp
      unfold Press.print
      dsimp only
      rw [if_pos ⟨rfl, rfl⟩]
      exact print_qr (hf.2.2 rfl).2 hmem ha.inked ha.qr h
    · cases hx : code2dImplemented cn fn with
      | none => simp [Item.commands, hx] at hc
      | some x =>
        have hc2 : (Item.code2d cn fn payload).commands = [subCommand x (small [0x1D, 0x28, 0x6B] cn fn payload) payload] := by
          simp [Item.commands, hx]
        have hcc := hc
        rw [hc2] at hc
        obtain rfl := List.singleton_inj.1 hc
        refine print_other ?_ hcc hknown ?_ (by unfold Command.isBegin subCommand; simp) (by unfold Command.isEnd subCommand; simp) hf ha.inked h
        · unfold Press.print
          dsimp only
          rw [if_neg hp]
        · intro hk
          have := code2d_kinds hx hk
          exact hp ⟨(hf.2.2 this).1, this⟩
  | request m fn payload =>
    obtain rfl := List.singleton_inj.1 hc
    exact print_other rfl rfl hknown (by unfold requestCommand; simp) (by unfold Command.isBegin requestCommand; simp)
      (by unfold Command.isEnd requestCommand; simp) hf ha.inked h

/-- Commands that are not functions of `GS ( L`, `GS 8 L` or `GS ( k` neither define nor store. -/
theorem short_ops {cmd : Command} (h : cmd.commands.length < 7) :
    (∀ k a b data, storeOp cmd = .define k a b data → completeDefinition data = true) ∧
    (∀ column data, bufferOp cmd = .store column data → completeBuffer column data = true) ∧ QrOp.short (qrOp cmd.commands cmd.data) := by
  have hg : graphicsFn cmd.commands = none := by
    unfold graphicsFn
    split
    · rename_i e; rw [e] at h; simp at h
    · rename_i e; rw [e] at h; simp at h
    · rfl
  refine ⟨?_, ?_, ?_⟩
  · intro k a b data e
    unfold storeOp at e
    rw [hg] at e
    split at e <;> cases e
  · intro column data e
    unfold bufferOp at e
    rw [hg] at e
    split at e <;> cases e
  · unfold qrOp
    split
    · trivial
    · rename_i e; rw [e] at h; simp at h
    · trivial

theorem function_ops {p : Press} {fn : Byte} {x : SubCmd} {header payload : List Byte} (hh : graphicsFn header = some fn.toNat)
    (hq : qrOp header payload = .other) (hi : header ≠ [27, 64]) (hf : p.graphicsFair fn payload) :
    (∀ k a b data, storeOp (subCommand x header payload) = .define k a b data → completeDefinition data = true) ∧
    (∀ column data, bufferOp (subCommand x header payload) = .store column data → completeBuffer column data = true) ∧
    QrOp.short (qrOp (subCommand x header payload).commands (subCommand x header payload).data) := by
  unfold Press.graphicsFair at hf
  refine ⟨?_, ?_, ?_⟩
  · intro k a b data e
    unfold storeOp at e
    rw [if_neg (show ¬ (subCommand x header payload).commands = [27, 64] from hi)] at e
    dsimp only [subCommand] at e
    rw [hh] at e
    have hdef : ∀ m, defineOp m payload = .define k a b data → data = payload := by
      intro m e
      unfold defineOp at e
      split at e
      · rw [StoreOp.define.injEq] at e; exact e.2.2.2.symm
      · cases e
    have hdel : ∀ m, deleteOp m payload ≠ .define k a b data := by
      intro m e
      unfold deleteOp at e
      split at e <;> cases e
    split at e <;> first
      | (cases e; done)
      | (exact absurd e (hdel _))
      | (rename_i hn
         have hn := Option.some.inj hn
         rw [hn] at hf
         rw [hdef _ e]
         first | exact hf | exact hf.elim)
  · intro column data e
    unfold bufferOp at e
    rw [if_neg (show ¬ (subCommand x header payload).commands = [27, 64] from hi)] at e
    dsimp only [subCommand] at e
    rw [hh] at e
    split at e <;> first
      | (cases e; done)
      | (rename_i hn
         have hn := Option.some.inj hn
         rw [hn] at hf
         rw [BufferOp.store.injEq] at e
         rw [← e.1, ← e.2]
         exact hf)
  · show QrOp.short (qrOp header payload)
    rw [hq]; trivial

/-- Definitions and buffer data of fair items are complete, QR codes short. -/
theorem fair_ops {p : Press} {it : Item} (hw : it.WF) {cmd : Command} (hc : cmd ∈ it.commands) (hf : p.fair ext it) :
    (∀ k a b data, storeOp cmd = .define k a b data → completeDefinition data = true) ∧
    (∀ column data, bufferOp cmd = .store column data → completeBuffer column data = true) ∧ QrOp.short (qrOp cmd.commands cmd.data) := by
  cases it with
  | fixed c args =>
    have : ∀ c ∈ escPosCommands, c.commands.length < 7 := by decide +kernel
    obtain rfl := List.mem_singleton.1 hc
    exact short_ops (this c hw.1)
  | graphics m fn payload =>
    cases hx : graphicsFunction fn with
    | none => simp [Item.commands, hx] at hc
    | some x =>
      obtain rfl : cmd = subCommand x (small [0x1D, 0x28, 0x4C] m fn payload) payload := by simpa [Item.commands, hx] using hc
      exact function_ops rfl rfl (by unfold small; simp) hf.2
  | largeGraphics m fn payload =>
    cases hx : graphicsFunction fn with
    | none => simp [Item.commands, hx] at hc
    | some x =>
      obtain rfl : cmd = subCommand x (large [0x1D, 0x38, 0x4C] m fn payload) payload := by simpa [Item.commands, hx] using hc
      exact function_ops rfl rfl (by unfold large; simp) hf.2
  | code2d cn fn payload =>
    cases hx : code2dImplemented cn fn with
    | none => simp [Item.commands, hx] at hc
    | some x =>
      obtain rfl : cmd = subCommand x (small [0x1D, 0x28, 0x6B] cn fn payload) payload := by simpa [Item.commands, hx] using hc
      have h1 : (subCommand x (small [0x1D, 0x28, 0x6B] cn fn payload) payload).commands =
        [29, 40, 107, lo (payload.length + 2), hi (payload.length + 2), cn, fn] := rfl
      refine ⟨?_, ?_, ?_⟩
      · intro k a b data e; unfold storeOp at e; rw [h1, if_neg (by simp)] at e; cases e
      · intro column data e; unfold bufferOp at e; rw [h1, if_neg (by simp)] at e; cases e
      · rw [h1]
        show QrOp.short (qrOp _ payload)
        unfold qrOp
        split
        · trivial
        · rename_i e
          simp only [List.cons.injEq, and_true, true_and] at e
          obtain ⟨_, _, _, rfl⟩ := e
          split <;> first
            | trivial
            | (rename_i hn
               exact hf.2.1 (by rw [← UInt8.toNat_inj, hn]; rfl))
        · trivial
  | text t => obtain rfl := List.mem_singleton.1 hc; exact short_ops (by show textCmd.commands.length < 7; decide)
  | pagePrint => obtain rfl := List.mem_singleton.1 hc; exact short_ops (by decide)
  | cut m => obtain rfl := List.mem_singleton.1 hc; exact short_ops (by show feedAndCutCmd.commands.length < 7; decide)
  | feedCut m n => obtain rfl := List.mem_singleton.1 hc; exact short_ops (by show feedAndCutCmd.commands.length < 7; decide)
  | effects body => obtain rfl := List.mem_singleton.1 hc; exact short_ops (by show setCharacterEffectsCmd.commands.length < 7; decide)
  | barcodeA m data => obtain rfl := List.mem_singleton.1 hc; exact short_ops (by unfold barcodeCommand; simp)
  | barcodeB m data => obtain rfl := List.mem_singleton.1 hc; exact short_ops (by unfold barcodeCommand; simp)
  | bitImage m w data => obtain rfl := List.mem_singleton.1 hc; exact short_ops (by show bitImageCmd.commands.length < 7; decide)
  | raster m w h data => obtain rfl := List.mem_singleton.1 hc; exact short_ops (by show rasterBitImageCmd.commands.length < 7; decide)
  | request m fn payload => obtain rfl := List.mem_singleton.1 hc; exact short_ops (by unfold requestCommand; simp)

theorem item_commands (it : Item) : it.commands = [] ∨ ∃ c, it.commands = [c] := by
  cases it with
  | graphics m fn p => unfold Item.commands; cases hx : graphicsFunction fn <;> simp [hx]
  | largeGraphics m fn p => unfold Item.commands; cases hx : graphicsFunction fn <;> simp [hx]
  | code2d cn fn p => unfold Item.commands; cases hx : code2dImplemented cn fn <;> simp [hx]
  | _ => exact .inr ⟨_, rfl⟩

/-- An item without a command, a function that does not exist, prints nothing. -/
theorem print_nothing {p : Press} {it : Item} (h : it.commands = []) : p.print ext it = p.type [] := by
  cases it with
  | graphics m fn pl =>
    have hn : graphicsFunction fn = none := by
      cases hx : graphicsFunction fn with
      | none => rfl
      | some x => simp [Item.commands, hx] at h
    show p.graphics _ fn pl = _
    unfold Press.graphics
    unfold graphicsFunction at hn
    split <;> first
      | rw [h]
      | (rename_i e; rw [e] at hn; cases hn)
      | (rename_i e _; rw [e] at hn; cases hn)
  | largeGraphics m fn pl =>
    have hn : graphicsFunction fn = none := by
      cases hx : graphicsFunction fn with
      | none => rfl
      | some x => simp [Item.commands, hx] at h
    show p.graphics _ fn pl = _
    unfold Press.graphics
    unfold graphicsFunction at hn
    split <;> first
      | rw [h]
      | (rename_i e; rw [e] at hn; cases hn)
      | (rename_i e _; rw [e] at hn; cases hn)
  | code2d cn fn pl =>
    unfold Press.print
    dsimp only
    rw [if_neg]
    · rw [h]
    · rintro ⟨rfl, rfl⟩
      simp [Item.commands, show code2dImplemented 49 81 = some qrPrintSub by decide] at h
  | _ => cases h

/-- One item. -/
theorem press_step {p : Press} {it : Item} (hw : it.WF) (hknown : ∀ c ∈ it.commands, Known c) (hf : p.fair ext it) {r r' : Recording}
    (ha : AtPress p r) (h : processCommands recorder ext it.commands r = .ok r') : AtPress (p.step ext it) r' := by
  rcases item_commands it with hc | ⟨cmd, hc⟩
  · rw [hc] at h
    simp only [processCommands, ok_ok] at h
    subst h
    unfold Press.step
    rw [hc, print_nothing hc]
    refine ⟨?_, ha.qr, ha.memory, ha.buffer⟩
    exact ⟨ha.inked.desk, by rw [ha.inked.acts]; simp [Press.type]⟩
  · have hmem : cmd ∈ it.commands := by rw [hc]; simp
    have hkn := hknown cmd hmem
    rw [hc] at h
    simp only [processCommands, bind_ok, ok_ok] at h
    obtain ⟨r1, h, rfl⟩ := h
    have hfix := ha.inked.fixed
    obtain ⟨o1, o2, o3⟩ := fair_ops hw hmem hf
    have hi := press_print hw hc hkn hf ha h
    unfold Press.step
    rw [hc]
    refine ⟨⟨hi.desk, hi.acts⟩, ?_, ?_, ?_⟩
    · exact qr_step hkn h hfix ha.qr o3
    · exact remember_step ha.memory (stored_step hkn h hfix) o1
    · exact collect_step ha.buffer (buffer_step hkn h hfix) o2

theorem processCommands_append {as bs : List Command} {r r' : Recording} :
    processCommands recorder ext (as ++ bs) r = .ok r' ↔
      ∃ r1, processCommands recorder ext as r = .ok r1 ∧ processCommands recorder ext bs r1 = .ok r' := by
  induction as generalizing r with
  | nil => simp [processCommands]
  | cons a as ih =>
    simp only [List.cons_append, processCommands, bind_ok, ih]
    constructor
    · rintro ⟨r1, h1, r2, h2, h3⟩; exact ⟨r2, ⟨r1, h1, h2⟩, h3⟩
    · rintro ⟨r2, ⟨r1, h1, h2⟩, h3⟩; exact ⟨r1, h1, r2, h2, h3⟩

/-- A stream of items. -/
theorem press_steps {p : Press} {items : List Item} (hw : ∀ it ∈ items, it.WF) (hknown : ∀ it ∈ items, ∀ c ∈ it.commands, Known c)
    (hf : p.fairs ext items) {r r' : Recording} (ha : AtPress p r)
    (h : processCommands recorder ext (items.flatMap Item.commands) r = .ok r') : AtPress (items.foldl (Press.step ext) p) r' := by
  induction items generalizing p r with
  | nil => simp only [List.flatMap_nil, processCommands, ok_ok] at h; subst h; exact ha
  | cons it its ih =>
    rw [List.flatMap_cons, processCommands_append] at h
    obtain ⟨r1, h1, h2⟩ := h
    exact ih (fun x hx => hw x (by simp [hx])) (fun x hx => hknown x (by simp [hx])) hf.2
      (press_step (hw it (by simp)) (hknown it (by simp)) hf.1 ha h1) h2

/-- The beginning of a job. -/
theorem press_start {r : Recording} (h : processCommand recorder ext (Renderer.new []) beginPrintCmd = .ok r) :
    AtPress .initial r ∧ r.spanBuffer = [] := by
  have : r = ⟨[(Context.new, .device .beginPrint), (r.context, .beginRender)], [], [], [], r.context⟩ ∧ r.context = Context.new.putY 108 := by
    obtain ⟨r1, o, a, b, c⟩ := control_step h rfl
    have e1 : r1 = Renderer.new [] := by
      simp only [processText, Renderer.new, if_true, ok_ok] at a; exact a.symm
    subst e1
    simp only [getDevice, beginPrintCmd, getDeviceUnit, pure_ok] at b
    subst b
    simp only [Option.getD_some, deviceCommands, bind_ok, ok_ok, deviceCommand, recorder, pure_ok] at c
    obtain ⟨r2, ⟨s, rfl, k, hk, s2, rfl, rfl⟩, rfl⟩ := c
    have hk2 : k = Context.new.putY 108 := by
      have : Context.new.newline 2 = .ok (Context.new.putY 108) := by decide +kernel
      dsimp only [Renderer.new] at hk
      rw [this, ok_ok] at hk
      exact hk.symm
    subst hk2
    exact ⟨rfl, rfl⟩
  obtain ⟨e1, e2⟩ := this
  rw [e1, e2]
  refine ⟨⟨⟨⟨?_, ?_, by decide, ?_, rfl, by simp, rfl⟩, rfl⟩, ?_, ?_, .nil⟩, rfl⟩
  · exact Styled.start.of_only (c' := Context.new.putY 108) (fs := [.paperY]) (by touch) (by decide)
  · exact Limits.start.of_only (c' := Context.new.putY 108) (fs := [.paperY]) (by touch) (by decide) (by decide) (by decide)
  · exact ⟨rfl, rfl, rfl, rfl, rfl, rfl, rfl, rfl, rfl, rfl, rfl, rfl, rfl, rfl⟩
  · exact qrAt_initial rfl
  · intro m a b; rfl

/-- C81. What an output renderer is told to do for a stream of items, in order, is what the reference printer does: every line of text,
bar, module and picture that is put on the paper or on a page, with its place, its look and its dots; the sheets of paper that begin and end,
the pages that begin, are turned or made larger, and where on the paper a page is put in which direction. -/
theorem C81_printer {items : List Item} (hw : ∀ it ∈ items, it.WF) (hs : separated items) (hl : ∀ it ∈ items.getLast?, it.endSafe)
    (hf : Press.initial.fairs ext items) {outs errs} {r : Recording}
    (h : render recorder ext (Renderer.new []) (streamBytes items) = .ok (outs, errs, r)) :
    r.child.flatMap (fun x => callActs x) = printedActs ext items := by
  have hp := C08_stream hw hs
  rw [streamCommands_endSafe hl] at hp
  have hknown := parse_known hp
  simp only [render, bind_ok, pure_ok] at h
  obtain ⟨cmds, h1, r1, h2, h3⟩ := h
  rw [hp, ok_ok] at h1
  subst h1
  simp only [Prod.mk.injEq] at h3
  obtain ⟨rfl, rfl, rfl⟩ := h3
  simp only [processCommands, bind_ok] at h2
  obtain ⟨r0, h0, h2⟩ := h2
  obtain ⟨a0, s0⟩ := press_start h0
  rw [processCommands_append] at h2
  obtain ⟨r3, h2, h4⟩ := h2
  rw [processCommands_append] at h2
  obtain ⟨r2, hlead, h2⟩ := h2
  have a2 : AtPress .initial r2 := by
    have : leading items = [] ∨ leading items = [unknownCmd] := by
      unfold leading
      split
      · split <;> simp
      · simp
    rcases this with e | e
    · rw [e] at hlead; simp only [processCommands, ok_ok] at hlead; subst hlead; exact a0
    · rw [e] at hlead
      simp only [processCommands, bind_ok, ok_ok] at hlead
      obtain ⟨r5, h5, rfl⟩ := hlead
      unfold processCommand at h5
      rw [show unknownCmd.kind = .unknown from rfl] at h5
      simp only [bind_ok, pure_ok] at h5
      obtain ⟨r6, h6, rfl⟩ := h5
      simp only [processText, s0, if_true, ok_ok] at h6
      subst h6
      exact ⟨a0.inked.same rfl rfl rfl, a0.qr, a0.memory, a0.buffer⟩
  have key := press_steps hw (fun it hit c hc => hknown c (by
    simp only [List.mem_cons, List.mem_append, List.mem_flatMap]
    exact .inr (.inl (.inr ⟨it, hit, hc⟩)))) hf a2 h2
  simp only [processCommands, bind_ok, ok_ok] at h4
  obtain ⟨r5, h5, rfl⟩ := h4
  obtain ⟨r6, o, g1, g2, g3⟩ := control_step h5 rfl
  have f := (key.inked.flush g1).1
  simp only [getDevice, endPrintCmd, getDeviceUnit, pure_ok] at g2
  subst g2
  simp only [Option.getD_some, deviceCommands, bind_ok, ok_ok] at g3
  obtain ⟨r7, g3, rfl⟩ := g3
  obtain ⟨acts, b1, b2⟩ := deviceCommand_acts g3
  refine b2.trans ?_
  have hm := f.desk.pos.mode
  have hy := f.desk.pos.paperY
  rw [f.acts, show acts = _ from b1]
  show _ ++ [Act.endSheet r6.context.pageMode.enabled r6.context.graphics.renderArea.y] = _
  rw [hm, hy]; rfl

/-! ### A concrete case -/

instance (p : Press) (fn : Byte) (payload : List Byte) : Decidable (p.graphicsFair fn payload) := by
  unfold Press.graphicsFair; split <;> infer_instance
instance (p : Press) (text : Str) : Decidable (p.captionFair text) := by unfold Press.captionFair; infer_instance
instance {α : Type} (o : Option α) (P : α → Prop) [∀ a, Decidable (P a)] : Decidable (∀ b, o = some b → P b) :=
  match o with
  | none => isTrue (by intro b h; cases h)
  | some a => decidable_of_iff (P a) ⟨by rintro h b ⟨⟩; exact h, fun h => h a rfl⟩
instance (p : PageSetup) : Decidable p.placeable := by unfold PageSetup.placeable; split <;> infer_instance
instance (o : Option PrintDirection) (p : PageSetup) : Decidable (o.elim False fun t => (p.turn t).placeable) :=
  match o with
  | none => isFalse id
  | some t => inferInstanceAs (Decidable (p.turn t).placeable)
instance (d : Desk) (op data : List Byte) : Decidable (d.allows op data) := by unfold Desk.allows; split <;> infer_instance
instance (ext : Ext) (p : Press) (it : Item) : Decidable (p.fair ext it) := by
  unfold Press.fair; cases it <;> dsimp only <;> infer_instance
instance decFairs (ext : Ext) : (p : Press) → (its : List Item) → Decidable (p.fairs ext its)
  | _, [] => isTrue trivial
  | p, it :: its => have := decFairs ext (p.step ext it) its; inferInstanceAs (Decidable (p.fair ext it ∧ (p.step ext it).fairs ext its))

/-- Text, centred; a raster image; an NV graphic, defined and printed; a QR code; a UPC-E barcode with its text below; two pictures
printed over each other from the print buffer; a column image between letters. -/
def printerItems : List Item :=
  [.text [97, 98], .fixed linefeedCmd [], .fixed setJustificationCmd [1], .raster 0 1 2 [0xA5, 0xF0],
   .graphics 48 67 [48, 65, 66, 1, 8, 0, 1, 0, 49, 15], .graphics 48 69 [65, 66, 1, 1],
   .code2d 49 67 [4], .code2d 49 80 [48, 65], .code2d 49 81 [48],
   .fixed setBarcodeHriCmd [2], .barcodeB 66 [48, 49, 50, 51, 52, 53, 54, 53],
   .graphics 48 112 [48, 1, 1, 49, 8, 0, 1, 0, 0xF0], .graphics 48 113 [48, 1, 1, 50, 8, 0, 1, 0, 0x80, 0, 0, 0, 0, 0, 0, 0x80],
   .graphics 48 50 [], .fixed setJustificationCmd [0], .text [99], .bitImage 33 1 [255, 0, 1], .text [100], .fixed linefeedCmd []]

/-- Where a thing is. -/
def Spec.Thing.corner : Thing → Nat × Nat
  | .line l => (l.pieces.head?.map fun p => (p.area.x, p.area.y)).getD (0, 0)
  | .box _ r => (r.x, r.y)
  | .picture x y _ _ => (x, y)

/-- Where something is put on the paper. -/
def Spec.Act.corner : Act → Option (Nat × Nat)
  | .put false t => some t.corner
  | _ => none

set_option maxRecDepth 8000 in
/-- C81, hypotheses met by `printerItems`. -/
example : ∃ outs errs r, (∀ it ∈ printerItems, it.WF) ∧ separated printerItems ∧ (∀ it ∈ printerItems.getLast?, it.endSafe) ∧
    Press.initial.fairs twoByTwo printerItems ∧
    render recorder twoByTwo (Renderer.new []) (streamBytes printerItems) = .ok (outs, errs, r) ∧
    ((printedActs twoByTwo printerItems).map Spec.Act.corner).take 7 =
      [none, some (0, 108), some (300, 132), some (300, 134), some (300, 135), some (304, 139), some (228, 139)] ∧
    ((printedActs twoByTwo printerItems).map Spec.Act.corner).drop 36 =
      [some (256, 187), some (300, 211), some (0, 212), some (12, 212), some (13, 212), none] ∧
    (printedActs twoByTwo printerItems)[37]? = some (.put false (.picture 300 211 true ⟨8, 1,
      [some ⟨158, 22, 22, 255⟩, some ⟨0, 0, 0, 255⟩, some ⟨0, 0, 0, 255⟩, some ⟨0, 0, 0, 255⟩, none, none, none, some ⟨158, 22, 22, 255⟩]⟩)) := by
  refine ⟨_, _, _, ?_, ?_, ?_, ?_, rfl, ?_⟩
  · decide +kernel
  · simp [printerItems, separated, Item.isText]
  · simp [printerItems, Item.endSafe]
  · decide +kernel
  · decide +kernel

/-- Text; a page with text, a line feed, a movement, a raster image, text in another direction, printed twice; text below it, and the end
of the document. -/
def pageItems : List Item :=
  [.text [97], .fixed linefeedCmd [], .fixed setPageModeCmd [], .fixed pageModePrintAreaCmd [10, 0, 20, 0, 200, 0, 100, 0],
   .fixed setVerticalPosCmd [30, 0], .text [98, 99], .fixed linefeedCmd [], .fixed offsetVerticalPosCmd [0xFE, 0xFF],
   .raster 0 1 2 [0xA5, 0xF0], .fixed pageModePrintDirectionCmd [1], .fixed setJustificationCmd [2], .text [100], .fixed linefeedCmd [],
   .pagePrint, .fixed formfeedCmd [], .text [101], .fixed linefeedCmd [], .fixed formfeedCmd []]

/-- What is done, and where. -/
def Spec.Act.outline : Act → Act
  | .put b t => .put b (.box ⟨0, 0, 0, 255⟩ ⟨t.corner.1, t.corner.2, 0, 0⟩)
  | a => a

/-- Something put somewhere. -/
abbrev someAt (onPage : Bool) (x y : Nat) : Act := .put onPage (.box ⟨0, 0, 0, 255⟩ ⟨x, y, 0, 0⟩)

set_option maxRecDepth 8000 in
/-- C81, hypotheses met by `pageItems`. -/
example : ∃ outs errs r, (∀ it ∈ pageItems, it.WF) ∧ separated pageItems ∧ (∀ it ∈ pageItems.getLast?, it.endSafe) ∧
    Press.initial.fairs noExt pageItems ∧
    render recorder noExt (Renderer.new []) (streamBytes pageItems) = .ok (outs, errs, r) ∧
    (printedActs noExt pageItems).map Spec.Act.outline =
      [.newSheet 108, someAt false 0 108, .newPage, .setPage .R0 210 120, someAt true 10 50, someAt true 10 72, .setPage .R90 120 210, someAt true 88 10,
       .printPage 0 132 .bottomLeft2Top, .printPage 0 342 .bottomLeft2Top, someAt false 597 552, .endSheet false 576, .endSheet false 576] := by
  refine ⟨_, _, _, ?_, ?_, ?_, ?_, rfl, ?_⟩
  · decide +kernel
  · simp [pageItems, separated, Item.isText]
  · simp [pageItems, Item.endSafe]
  · decide +kernel
  · decide +kernel

end Thermal
