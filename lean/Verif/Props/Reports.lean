import Verif.Spec.Reports
import Verif.Props.Printer
import Verif.Proofs.Messages
import Verif.Props.Layout
import Verif.Props.Canvas
import Verif.Props.ImageOutput
/-
C90: what cannot be printed is reported.
-/
namespace Thermal
open Renderer Spec
variable {σ Out : Type} {R : OutputRenderer σ Out} {ext : Ext}

/-! ### Commands -/

theorem ownErrors_append (as bs : List RenderError) : ownErrors (as ++ bs) = ownErrors as ++ ownErrors bs := List.filter_append ..

theorem deviceCommand_own {d : DeviceCommand} {r r' : Renderer σ Out} (h : deviceCommand R r d = .ok r') :
    ownErrors r'.errorBuffer = ownErrors r.errorBuffer := by
  simp only [deviceCommand, bind_ok] at h
  obtain ⟨s, _, h⟩ := h
  cases d <;> simp only [bind_ok, pure_ok] at h
  case endPrint =>
    obtain ⟨⟨s, o⟩, _, rfl⟩ := h
    show ownErrors (r.errorBuffer ++ _) = _
    rw [ownErrors_append, List.append_right_eq_self]
    unfold ownErrors
    rw [List.filter_eq_nil_iff]
    intro e he
    obtain ⟨x, _, rfl⟩ := List.mem_map.1 he
    simp
  case beginPrint => obtain ⟨c, h1, s, _, rfl⟩ := h; rfl
  case feedLine => obtain ⟨c, h1, rfl⟩ := h; rfl
  case feed => obtain ⟨c, h1, rfl⟩ := h; rfl
  case fullCut => obtain ⟨c, h1, rfl⟩ := h; rfl
  case partialCut => obtain ⟨c, h1, rfl⟩ := h; rfl
  case beginPageMode => obtain ⟨c, h1, rfl⟩ := h; rfl
  case endPageMode => obtain ⟨c, h1, rfl⟩ := h; rfl
  case printPageMode => obtain ⟨s, _, y, h1, rfl⟩ := h; rfl
  case changePageArea => obtain ⟨_, _, _, h3⟩ := pageAreaChanged_context h; rw [h3]
  case changePageModeDirection => obtain ⟨_, _, _, h3⟩ := pageAreaChanged_context h; rw [h3]
  all_goals (subst h; rfl)

theorem deviceCommands_own {ds : List DeviceCommand} {r r' : Renderer σ Out} (h : deviceCommands R ds r = .ok r') :
    ownErrors r'.errorBuffer = ownErrors r.errorBuffer := by
  induction ds generalizing r with
  | nil => simp only [deviceCommands, ok_ok] at h; subst h; rfl
  | cons d ds ih =>
    simp only [deviceCommands, bind_ok] at h
    obtain ⟨r1, h1, h2⟩ := h
    rw [ih h2, deviceCommand_own h1]

/-- What is reported about a graphic. -/
def graphicReport : Option GraphicsCommand → List RenderError
  | some (.error e) => [⟨.graphicsError, e.toList⟩]
  | _ => []

theorem processGraphicsOpt_own {r r' : Renderer σ Out} {g} (hs : r.spanBuffer = []) (h : processGraphicsOpt R r g = .ok r') :
    r'.errorBuffer = r.errorBuffer ++ graphicReport g := by
  unfold processGraphicsOpt at h
  split at h
  · unfold processGraphics at h
    split at h
    · rw [pure_ok] at h; subst h; rfl
    · rw [(processCode2d_quiet h).2]; simp [graphicReport]
    · rw [(processBarcode_quiet hs h).2]; simp [graphicReport]
    · rw [(processImage_quiet h).2]; simp [graphicReport]
    · rw [pure_ok] at h; subst h; simp [graphicReport]
  · rw [ok_ok] at h; subst h; simp [graphicReport]

/-- C90, every command after every history, with any renderer: an unknown command is reported, with its bytes; a graphic that turns out to be an
error is reported with its message; no other command is reported. -/
theorem C90_commands {cmd : Command} {r r' : Renderer σ Out} (h : processCommand R ext r cmd = .ok r') :
    (cmd.kind = .unknown → ownErrors r'.errorBuffer = ownErrors r.errorBuffer ++ [⟨.unknownCommand, debugText cmd⟩]) ∧
    (cmd.kind = .graphics → ∃ r1 g, processText R r = .ok r1 ∧ getGraphics ext cmd r1.context = .ok g ∧
      ownErrors r'.errorBuffer = ownErrors r.errorBuffer ++ graphicReport g) ∧
    (cmd.kind ≠ .unknown → cmd.kind ≠ .graphics → ownErrors r'.errorBuffer = ownErrors r.errorBuffer) := by
  refine ⟨fun hk => ?_, fun hk => ?_, fun hu hg => ?_⟩
  · rw [(C56_unknown h hk).2.2.1, ownErrors_append]; rfl
  · obtain ⟨r1, g, r2, o, a, b, c, d, e⟩ := graphics_step h hk
    refine ⟨r1, g, a, b, ?_⟩
    rw [deviceCommands_own e, processGraphicsOpt_own (processText_quiet a).3 c, (processText_quiet a).2, ownErrors_append]
    congr 1
    unfold graphicReport
    split <;> rfl
  · rcases hkk : cmd.kind
    case control =>
      obtain ⟨r1, o, a, b, c⟩ := control_step h hkk
      rw [deviceCommands_own c, (processText_quiet a).2]
    case context =>
      obtain ⟨r1, a, b, c⟩ := context_step h hkk
      rw [c]; show ownErrors r1.errorBuffer = _; rw [(processText_quiet a).2]
    case contextControl =>
      obtain ⟨r1, c, o, a, b, d, e⟩ := contextControl_step h hkk
      rw [deviceCommands_own e]; show ownErrors r1.errorBuffer = _; rw [(processText_quiet a).2]
    case textStyle =>
      obtain ⟨c, o, a, b, d⟩ := textStyle_step h hkk
      rw [deviceCommands_own d]
    case graphics => exact absurd hkk hg
    case text =>
      obtain ⟨o, _, rfl⟩ := processCommand_text h hkk
      rfl
    case subcommand =>
      unfold processCommand at h; rw [hkk] at h; dsimp only at h; rw [pure_ok] at h; subst h; rfl
    case unknown => exact absurd hkk hu

/-! ### Items -/

/-- Nothing is reported, or one error about a graphic. -/
def Told (yes : Bool) (r r' : Recording) : Prop :=
  ∃ es, ownErrors r'.errorBuffer = ownErrors r.errorBuffer ++ es ∧ es.map (·.kind) = if yes then [.graphicsError] else []

theorem Told.none {r r' : Recording} (h : ownErrors r'.errorBuffer = ownErrors r.errorBuffer) : Told false r r' := ⟨[], by simp [h], rfl⟩

theorem graphic_told {cmd : Command} {r r' : Recording} {yes : Bool} (h : processCommand recorder ext r cmd = .ok r') (hk : cmd.kind = .graphics)
    (hg : ∀ r1 g, processText recorder r = .ok r1 → getGraphics ext cmd r1.context = .ok g →
      ((∃ e, g = some (.error e)) ↔ yes = true)) : Told yes r r' := by
  obtain ⟨r1, g, a, b, c⟩ := (C90_commands h).2.1 hk
  have key := hg r1 g a b
  refine ⟨graphicReport g, c, ?_⟩
  cases yes with
  | true =>
    obtain ⟨e, rfl⟩ := key.2 rfl
    rfl
  | false =>
    have hn : ∀ e, g ≠ some (.error e) := fun e he => by simpa using key.1 ⟨e, he⟩
    unfold graphicReport
    split
    · rename_i e; exact absurd rfl (hn e)
    · rfl

theorem told_barcode {p : Press} {it : Item} {m : Byte} {data : List Byte} (hit : it = .barcodeA m data ∨ it = .barcodeB m data) (hw : it.WF)
    (hdev : ¬ barcodeDeviates m data) {cmd : Command} (hc : cmd ∈ it.commands) {r r' : Recording}
    (h : processCommand recorder ext r cmd = .ok r') : Told (Spec.barcode ext m data).isNone r r' := by
  obtain ⟨_, _, hk, s, hh, _⟩ := barcode_item hit hw hc
  refine graphic_told h hk fun r1 g _ h2 => ?_
  have key := C79_barcode_partial (ext := ext) hit hw hdev hc r1.context
  rcases hb : Spec.barcode ext m data with _ | ⟨ms, text⟩
  · rw [hb] at key
    obtain ⟨e, he⟩ := key
    rw [he, ok_ok] at h2
    subst h2
    exact ⟨fun _ => rfl, fun _ => ⟨e, rfl⟩⟩
  · rw [hb] at key
    dsimp only at key
    rw [key, ok_ok] at h2
    subst h2
    simp

theorem told_raster {p : Press} {m : Byte} {w h : Nat} {data : List Byte} (hw : (Item.raster m w h data).WF) {cmd : Command}
    (hc : cmd ∈ (Item.raster m w h data).commands) {r r' : Recording} (hi : Inked p r)
    (hr : processCommand recorder ext r cmd = .ok r') : Told false r r' := by
  simp only [Item.commands, List.mem_singleton] at hc
  subst hc
  refine graphic_told hr rfl fun r1 g h1 h2 => ?_
  have f1 := (hi.flush h1).1
  unfold getGraphics at h2
  dsimp only at h2
  simp only [rasterGraphics, bind_ok, pure_ok] at h2
  obtain ⟨g, h2, rfl⟩ := h2
  obtain ⟨w1, w2, w3⟩ := hw
  rw [f1.fixed.1, colorFor_ink] at h2
  obtain ⟨i, rfl, _, _, hs⟩ := raster_stamp (n := 1) (by decide) (by unfold rowBytes; rw [w3]; congr 1; omega) (by unfold U32; omega) (by unfold U32; omega) h2
  simp

theorem told_column {p : Press} {m : Byte} {w : Nat} {data : List Byte} (hw : (Item.bitImage m w data).WF)
    {cmd : Command} (hc : cmd ∈ (Item.bitImage m w data).commands) {r r' : Recording} (hi : Inked p r)
    (hr : processCommand recorder ext r cmd = .ok r') : Told false r r' := by
  simp only [Item.commands, List.mem_singleton] at hc
  subst hc
  refine graphic_told hr rfl fun r1 g h1 h2 => ?_
  have f1 := (hi.flush h1).1
  unfold getGraphics at h2
  dsimp only at h2
  unfold bitImageGraphics at h2
  dsimp only at h2
  rw [if_pos rfl] at h2
  simp only [bind_ok, pure_ok] at h2
  obtain ⟨g, h2, rfl⟩ := h2
  obtain ⟨w1, w2⟩ := hw
  have hb : bytesPerColumn m ≤ 3 := by unfold bytesPerColumn; split <;> omega
  rw [f1.fixed.1, show defaultColors.color1 = ink defaultColors 1 from rfl] at h2
  obtain ⟨i, rfl, _, _, hs⟩ := column_stamp (n := 1) (by decide) (by unfold rowBytes; rw [w2, Nat.mul_comm]; congr 1; omega)
    (by unfold U32; omega) (by unfold U32; omega) h2
  simp

theorem told_qr {p : Press} {payload : List Byte} {cmd : Command} (hc : cmd ∈ (Item.code2d 49 81 payload).commands) {r r' : Recording}
    (hq : QrAt p.qr r.context) (h : processCommand recorder ext r cmd = .ok r') : Told p.qr.symbol.isNone r r' := by
  have hc : cmd = subCommand qrPrintSub (small [0x1D, 0x28, 0x6B] 49 81 payload) payload := by
    simpa [Item.commands, show code2dImplemented 49 81 = some qrPrintSub by decide] using hc
  subst hc
  refine graphic_told h rfl fun r1 g h1 h2 => ?_
  have hq1 := hq.of_code2d (processText_quiet h1).4.code2d
  have hsym := hq1.4
  unfold getGraphics at h2
  dsimp only [subCommand] at h2
  unfold subGraphics at h2
  dsimp only [qrPrintSub] at h2
  rcases hs : p.qr.symbol with _ | s
  · rw [hs, Option.map_none] at hsym
    rw [hsym] at h2
    have h2 := Except.ok.inj h2
    subst h2
    simp
  · rw [hs, Option.map_some] at hsym
    rw [hsym] at h2
    have h2 := Except.ok.inj h2
    subst h2
    simp

theorem told_stored {p : Press} {cmd : Command} {m : Memory} {k1 k2 : Byte} {rest : List Byte} (hd : cmd.data = k1 :: k2 :: rest)
    (hk : cmd.kind = .graphics) (hh : cmd.handler = .subUnit (match m with | .nv => .printNv | .download => .printDownload))
    {r r' : Recording} (hm : ∀ m a b, Keeps (p.memory m a b) (r.context.graphics.storedGraphics.get (memKey m a b)))
    (h : processCommand recorder ext r cmd = .ok r') : Told false r r' := by
  refine graphic_told h hk fun r1 g h1 h2 => ?_
  have hg : getGraphics ext cmd r1.context = .ok (r1.context.graphics.storedGraphics.get (memKey m k1 k2)) := by
    unfold getGraphics; rw [hh, hd]; cases m <;> rfl
  rw [hg, ok_ok, (processText_quiet h1).4.graphics.1] at h2
  subst h2
  have key := hm m k1 k2
  rcases hp : p.memory m k1 k2 with _ | pic
  · rw [hp] at key
    rw [show _ = none from key]; simp
  · rw [hp] at key
    obtain ⟨i, e, hs⟩ := key
    rw [e]; simp

theorem told_layers {p : Press} {cmd : Command} (hk : cmd.kind = .graphics) (hh : cmd.handler = .subUnit .printBuffer)
    {r r' : Recording} (hb : List.Forall₂ Layer p.buffer r.context.graphics.bufferGraphics)
    (hsz : ∀ a ∈ p.buffer, ∀ b ∈ p.buffer, a.width = b.width ∧ a.height = b.height)
    (h : processCommand recorder ext r cmd = .ok r') : Told false r r' := by
  refine graphic_told h hk fun r1 g h1 h2 => ?_
  have hbuf : r1.context.graphics.bufferGraphics = r.context.graphics.bufferGraphics := (processText_quiet h1).4.graphics.2.1
  rw [← hbuf] at hb
  have h2 : printBufferGraphics r1.context = .ok g := by
    unfold getGraphics at h2; rw [hh] at h2; exact h2
  have all : ∀ {ps : List Picture} {gs : List GraphicsCommand}, List.Forall₂ Layer ps gs →
      ∃ is : List Image, gs = is.map .image ∧ List.Forall₂ (fun i p => Stamp i .block p) is ps := by
    intro ps gs hf
    induction hf with
    | nil => exact ⟨[], rfl, .nil⟩
    | cons hx _ ih =>
      obtain ⟨i, rfl, hs⟩ := hx
      obtain ⟨is, rfl, ihs⟩ := ih
      exact ⟨i :: is, rfl, .cons hs ihs⟩
  obtain ⟨is, e, hst⟩ := all hb
  have hshow := printBuffer_shows (by rw [e]; intro g hg; obtain ⟨i, _, rfl⟩ := List.mem_map.1 hg; exact .inr ⟨i, rfl⟩) h2
  rw [e] at hshow
  rcases hshow with ⟨before, msg, after, e1, _⟩ | ⟨e1, rfl⟩ | ⟨images, e1, hne, x, hx, hres⟩
  · have : GraphicsCommand.error msg ∈ is.map GraphicsCommand.image := by rw [e1]; simp
    obtain ⟨i, _, e2⟩ := List.mem_map.1 this
    cases e2
  · simp
  · have e2 : images = is := by
      have := List.map_injective_iff.2 (fun a b h => GraphicsCommand.image.inj h) e1
      exact this.symm
    subst e2
    rcases images with _ | ⟨first, later⟩
    · exact absurd rfl hne
    · generalize p.buffer = buf at hst hsz
      cases hst with
      | @cons _ q _ qs s1 s2 =>
        obtain ⟨i, rfl, _, _, hi2⟩ := over_stamp s1 s2 (fun a ha => hsz a (by simp [ha]) q (by simp)) hx
        rcases hres with ⟨i2, e3, rfl⟩ | ⟨m, m', e3, _⟩
        · simp
        · cases e3

theorem told_other {cmd : Command} (hk : cmd.kind ≠ .graphics) (hu : cmd.kind ≠ .unknown) {r r' : Recording}
    (h : processCommand recorder ext r cmd = .ok r') : Told false r r' := .none ((C90_commands h).2.2 hu hk)

theorem told_function {p : Press} {it : Item} {fn : Byte} {payload header : List Byte} {x : SubCmd} (hx : graphicsFunction fn = some x)
    (hu : x.kind ≠ .unknown) (hg : p.graphicsFair fn payload) {r r' : Recording} (ha : AtPress p r)
    (h : processCommand recorder ext r (subCommand x header payload) = .ok r') : Told false r r' := by
  by_cases hk : x.kind = .graphics
  · unfold Press.graphicsFair at hg
    rcases graphics_kinds fn hx hk with hn | hn | hn | hn <;> unfold graphicsFunction at hx <;> rw [hn] at hx hg <;> obtain rfl := Option.some.inj hx
    · exact told_layers rfl rfl ha.buffer hg h
    · exact told_layers rfl rfl ha.buffer hg h
    · rcases payload with _ | ⟨k1, _ | ⟨k2, rest⟩⟩
      · cases hg
      · cases hg
      · exact told_stored (m := .nv) (k1 := k1) (k2 := k2) (rest := rest) rfl rfl rfl ha.memory h
    · rcases payload with _ | ⟨k1, _ | ⟨k2, rest⟩⟩
      · cases hg
      · cases hg
      · exact told_stored (m := .download) (k1 := k1) (k2 := k2) (rest := rest) rfl rfl rfl ha.memory h
  · exact told_other hk hu h

theorem graphics_known_kind {fn : Byte} {x : SubCmd} (h : graphicsFunction fn = some x) : x.kind ≠ .unknown := by
  have key : ∀ fn : Byte, ((graphicsFunction fn).all fun x => x.kind != .unknown) = true := by
    apply byte_all; decide +kernel
  have := key fn
  rw [h] at this
  simpa using this

theorem code2d_known_kind {cn fn : Byte} {x : SubCmd} (h : code2dImplemented cn fn = some x) : x.kind ≠ .unknown := by
  have hr := code2dImplemented_range h
  have key : ∀ fn : Byte, ∀ cn ∈ [(48 : Byte), 49, 50, 51, 52, 53, 54], ((code2dImplemented cn fn).all fun x => x.kind != .unknown) = true := by
    apply byte_all; decide +kernel
  have hm : cn ∈ [(48 : Byte), 49, 50, 51, 52, 53, 54] := by
    have : cn.toNat = 48 ∨ cn.toNat = 49 ∨ cn.toNat = 50 ∨ cn.toNat = 51 ∨ cn.toNat = 52 ∨ cn.toNat = 53 ∨ cn.toNat = 54 := by omega
    simp only [List.mem_cons, List.not_mem_nil, or_false]
    rcases this with h | h | h | h | h | h | h <;> simp [← UInt8.toNat_inj, h]
  have := key fn cn hm
  rw [h] at this
  simpa using this

theorem fixed_known_kind : ∀ c ∈ escPosCommands, c.kind ≠ .unknown := by decide +kernel

theorem press_told {p : Press} {it : Item} (hw : it.WF) {cmd : Command} (hc : it.commands = [cmd])
    (hf : p.fair ext it) {r r' : Recording} (ha : AtPress p r) (h : processCommand recorder ext r cmd = .ok r') :
    Told (p.missing ext it) r r' := by
  have hmem : cmd ∈ it.commands := by rw [hc]; simp
  cases it with
  | text t =>
    obtain rfl := List.singleton_inj.1 hc
    exact told_other (by show textCmd.kind ≠ _; decide) (by show textCmd.kind ≠ _; decide) h
  | fixed c args =>
    have := fixed_kinds c hw.1 (by rw [hw.2]; rfl)
    obtain rfl := List.singleton_inj.1 hc
    exact told_other (cmd := { c with data := args }) this.1 (fixed_known_kind c hw.1) h
  | pagePrint =>
    obtain rfl := List.singleton_inj.1 hc
    exact told_other (by decide) (by decide) h
  | cut m =>
    obtain rfl := List.singleton_inj.1 hc
    exact told_other (by show feedAndCutCmd.kind ≠ _; decide) (by show feedAndCutCmd.kind ≠ _; decide) h
  | feedCut m n =>
    obtain rfl := List.singleton_inj.1 hc
    exact told_other (by show feedAndCutCmd.kind ≠ _; decide) (by show feedAndCutCmd.kind ≠ _; decide) h
  | effects body =>
    obtain rfl := List.singleton_inj.1 hc
    exact told_other (by show setCharacterEffectsCmd.kind ≠ _; decide) (by show setCharacterEffectsCmd.kind ≠ _; decide) h
  | barcodeA m data => exact told_barcode (p := p) (.inl rfl) hw hf.2.1 hmem h
  | barcodeB m data => exact told_barcode (p := p) (.inr rfl) hw hf.2.1 hmem h
  | bitImage m w data => exact told_column hw hmem ha.inked h
  | raster m w hh data => exact told_raster hw hmem ha.inked h
  | graphics m fn payload =>
    cases hx : graphicsFunction fn with
    | none => simp [Item.commands, hx] at hc
    | some x =>
      have hc2 : (Item.graphics m fn payload).commands = [subCommand x (small [0x1D, 0x28, 0x4C] m fn payload) payload] := by
        simp [Item.commands, hx]
      rw [hc2] at hc
      obtain rfl := List.singleton_inj.1 hc
      exact told_function (it := .graphics m fn payload) hx (graphics_known_kind hx) hf.2 ha h
  | largeGraphics m fn payload =>
    cases hx : graphicsFunction fn with
    | none => simp [Item.commands, hx] at hc
    | some x =>
      have hc2 : (Item.largeGraphics m fn payload).commands = [subCommand x (large [0x1D, 0x38, 0x4C] m fn payload) payload] := by
        simp [Item.commands, hx]
      rw [hc2] at hc
      obtain rfl := List.singleton_inj.1 hc
      exact told_function (it := .largeGraphics m fn payload) hx (graphics_known_kind hx) hf.2 ha h
  | code2d cn fn payload =>
    by_cases hp : cn = 49 ∧ fn = 81
    · obtain ⟨rfl, rfl⟩ := hp
      exact told_qr hmem ha.qr h
    · have hm : p.missing ext (.code2d cn fn payload) = false := by
        unfold Press.missing
        split
        · rename_i e; cases e
        · rename_i e; cases e
        · rename_i e; cases e; exact absurd ⟨rfl, rfl⟩ hp
        · rfl
      rw [hm]
      cases hx : code2dImplemented cn fn with
      | none => simp [Item.commands, hx] at hc
      | some x =>
        have hc2 : (Item.code2d cn fn payload).commands = [subCommand x (small [0x1D, 0x28, 0x6B] cn fn payload) payload] := by
          simp [Item.commands, hx]
        rw [hc2] at hc
        obtain rfl := List.singleton_inj.1 hc
        refine told_other ?_ (code2d_known_kind hx) h
        intro hk
        have := code2d_kinds hx hk
        exact hp ⟨(hf.2.2 this).1, this⟩
  | request m fn payload =>
    obtain rfl := List.singleton_inj.1 hc
    exact told_other (by unfold requestCommand; simp) (by unfold requestCommand; simp) h

theorem missing_nothing {p : Press} {it : Item} (h : it.commands = []) : p.missing ext it = false := by
  unfold Press.missing
  split
  · simp [Item.commands] at h
  · simp [Item.commands] at h
  · simp [Item.commands, show code2dImplemented 49 81 = some qrPrintSub by decide] at h
  · rfl

theorem press_tells {p : Press} {items : List Item} (hw : ∀ it ∈ items, it.WF) (hknown : ∀ it ∈ items, ∀ c ∈ it.commands, Known c)
    (hf : p.fairs ext items) {r r' : Recording} (ha : AtPress p r)
    (h : processCommands recorder ext (items.flatMap Item.commands) r = .ok r') :
    ∃ es, ownErrors r'.errorBuffer = ownErrors r.errorBuffer ++ es ∧ es.map (·.kind) = List.replicate (p.misses ext items) .graphicsError := by
  induction items generalizing p r with
  | nil => simp only [List.flatMap_nil, processCommands, ok_ok] at h; subst h; exact ⟨[], by simp, rfl⟩
  | cons it its ih =>
    rw [List.flatMap_cons, processCommands_append] at h
    obtain ⟨r1, h1, h2⟩ := h
    have ha1 := press_step (hw it (by simp)) (hknown it (by simp)) hf.1 ha h1
    obtain ⟨es2, e2, k2⟩ := ih (fun i hi => hw i (by simp [hi])) (fun i hi => hknown i (by simp [hi])) hf.2 ha1 h2
    have key : Told (p.missing ext it) r r1 := by
      rcases item_commands it with hc | ⟨cmd, hc⟩
      · rw [hc] at h1
        simp only [processCommands, ok_ok] at h1
        subst h1
        rw [missing_nothing hc]
        exact .none rfl
      · rw [hc] at h1
        simp only [processCommands, bind_ok, ok_ok] at h1
        obtain ⟨r2, h1, rfl⟩ := h1
        exact press_told (hw it (by simp)) hc hf.1 ha h1
    obtain ⟨es1, e1, k1⟩ := key
    refine ⟨es1 ++ es2, by rw [e2, e1, List.append_assoc], ?_⟩
    rw [List.map_append, k1, k2]
    show _ = List.replicate ((if p.missing ext it then 1 else 0) + _) _
    rw [← List.replicate_append_replicate]
    congr 1
    split <;> rfl

/-- C90, streams (partial: only symbols that do not exist are reported, not stored graphics that do not; and a job that begins with text is reported
to begin with an unknown command). The errors of a job are one error about a graphic for each barcode that cannot be encoded and each QR code that
is printed although none is stored, and no other errors. -/
theorem C90_printer_partial {items : List Item} (hw : ∀ it ∈ items, it.WF) (hs : separated items) (hl : ∀ it ∈ items.getLast?, it.endSafe)
    (hf : Press.initial.fairs ext items) {outs errs} {r : Recording}
    (h : render recorder ext (Renderer.new []) (streamBytes items) = .ok (outs, errs, r)) :
    (ownErrors errs).map (·.kind) = (if items.head?.any Item.isText then [.unknownCommand] else []) ++
      List.replicate (Press.initial.misses ext items) .graphicsError := by
  have hp := C08_stream hw hs
  rw [streamCommands_endSafe hl] at hp
  have hknown := parse_known hp
  simp only [render, bind_ok, pure_ok] at h
  obtain ⟨cmds, h1, r1, h2, h3⟩ := h
  rw [hp, ok_ok] at h1
  subst h1
  simp only [Prod.mk.injEq] at h3
  obtain ⟨rfl, rfl, rfl⟩ := h3
  simp only [processCommands, bind_ok] at h2
  obtain ⟨r0, h0, h2⟩ := h2
  obtain ⟨a0, s0⟩ := press_start h0
  have z0 : ownErrors r0.errorBuffer = [] := (C90_commands h0).2.2 (by decide) (by decide)
  rw [processCommands_append] at h2
  obtain ⟨r3, h2, h4⟩ := h2
  rw [processCommands_append] at h2
  obtain ⟨r2, hlead, h2⟩ := h2
  have a2 : AtPress .initial r2 ∧ (ownErrors r2.errorBuffer).map (·.kind) = if items.head?.any Item.isText then [.unknownCommand] else [] := by
    have : (leading items = [] ∧ items.head?.any Item.isText = false) ∨ (leading items = [unknownCmd] ∧ items.head?.any Item.isText = true) := by
      unfold leading
      split
      · split <;> simp [*]
      · simp
    rcases this with ⟨e, e'⟩ | ⟨e, e'⟩
    · rw [e] at hlead; simp only [processCommands, ok_ok] at hlead; subst hlead; exact ⟨a0, by rw [z0, e']; rfl⟩
    · rw [e] at hlead
      simp only [processCommands, bind_ok, ok_ok] at hlead
      obtain ⟨r5, h5, rfl⟩ := hlead
      refine ⟨?_, by rw [(C90_commands h5).1 rfl, z0, e']; rfl⟩
      unfold processCommand at h5
      rw [show unknownCmd.kind = .unknown from rfl] at h5
      simp only [bind_ok, pure_ok] at h5
      obtain ⟨r6, h6, rfl⟩ := h5
      simp only [processText, s0, if_true, ok_ok] at h6
      subst h6
      exact ⟨a0.inked.same rfl rfl rfl, a0.qr, a0.memory, a0.buffer⟩
  obtain ⟨es, e1, e2⟩ := press_tells hw (fun it hit c hc => hknown c (by
    simp only [List.mem_cons, List.mem_append, List.mem_flatMap]
    exact .inr (.inl (.inr ⟨it, hit, hc⟩)))) hf a2.1 h2
  simp only [processCommands, bind_ok, ok_ok] at h4
  obtain ⟨r5, h5, rfl⟩ := h4
  rw [(C90_commands h5).2.2 (by decide) (by decide), e1, List.map_append, a2.2, e2]

/-- An EAN-13 code of a letter, a QR code before one is stored, text, a QR code stored and printed, an EAN-8 code of
letters, text. -/
def missingItems : List Item :=
  [.barcodeA 2 [65], .code2d 49 81 [48], .text [97], .code2d 49 80 [48, 65], .code2d 49 81 [48], .barcodeB 68 [65, 66, 67], .text [98],
   .fixed linefeedCmd []]

set_option maxRecDepth 8000 in
/-- C90, hypotheses met by `missingItems`. -/
example : ∃ outs errs r, (∀ it ∈ missingItems, it.WF) ∧ separated missingItems ∧ (∀ it ∈ missingItems.getLast?, it.endSafe) ∧
    Press.initial.fairs twoByTwo missingItems ∧
    render recorder twoByTwo (Renderer.new []) (streamBytes missingItems) = .ok (outs, errs, r) ∧
    Press.initial.misses twoByTwo missingItems = 3 ∧ (ownErrors errs).map (·.kind) = [.graphicsError, .graphicsError, .graphicsError] := by
  refine ⟨_, _, _, ?_, ?_, ?_, ?_, rfl, ?_, ?_⟩
  · decide +kernel
  · simp [missingItems, separated, Item.isText]
  · simp [missingItems, Item.endSafe]
  · decide +kernel
  · decide +kernel
  · decide +kernel

/-- What is put on a canvas and which messages are kept: the number of calls, and the errors. -/
def seen (ext : Ext) (items : List Item) : Option (List Act × List RenderError) :=
  match render recorder ext (Renderer.new []) (streamBytes items) with
  | .ok (_, errs, r) => some (r.child.flatMap (fun x => callActs x), errs)
  | .error _ => none

/-- C90, not everything is reported: a PDF417 symbol (48) printed before one is stored, an NV graphic printed under keys that are not defined, and an
empty print buffer printed leave nothing on the paper and no error. -/
theorem C90_silent : ∀ it ∈ [Item.code2d 48 81 [48], .graphics 48 69 [88, 89, 1, 1], .graphics 48 85 [88, 89, 1, 1], .graphics 48 50 []],
    seen noExt [it, .fixed linefeedCmd []] = seen noExt [.fixed linefeedCmd []] ∧
    seen noExt [it, .fixed linefeedCmd []] = some ([.newSheet 108, .endSheet false 132], []) := by
  decide +kernel

/-- C90, and more than that is reported: a job that begins with text is reported to contain an unknown command. -/
theorem C90_text_first : ∃ acts, seen noExt [.text [97], .fixed linefeedCmd []] = some (acts, [⟨.unknownCommand, debugText unknownCmd⟩]) :=
  ⟨_, rfl⟩

/-! ### The messages of the image renderer -/

/-- C90, pictures: a picture is refused exactly when its corner is to the right of the canvas, or below a canvas that does not grow, and then one
message says where it should have been. -/
theorem C90_refused {c c' : Canvas} {i : Image} (hu : i.upsideDown = false) (hd : c.debug.image = false) (hl : i.pixels.length = i.w * i.h)
    (h : c.putRenderImg i = .ok c') :
    c'.errors = c.errors ++ if c.width ≤ i.x ∨ (c.getHeight ≤ i.y ∧ c.autoGrow = false) then
      [s!"Image exceeded paper x{i.x} y{i.y} w{c.width} h{c.getHeight} : exceeded: width? {decide (c.width ≤ i.x)} height? {decide (c.getHeight ≤ i.y)}".toList]
      else [] := by
  simp only [Canvas.putRenderImg, Canvas.debugImage, hd, hu, bind_ok] at h
  obtain ⟨px, h1, ⟨c1, b⟩, h2, h⟩ := h
  dsimp only at h
  rw [if_neg (by simp), ok_ok] at h1
  rw [if_neg (by simp), pure_ok] at h
  subst h1 h
  have hs := (Canvas.putPixels_says h2).2
  simp only [Canvas.putPixels, bind_ok, mulU32_ok] at h2
  obtain ⟨_, ⟨_, rfl⟩, h2⟩ := h2
  rw [if_neg (by omega)] at h2
  split at h2
  · rename_i hx
    simp only [Bool.or_eq_true, decide_eq_true_eq, Bool.and_eq_true, Bool.not_eq_true', ge_iff_le] at hx
    rw [pure_ok] at h2
    simp only [Prod.mk.injEq] at h2
    obtain ⟨rfl, rfl⟩ := h2
    rw [if_pos hx]; rfl
  · rename_i hx
    simp only [Bool.or_eq_true, decide_eq_true_eq, Bool.and_eq_true, Bool.not_eq_true', ge_iff_le] at hx
    simp only [bind_ok, pure_ok, Prod.mk.injEq] at h2
    obtain ⟨_, _, _, _, _, _, _, _, _, rfl⟩ := h2
    rw [if_neg hx, hs rfl, List.append_nil]

/-- C90, the messages of the image renderer are reported, all of them and in order, with each document that is completed. -/
theorem C90_told {gs : Canvas.Glyphs} {s : ImageRenderer} {bytes : List Byte} {outs errs r}
    (h : render (imageRenderer gs) ext (Renderer.new s) bytes = .ok (outs, errs, r)) :
    ∃ before, errs = before ++ (r.child.paper.errors ++ r.child.page.errors).map (⟨.childRenderError, ·⟩) := by
  simp only [render, bind_ok, pure_ok] at h
  obtain ⟨cmds, h1, r1, h2, h3⟩ := h
  simp only [Prod.mk.injEq] at h3
  obtain ⟨rfl, rfl, rfl⟩ := h3
  obtain ⟨mid, rfl, _⟩ := parseEscPos_framed h1
  rw [Renderer.processCommands_append, bind_ok] at h2
  obtain ⟨r2, _, h2⟩ := h2
  simp only [processCommands, bind_ok, ok_ok] at h2
  obtain ⟨r3, h5, rfl⟩ := h2
  obtain ⟨r6, o, _, g2, g3⟩ := control_step h5 rfl
  simp only [getDevice, endPrintCmd, getDeviceUnit, pure_ok] at g2
  subst g2
  simp only [Option.getD_some, deviceCommands, bind_ok, ok_ok] at g3
  obtain ⟨r7, g3, rfl⟩ := g3
  simp only [deviceCommand, bind_ok, pure_ok] at g3
  obtain ⟨s1, g4, ⟨s2, o⟩, g5, rfl⟩ := g3
  have g4 : r6.child = s1 := Except.ok.inj g4
  subst g4
  obtain ⟨e1, e2⟩ := ImageRenderer.endRender_says g5
  refine ⟨r6.errorBuffer, ?_⟩
  show _ = r6.errorBuffer ++ (s2.paper.errors ++ s2.page.errors).map _
  rw [e1, e2]
  rfl

/-- C90, the messages of the image renderer are never forgotten: a message of an earlier job is reported again with every later one. -/
theorem C90_stay {gs : Canvas.Glyphs} {s : ImageRenderer} {bytes : List Byte} {outs errs r}
    (h : render (imageRenderer gs) ext (Renderer.new s) bytes = .ok (outs, errs, r)) :
    (∃ later, r.child.paper.errors = s.paper.errors ++ later) ∧ (∃ later, r.child.page.errors = s.page.errors ++ later) ∧
    ∀ m ∈ s.paper.errors ++ s.page.errors, ⟨.childRenderError, m⟩ ∈ errs := by
  obtain ⟨_, _, t, _, h2, _⟩ := C68_same_calls (imageRenderer gs) ext s bytes outs errs r h
  obtain ⟨⟨l1, e1⟩, ⟨l2, e2⟩⟩ := replay_says h2
  refine ⟨⟨l1, e1.symm⟩, ⟨l2, e2.symm⟩, fun m hm => ?_⟩
  obtain ⟨before, e⟩ := C90_told h
  rw [e, List.mem_append, List.mem_map]
  refine .inr ⟨m, ?_, rfl⟩
  rw [← e1, ← e2]
  simp only [List.mem_append] at hm ⊢
  rcases hm with hm | hm
  · exact .inl (.inl hm)
  · exact .inr (.inl hm)

/-- The message for a picture put at the left upper corner of a page that has no area. -/
def outsideMessage : Str := "Image exceeded paper x0 y0 w0 h0 : exceeded: width? true height? true".toList

/-- An image renderer that was asked to draw that picture. -/
def afterOutside : ImageRenderer := ⟨Canvas.new 0, { Canvas.new 0 with errors := [outsideMessage] }, {}⟩

/-- C90, hypotheses met: a picture outside is refused with that message, and the message is an error of the next job with this renderer, although
that job is empty. -/
example (gs : Canvas.Glyphs) :
    (imageRenderer gs).renderImage { Context.new with pageMode := { Context.new.pageMode with enabled := true } }
      ⟨[⟨0, 0, 0, 255⟩], 0, 0, 1, 1, .inline, false⟩ (ImageRenderer.new {}) = .ok afterOutside ∧
    ∃ outs r, render (imageRenderer gs) noExt (Renderer.new afterOutside) [] = .ok (outs, [⟨.childRenderError, outsideMessage⟩], r) := by
  refine ⟨by rfl, ?_⟩
  have hp : parseEscPos [] = .ok [beginPrintCmd, endPrintCmd] := rfl
  obtain ⟨r, h1, h2, h3, h4, h5, h6⟩ : ∃ r : Renderer ImageRenderer ReceiptImage,
      processCommand (imageRenderer gs) noExt (Renderer.new afterOutside) beginPrintCmd = .ok r ∧
      (r.context.graphics.renderArea.y = 108 ∧ r.errorBuffer = [] ∧ r.child.paper.errors = [] ∧ r.child.page.errors = [outsideMessage]) ∧
      r.child.paper.bytes = [] ∧ r.child.paper.width = 609 ∧
      (r.spanBuffer = [] ∧ r.outputBuffer = []) ∧ OnPaper r.context := by
    refine ⟨_, rfl, ⟨rfl, rfl, rfl, rfl⟩, rfl, rfl, ⟨rfl, rfl⟩, ⟨rfl, rfl, rfl, rfl, rfl, rfl⟩⟩
  obtain ⟨s', o, e, eh⟩ := endRender_blank r.child r.context h6 h3 h4 (by omega)
  have e2 : processCommand (imageRenderer gs) noExt r endPrintCmd = .ok { r with
      child := s'
      errorBuffer := r.errorBuffer ++ (r.child.paper.errors ++ r.child.page.errors).map (⟨.childRenderError, ·⟩)
      outputBuffer := r.outputBuffer ++ [o] } := by
    obtain ⟨a, b, c, d, f⟩ := r
    obtain ⟨h5, h5'⟩ := h5
    dsimp only at h5; subst h5
    have e' : (imageRenderer gs).endRender f a = .ok (s', o) := e
    unfold processCommand
    simp only [endPrintCmd]
    show ((do
      let (s, out) ← (imageRenderer gs).endRender f a
      pure _) : Rs _) >>= _ = _
    rw [e']
    rfl
  refine ⟨[o], ⟨s', [], [], r.spanBuffer, r.context⟩, ?_⟩
  simp only [render, hp, processCommands, bind, Except.bind, h1, e2, h5.2, pure, Except.pure, List.nil_append, h2]
  rfl

end Thermal
