import Verif.Props.Printer
import Verif.Proofs.CalmGet
import Verif.Spec.Web
/-
Only barcodes and QR codes are drawn with boxes.
-/
namespace Thermal
open Renderer Spec

/-- Not boxes. -/
def Boxless (x : Context × Call) : Prop := ∀ gs, x.2 ≠ .graphics gs

theorem boxless_snoc {l : List (Context × Call)} {c k} (h1 : ∀ x ∈ l, Boxless x) (h2 : ∀ gs, k ≠ .graphics gs) : ∀ x ∈ l ++ [(c, k)], Boxless x := by
  intro x hx
  rcases List.mem_append.1 hx with hx | hx
  · exact h1 x hx
  · rw [List.mem_singleton.1 hx]; exact h2

theorem deviceCommand_boxless {d : DeviceCommand} {r r' : Recording} (h : deviceCommand recorder r d = .ok r')
    (hr : ∀ x ∈ r.child, Boxless x) : ∀ x ∈ r'.child, Boxless x := by
  have h0 : ∀ x ∈ r.child ++ [(r.context, Call.device d)], Boxless x := boxless_snoc hr (by simp)
  simp only [deviceCommand, recorder, bind_ok, ok_ok] at h
  obtain ⟨_, rfl, h⟩ := h
  cases d
  all_goals (simp only [bind_ok, pure_ok, ok_ok] at h)
  case beginPrint => obtain ⟨_, _, _, rfl, rfl⟩ := h; exact boxless_snoc h0 (by simp)
  case endPrint => obtain ⟨_, rfl, rfl⟩ := h; exact boxless_snoc h0 (by simp)
  case beginPageMode => obtain ⟨_, rfl, rfl⟩ := h; exact boxless_snoc h0 (by simp)
  case endPageMode => obtain ⟨_, rfl, rfl⟩ := h; exact boxless_snoc h0 (by simp)
  case printPageMode => obtain ⟨_, rfl, _, _, rfl⟩ := h; exact boxless_snoc h0 (by simp)
  all_goals first
    | (subst h; exact h0)
    | (obtain ⟨_, _, rfl⟩ := h; exact h0)
    | (simp only [pageAreaChanged, bind_ok, pure_ok, ok_ok] at h
       obtain ⟨⟨_, _, _, _⟩, _, _, rfl, rfl⟩ := h
       exact boxless_snoc h0 (by simp))

theorem deviceCommands_boxless {ds : List DeviceCommand} {r r' : Recording} (h : deviceCommands recorder ds r = .ok r')
    (hr : ∀ x ∈ r.child, Boxless x) : ∀ x ∈ r'.child, Boxless x := by
  induction ds generalizing r with
  | nil => simp only [deviceCommands, ok_ok] at h; subst h; exact hr
  | cons d ds ih =>
    simp only [deviceCommands, bind_ok] at h
    obtain ⟨r1, h1, h2⟩ := h
    exact ih h2 (deviceCommand_boxless h1 hr)

theorem processText_boxless {r r' : Recording} (h : processText recorder r = .ok r') (hr : ∀ x ∈ r.child, Boxless x) : ∀ x ∈ r'.child, Boxless x := by
  by_cases hb : r.spanBuffer = []
  · simp only [processText, hb, List.isEmpty_nil, if_true, ok_ok] at h
    subst h; exact hr
  · obtain ⟨calls, l, ss, e, _, _, _, _, _, _, _, hc⟩ := processText_calls h hb
    intro x hx
    rw [e] at hx
    rcases List.mem_append.1 hx with hx | hx
    · exact hr x hx
    · obtain ⟨_, f, l, off, e, _⟩ := hc x hx
      intro gs; rw [e]; simp

/-- A picture, or an error. -/
def Flat (g : GraphicsCommand) : Prop := (∃ i, g = .image i) ∨ ∃ e, g = .error e

theorem processGraphicsOpt_boxless {r r' : Recording} {g} (hg : ∀ x, g = some x → Flat x) (hr : ∀ x ∈ r.child, Boxless x)
    (h : processGraphicsOpt recorder r g = .ok r') : ∀ x ∈ r'.child, Boxless x := by
  unfold processGraphicsOpt at h
  split at h
  · rename_i g'
    rcases hg g' rfl with ⟨i, rfl⟩ | ⟨e, rfl⟩
    · simp only [processGraphics, processImage, bind_ok, pure_ok, recorder, ok_ok] at h
      obtain ⟨c1, h1, _, rfl, c2, h2, rfl⟩ := h
      exact boxless_snoc hr (by simp)
    · simp only [processGraphics, pure_ok] at h
      subst h; exact hr
  · rw [ok_ok] at h; subst h; exact hr

/-- A command that draws only pictures. -/
theorem processCommand_boxless {ext : Ext} {cmd : Command} {r r' : Recording} (h : processCommand recorder ext r cmd = .ok r')
    (hg : cmd.kind = .graphics → ∀ r1 o, processText recorder r = .ok r1 → getGraphics ext cmd r1.context = .ok o → ∀ g, o = some g → Flat g)
    (hr : ∀ x ∈ r.child, Boxless x) : ∀ x ∈ r'.child, Boxless x := by
  unfold processCommand at h
  rcases hc : cmd.kind <;> rw [hc] at h <;> dsimp only at h
  case graphics =>
    simp only [bind_ok] at h
    obtain ⟨r1, a1, g, a2, r2, a3, o, a4, a5⟩ := h
    exact deviceCommands_boxless a5 (processGraphicsOpt_boxless (hg hc r1 g a1 a2) (processText_boxless a1 hr) a3)
  case unknown =>
    simp only [bind_ok, pure_ok] at h
    obtain ⟨r1, a1, rfl⟩ := h
    have := processText_boxless a1 hr
    exact this
  case text =>
    simp only [bind_ok] at h
    obtain ⟨o, _, h⟩ := h
    split at h
    · rw [pure_ok] at h; subst h; exact hr
    · rw [pure_ok] at h; subst h; exact hr
  case context =>
    simp only [bind_ok, pure_ok] at h
    obtain ⟨r1, a1, _, _, rfl⟩ := h
    have := processText_boxless a1 hr
    exact this
  case contextControl =>
    simp only [bind_ok] at h
    obtain ⟨r1, a1, c, _, o, a2, a3⟩ := h
    have := processText_boxless a1 hr
    exact deviceCommands_boxless a3 this
  case control =>
    simp only [bind_ok] at h
    obtain ⟨r1, a1, o, a2, a3⟩ := h
    first
    | exact deviceCommands_boxless a3 (processText_boxless a1 hr)
    | exact deviceCommands_boxless a3 (processText_boxless a2 hr)
  case textStyle =>
    simp only [bind_ok] at h
    obtain ⟨c, _, o, a2, a3⟩ := h
    exact deviceCommands_boxless a3 hr
  case subcommand => rw [pure_ok] at h; subst h; exact hr

theorem flat_raster {w h : Nat} {stretch : Byte × Byte} {color : RGBA} {flow : ImageFlow} {data : List Byte} {asBits : Bool} {g : GraphicsCommand}
    (hr : imageFromRaster w h stretch color flow data asBits = .ok g) : Flat g := by
  rcases imageFromRaster_sized hr with ⟨i, e, _⟩ | ⟨m, e, _⟩
  · exact .inl ⟨i, e⟩
  · exact .inr ⟨m, e⟩

theorem keeps_flat {o : Option Picture} {g : Option GraphicsCommand} (h : Keeps o g) : ∀ x, g = some x → Flat x := by
  intro x hx
  cases o with
  | none => rw [show g = none from h] at hx; cases hx
  | some pic =>
    obtain ⟨i, e, _⟩ := h
    rw [e, Option.some.injEq] at hx
    exact .inl ⟨i, hx.symm⟩

theorem stored_flat {mem : Memory → Byte → Byte → Option Picture} {m : GraphicsMap} (h : ∀ k a b, Keeps (mem k a b) (m.get (memKey k a b)))
    (k : Memory) (data : List Byte) : ∀ x, (ImageRef.fromData data (match k with | .nv => .disc | .download => .ram)).bind m.get = some x → Flat x := by
  intro x hx
  unfold ImageRef.fromData at hx
  split at hx
  · exact keeps_flat (h k _ _) x hx
  · cases hx

theorem buffer_flat {c : Context} {o} (h : printBufferGraphics c = .ok o) : ∀ x, o = some x → Flat x := by
  intro x hx
  unfold printBufferGraphics at h
  split at h
  · rename_i e
    obtain ⟨m, rfl⟩ := bufferLayers_error e
    rw [pure_ok] at h; subst h; cases hx; exact .inr ⟨m, rfl⟩
  · rw [pure_ok] at h; subst h; cases hx
  · simp only [bind_ok] at h
    obtain ⟨l, _, h⟩ := h
    split at h <;> rw [pure_ok] at h <;> subst h <;> cases hx
    · exact .inl ⟨_, rfl⟩
    · exact .inr ⟨_, rfl⟩

/-- What the functions of `GS ( L` draw. -/
theorem graphics_flat {ext : Ext} {p : Press} {r : Recording} (ha : AtPress p r) {fn : Byte} {f : SubCmd} (hf : graphicsFunction fn = some f)
    {header payload : List Byte} {r1 o} (h1 : processText recorder r = .ok r1)
    (h : getGraphics ext (subCommand f header payload) r1.context = .ok o) : ∀ g, o = some g → Flat g := by
  have hs : r1.context.graphics.storedGraphics = r.context.graphics.storedGraphics := (processText_quiet h1).4.graphics.1
  have hid : f.id = .printBuffer ∨ f.id = .printNv ∨ f.id = .printDownload ∨ ∀ d c, subGraphics f.id d c = .ok none := by
    unfold graphicsFunction at hf
    split at hf <;> cases hf <;> first
      | exact .inl rfl
      | exact .inr (.inl rfl)
      | exact .inr (.inr (.inl rfl))
      | exact .inr (.inr (.inr fun _ _ => rfl))
  have h : subGraphics f.id payload r1.context = .ok o := h
  rcases hid with e | e | e | e
  · rw [e] at h; exact buffer_flat h
  · rw [e] at h
    simp only [subGraphics, pure_ok] at h
    subst h
    rw [hs]
    exact stored_flat ha.memory .nv payload
  · rw [e] at h
    simp only [subGraphics, pure_ok] at h
    subst h
    rw [hs]
    exact stored_flat ha.memory .download payload
  · rw [e, ok_ok] at h
    subst h
    intro g hg; cases hg

/-- An item that is no symbol is drawn without boxes. -/
theorem item_boxless {ext : Ext} {p : Press} {it : Item} (hw : it.WF) (hns : ¬ it.isSymbol) {r r' : Recording} (ha : AtPress p r)
    (h : processCommands recorder ext it.commands r = .ok r') (hr : ∀ x ∈ r.child, Boxless x) : ∀ x ∈ r'.child, Boxless x := by
  have one : ∀ cmd : Command, it.commands = [cmd] → (cmd.kind = .graphics → ∀ r1 o, processText recorder r = .ok r1 →
      getGraphics ext cmd r1.context = .ok o → ∀ g, o = some g → Flat g) → ∀ x ∈ r'.child, Boxless x := by
    intro cmd hc hg
    rw [hc] at h
    simp only [processCommands, bind_ok, ok_ok] at h
    obtain ⟨r1, h, rfl⟩ := h
    exact processCommand_boxless h hg hr
  have zero : it.commands = [] → ∀ x ∈ r'.child, Boxless x := by
    intro hc
    rw [hc] at h
    simp only [processCommands, ok_ok] at h
    subst h; exact hr
  cases it with
  | text t => exact one _ rfl (fun hk => by cases hk)
  | fixed c args =>
    refine one _ rfl (fun hk => ?_)
    have key : ∀ c ∈ escPosCommands, paramCount c.dataKind ≠ none → c.kind ≠ .graphics := by decide +kernel
    exact absurd hk (key c hw.1 (by rw [hw.2]; simp))
  | pagePrint => exact one _ rfl (fun hk => by cases hk)
  | cut m => exact one _ rfl (fun hk => by cases hk)
  | feedCut m n => exact one _ rfl (fun hk => by cases hk)
  | effects b => exact one _ rfl (fun hk => by cases hk)
  | request m fn pl => exact one _ rfl (fun hk => by cases hk)
  | barcodeA m d => exact absurd trivial hns
  | barcodeB m d => exact absurd trivial hns
  | bitImage m w d =>
    refine one _ rfl (fun _ r1 o _ h => ?_)
    simp only [getGraphics, bitImageGraphics, if_true, bind_ok, pure_ok, imageFromColumn] at h
    obtain ⟨g, ⟨_, _, h⟩, rfl⟩ := h
    intro x hx; cases hx
    exact flat_raster h
  | raster m w hh d =>
    refine one _ rfl (fun _ r1 o _ h => ?_)
    simp only [getGraphics, rasterGraphics, bind_ok, pure_ok] at h
    obtain ⟨g, h, rfl⟩ := h
    intro x hx; cases hx
    exact flat_raster h
  | graphics m fn pl =>
    cases hf : graphicsFunction fn with
    | none => exact zero (by simp [Item.commands, hf])
    | some f => exact one (subCommand f _ pl) (by simp only [Item.commands, hf]; rfl) fun _ r1 o h1 h => graphics_flat ha hf h1 h
  | largeGraphics m fn pl =>
    cases hf : graphicsFunction fn with
    | none => exact zero (by simp [Item.commands, hf])
    | some f => exact one (subCommand f _ pl) (by simp only [Item.commands, hf]; rfl) fun _ r1 o h1 h => graphics_flat ha hf h1 h
  | code2d cn fn pl =>
    cases hf : code2dImplemented cn fn with
    | none => exact zero (by simp [Item.commands, hf])
    | some f =>
      refine one (subCommand f _ pl) (by simp only [Item.commands, hf]; rfl) fun hk => ?_
      exact absurd (code2d_kinds hf hk) hns

theorem items_boxless {ext : Ext} {p : Press} {items : List Item} (hw : ∀ it ∈ items, it.WF) (hknown : ∀ it ∈ items, ∀ c ∈ it.commands, Known c)
    (hf : p.fairs ext items) (hns : ∀ it ∈ items, ¬ it.isSymbol) {r r' : Recording} (ha : AtPress p r)
    (h : processCommands recorder ext (items.flatMap Item.commands) r = .ok r') (hr : ∀ x ∈ r.child, Boxless x) : ∀ x ∈ r'.child, Boxless x := by
  induction items generalizing p r with
  | nil => simp only [List.flatMap_nil, processCommands, ok_ok] at h; subst h; exact hr
  | cons it its ih =>
    rw [List.flatMap_cons, processCommands_append] at h
    obtain ⟨r1, h1, h2⟩ := h
    exact ih (fun x hx => hw x (by simp [hx])) (fun x hx => hknown x (by simp [hx])) hf.2 (fun x hx => hns x (by simp [hx]))
      (press_step (hw it (by simp)) (hknown it (by simp)) hf.1 ha h1) h2 (item_boxless (hw it (by simp)) (hns it (by simp)) ha h1 hr)

/-- A stream without symbols is drawn without boxes. -/
theorem stream_boxless {ext : Ext} {items : List Item} (hw : ∀ it ∈ items, it.WF) (hs : separated items) (hl : ∀ it ∈ items.getLast?, it.endSafe)
    (hf : Press.initial.fairs ext items) (hns : ∀ it ∈ items, ¬ it.isSymbol) {outs errs} {r : Recording}
    (h : render recorder ext (Renderer.new []) (streamBytes items) = .ok (outs, errs, r)) : ∀ x ∈ r.child, Boxless x := by
  have hp := C08_stream hw hs
  rw [streamCommands_endSafe hl] at hp
  have hknown := parse_known hp
  simp only [render, bind_ok, pure_ok] at h
  obtain ⟨cmds, h1, r1, h2, h3⟩ := h
  rw [hp, ok_ok] at h1
  subst h1
  simp only [Prod.mk.injEq] at h3
  obtain ⟨rfl, rfl, rfl⟩ := h3
  simp only [processCommands, bind_ok] at h2
  obtain ⟨r0, h0, h2⟩ := h2
  obtain ⟨a0, s0⟩ := press_start h0
  have n0 : ∀ x ∈ r0.child, Boxless x := processCommand_boxless h0 (fun hk => by cases hk) (by simp [Renderer.new])
  rw [processCommands_append] at h2
  obtain ⟨r3, h2, h4⟩ := h2
  rw [processCommands_append] at h2
  obtain ⟨r2, hlead, h2⟩ := h2
  have a2 : AtPress .initial r2 ∧ ∀ x ∈ r2.child, Boxless x := by
    have : leading items = [] ∨ leading items = [unknownCmd] := by
      unfold leading
      split
      · split <;> simp
      · simp
    rcases this with e | e
    · rw [e] at hlead; simp only [processCommands, ok_ok] at hlead; subst hlead; exact ⟨a0, n0⟩
    · rw [e] at hlead
      simp only [processCommands, bind_ok, ok_ok] at hlead
      obtain ⟨r5, h5, rfl⟩ := hlead
      unfold processCommand at h5
      rw [show unknownCmd.kind = .unknown from rfl] at h5
      simp only [bind_ok, pure_ok] at h5
      obtain ⟨r6, h6, rfl⟩ := h5
      simp only [processText, s0, if_true, ok_ok] at h6
      subst h6
      exact ⟨⟨a0.inked.same rfl rfl rfl, a0.qr, a0.memory, a0.buffer⟩, n0⟩
  have key := items_boxless hw (fun it hit c hc => hknown c (by
    simp only [List.mem_cons, List.mem_append, List.mem_flatMap]
    exact .inr (.inl (.inr ⟨it, hit, hc⟩)))) hf hns a2.1 h2 a2.2
  simp only [processCommands, bind_ok, ok_ok] at h4
  obtain ⟨r5, h5, rfl⟩ := h4
  have := processCommand_boxless h5 (fun hk => absurd hk (by decide)) key
  exact this

end Thermal
