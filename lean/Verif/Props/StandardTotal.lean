import Verif.Props.ImageTotal
import Verif.Props.HtmlTotal
/-
C65 for the image renderer and the HTML renderer, with conditions on the print job only: receipts in standard mode with text, barcodes, 2D codes, bit images and raster images.
-/
namespace Thermal
open Renderer Spec

/-- Commands of standard mode: no form feed, no page mode and no page areas, and no graphics from the memory of the printer. -/
def Command.standard (c : Command) : Prop :=
  c.commands ≠ [12] ∧ c.commands ≠ [27, 76] ∧ c.handler ≠ .unit .pageModePrintArea ∧ c.handler ≠ .unit .pageModePrintDirection ∧
    c.handler ≠ .subUnit .printBuffer ∧ c.handler ≠ .subUnit .printDownload ∧ c.handler ≠ .subUnit .printNv

instance (c : Command) : Decidable c.standard := by unfold Command.standard; infer_instance

/-- Images that are not empty. -/
def Command.dotted (c : Command) : Prop :=
  match c.handler with
  | .bitImage s => 0 < s.width ∧ 0 < s.height
  | .raster s => 0 < s.width ∧ 0 < s.height
  | _ => True

instance (c : Command) : Decidable c.dotted := by unfold Command.dotted; split <;> infer_instance

/-- A condition on the size of an image. -/
def Small (Q : Nat → Nat → Prop) (g : GraphicsCommand) : Prop := ∀ i, g = .image i → Q i.w i.h

/-- No new page area, and images only of sizes that meet a condition. -/
def Snug (Q : Nat → Nat → Prop) (x : Context × Call) : Prop := (∀ i, x.2 = .image i → Q i.w i.h) ∧ ∀ k w h, x.2 ≠ .pageAreaChanged k w h

variable {Q : Nat → Nat → Prop}

theorem snug_snoc {l : List (Context × Call)} {c k} (h1 : ∀ x ∈ l, Snug Q x) (h2 : Snug Q (c, k)) : ∀ x ∈ l ++ [(c, k)], Snug Q x := by
  intro x hx
  rcases List.mem_append.1 hx with hx | hx
  · exact h1 x hx
  · rw [List.mem_singleton.1 hx]; exact h2

theorem deviceCommand_snug {d : DeviceCommand} {r r' : Recording} (h : deviceCommand recorder r d = .ok r') (hd : d ≠ .changePageArea ∧ d ≠ .changePageModeDirection)
    (hr : ∀ x ∈ r.child, Snug Q x) : ∀ x ∈ r'.child, Snug Q x := by
  have h0 : ∀ x ∈ r.child ++ [(r.context, Call.device d)], Snug Q x := snug_snoc hr ⟨by simp, by simp⟩
  simp only [deviceCommand, recorder, bind_ok, ok_ok] at h
  obtain ⟨_, rfl, h⟩ := h
  cases d
  case changePageArea => exact absurd rfl hd.1
  case changePageModeDirection => exact absurd rfl hd.2
  all_goals (simp only [bind_ok, pure_ok, ok_ok] at h)
  case beginPrint => obtain ⟨_, _, _, rfl, rfl⟩ := h; exact snug_snoc h0 ⟨by simp, by simp⟩
  case endPrint => obtain ⟨_, rfl, rfl⟩ := h; exact snug_snoc h0 ⟨by simp, by simp⟩
  case beginPageMode => obtain ⟨_, rfl, rfl⟩ := h; exact snug_snoc h0 ⟨by simp, by simp⟩
  case endPageMode => obtain ⟨_, rfl, rfl⟩ := h; exact snug_snoc h0 ⟨by simp, by simp⟩
  case printPageMode => obtain ⟨_, rfl, _, _, rfl⟩ := h; exact snug_snoc h0 ⟨by simp, by simp⟩
  all_goals first
    | (subst h; exact h0)
    | (obtain ⟨_, _, rfl⟩ := h; exact h0)

theorem deviceCommands_snug {ds : List DeviceCommand} {r r' : Recording} (h : deviceCommands recorder ds r = .ok r')
    (hd : ∀ d ∈ ds, d ≠ .changePageArea ∧ d ≠ .changePageModeDirection) (hr : ∀ x ∈ r.child, Snug Q x) : ∀ x ∈ r'.child, Snug Q x := by
  induction ds generalizing r with
  | nil => simp only [deviceCommands, ok_ok] at h; subst h; exact hr
  | cons d ds ih =>
    simp only [deviceCommands, bind_ok] at h
    obtain ⟨r1, h1, h2⟩ := h
    exact ih h2 (fun x hx => hd x (by simp [hx])) (deviceCommand_snug h1 (hd d (by simp)) hr)

theorem processText_snug {r r' : Recording} (h : processText recorder r = .ok r') (hr : ∀ x ∈ r.child, Snug Q x) : ∀ x ∈ r'.child, Snug Q x := by
  by_cases hb : r.spanBuffer = []
  · simp only [processText, hb, List.isEmpty_nil, if_true, ok_ok] at h
    subst h; exact hr
  · obtain ⟨calls, l, ss, e, _, _, _, _, _, _, _, hc⟩ := processText_calls h hb
    intro x hx
    rw [e] at hx
    rcases List.mem_append.1 hx with hx | hx
    · exact hr x hx
    · obtain ⟨_, f, l, off, e, _⟩ := hc x hx
      exact ⟨by rw [e]; simp, by rw [e]; simp⟩

theorem barcodeText_snug {r r' : Recording} {b} (hr : ∀ x ∈ r.child, Snug Q x) (h : barcodeText recorder r b = .ok r') : ∀ x ∈ r'.child, Snug Q x := by
  simp only [barcodeText, bind_ok, pure_ok] at h
  obtain ⟨r1, h1, c, h2, rfl⟩ := h
  have := processText_snug (r := r.collectText b.text) h1 hr
  exact this

theorem processGraphicsOpt_snug {r r' : Recording} {g} (hg : ∀ x, g = some x → Small Q x) (hr : ∀ x ∈ r.child, Snug Q x)
    (h : processGraphicsOpt recorder r g = .ok r') : ∀ x ∈ r'.child, Snug Q x := by
  unfold processGraphicsOpt at h
  split at h
  · rename_i g'
    have hg := hg g' rfl
    unfold processGraphics at h
    split at h
    · rw [pure_ok] at h; subst h; exact hr
    · simp only [processCode2d, bind_ok, pure_ok, recorder, ok_ok] at h
      obtain ⟨_, _, c1, h1, ⟨c2, gs⟩, h2, _, rfl, rfl⟩ := h
      exact snug_snoc hr ⟨by simp, by simp⟩
    · simp only [processBarcode, bind_ok] at h
      obtain ⟨r1, h1, r2, h2, h3⟩ := h
      have a : ∀ x ∈ r1.child, Snug Q x := by
        unfold barcodeAbove at h1
        split at h1
        · exact barcodeText_snug hr h1
        · rw [ok_ok] at h1; subst h1; exact hr
      have b : ∀ x ∈ r2.child, Snug Q x := by
        simp only [barcodeBars, bind_ok, pure_ok, recorder, ok_ok] at h2
        obtain ⟨_, _, c1, e1, ⟨c2, gs⟩, e2, _, rfl, c3, e3, rfl⟩ := h2
        exact snug_snoc a ⟨by simp, by simp⟩
      unfold barcodeBelow at h3
      split at h3
      · simp only [bind_ok] at h3
        obtain ⟨c, e1, h3⟩ := h3
        exact barcodeText_snug (r := { r2 with context := c }) b h3
      · rw [ok_ok] at h3; subst h3; exact b
    · simp only [processImage, bind_ok, pure_ok, recorder, ok_ok] at h
      obtain ⟨c1, h1, _, rfl, c2, h2, rfl⟩ := h
      exact snug_snoc hr ⟨fun j e => by cases e; have := hg _ rfl; exact this, by simp⟩
    · rw [pure_ok] at h; subst h; exact hr
  · rw [ok_ok] at h; subst h; exact hr

/-- A size that fits, and not empty if the image of the command is not. -/
def Sized (D : Prop) (w h : Nat) : Prop := w * h < U32 ∧ (D → 0 < w ∧ 0 < h)

theorem getGraphics_small {ext : Ext} {cmd : Command} {c : Context} {n : Bool} {D : Prop} {o} (h : getGraphics ext cmd c = .ok o) (ht : Tame n cmd) (hs : ShapeOk cmd)
    (hns : ∀ s, cmd.handler ≠ .sub s) (hst : cmd.standard) (hd : D → cmd.dotted) : ∀ g, o = some g → Small (Sized D) g := by
  unfold getGraphics at h
  unfold Tame at ht
  unfold ShapeOk at hs
  unfold Command.standard at hst
  unfold Command.dotted at hd
  rcases hk : cmd.handler with id | id | cap | s | s | s | s <;> rw [hk] at h ht hs hst hd <;> dsimp only at h ht hs hst hd
  · rw [pure_ok] at h; subst h; intro g hg; cases hg
  · have sym : ∀ g, c.code2d.symbolStorage.map GraphicsCommand.code2d = some g → Small (Sized D) g := by
      intro g hg
      simp only [Option.map_eq_some_iff] at hg
      obtain ⟨q, h1, rfl⟩ := hg
      intro i e; cases e
    cases id <;> dsimp only [subGraphics] at h
    case printBuffer => exact absurd rfl hst.2.2.2.2.1
    case printDownload => exact absurd rfl hst.2.2.2.2.2.1
    case printNv => exact absurd rfl hst.2.2.2.2.2.2
    case qrPrint =>
      split at h <;> rw [pure_ok] at h <;> subst h <;> intro g hg <;> cases hg <;> intro i e <;> cases e
    case aztecPrint => rw [pure_ok] at h; subst h; exact sym
    case compositePrint => rw [pure_ok] at h; subst h; exact sym
    case datamatrixPrint => rw [pure_ok] at h; subst h; exact sym
    case gs1Print => rw [pure_ok] at h; subst h; exact sym
    case maxiPrint => rw [pure_ok] at h; subst h; exact sym
    case pdf417Print => rw [pure_ok] at h; subst h; exact sym
    all_goals (rw [pure_ok] at h; subst h; intro g hg; cases hg)
  · rw [pure_ok] at h; subst h; intro g hg; cases hg
  · have bad : ∀ k m d, Small (Sized D) (decorateError k m d) := by intro k m d i e; cases e
    have res : ∀ m t, Small (Sized D) (barcodeResult s cmd.data c t m) := by
      intro m t i e
      unfold barcodeResult at e
      split at e
      · cases e
      · cases e
    have one : ∀ {x : GraphicsCommand}, Small (Sized D) x → ∀ g, some x = some g → Small (Sized D) g := by intro x hx g hg; cases hg; exact hx
    unfold barcodeGraphics at h
    dsimp only at h
    split at h
    · rw [pure_ok] at h; subst h; exact one (bad _ _ _)
    · split at h
      all_goals first
        | (rw [pure_ok] at h; subst h; exact one (res _ _))
        | (rw [pure_ok] at h; subst h; exact one (bad _ _ _))
        | skip
      · simp only [bind_ok, pure_ok] at h
        obtain ⟨_, _, rfl⟩ := h
        exact one (res _ _)
      · simp only [bind_ok] at h
        obtain ⟨u, _, h⟩ := h
        split at h
        · simp only [bind_ok, pure_ok] at h
          obtain ⟨_, _, rfl⟩ := h
          exact one (res _ _)
        · rw [pure_ok] at h; subst h; exact one (bad _ _ _)
  · obtain ⟨h1, h2, h3, h4⟩ := hs
    have hst : max (UInt8.ofNat s.stretch.1).toNat 1 ≤ 2 ∧ max (UInt8.ofNat s.stretch.2).toNat 1 ≤ 3 := by
      rcases h4 with h4 | h4 <;> rw [h4] <;> decide
    have a1 : s.width * max (UInt8.ofNat s.stretch.1).toNat 1 ≤ 65535 * 2 := Nat.mul_le_mul h2 hst.1
    have a2 : s.height * max (UInt8.ofNat s.stretch.2).toNat 1 ≤ 24 * 3 := Nat.mul_le_mul h3 hst.2
    have a3 := Nat.mul_le_mul a1 a2
    simp only [bitImageGraphics, h1, if_true, bind_ok, pure_ok, imageFromColumn] at h
    obtain ⟨g, ⟨x, _, e⟩, rfl⟩ := h
    intro g' hg'; cases hg'
    intro i ei
    subst ei
    rcases imageFromRaster_sized e with ⟨j, ej, _, b, d, _⟩ | ⟨m, ej, _⟩
    · cases ej
      rw [b, d]
      refine ⟨by simp only [U32]; omega, fun D => ⟨Nat.mul_pos (hd D).1 (by omega), Nat.mul_pos (hd D).2 (by omega)⟩⟩
    · cases ej
  · obtain ⟨b1, b2, b3, b4⟩ := stretch_cases s.scaling
    have m1 : max (rasterStretch s.scaling).1.toNat 1 = (rasterStretch s.scaling).1.toNat := by omega
    have m2 : max (rasterStretch s.scaling).2.toNat 1 = (rasterStretch s.scaling).2.toNat := by omega
    simp only [rasterGraphics, bind_ok, pure_ok] at h
    obtain ⟨g, e, rfl⟩ := h
    intro g' hg'; cases hg'
    intro i ei
    subst ei
    rcases imageFromRaster_sized e with ⟨j, ej, _, b, d, _⟩ | ⟨m, ej, _⟩
    · cases ej
      rw [b, d, m1, m2]
      exact ⟨ht, fun D => ⟨Nat.mul_pos (hd D).1 (by omega), Nat.mul_pos (hd D).2 (by omega)⟩⟩
    · cases ej
  · exact absurd hk (hns s)

theorem processCommand_snug {ext : Ext} {n : Bool} {D : Prop} {cmd : Command} {r r' : Recording} (h : processCommand recorder ext r cmd = .ok r')
    (ht : Tame n cmd) (hs : ShapeOk cmd) (hst : cmd.standard) (hd : D → cmd.dotted) (hr : ∀ x ∈ r.child, Snug (Sized D) x) :
    ∀ x ∈ r'.child, Snug (Sized D) x := by
  have h1 := hst.2.2.1
  have h2 := hst.2.2.2.1
  have hsub : cmd.kind ≠ .control → ∀ s, cmd.handler ≠ .sub s := by
    intro hk s e
    unfold ShapeOk at hs
    rw [e] at hs
    exact hk hs
  unfold processCommand at h
  rcases hc : cmd.kind <;> rw [hc] at h hsub <;> dsimp only at h
  case graphics =>
    simp only [bind_ok] at h
    obtain ⟨r1, a1, g, a2, r2, a3, o, a4, a5⟩ := h
    exact deviceCommands_snug a5 (getDevice_wordy a4 h1 h2)
      (processGraphicsOpt_snug (getGraphics_small a2 ht hs (hsub (by decide)) hst hd) (processText_snug a1 hr) a3)
  case unknown =>
    simp only [bind_ok, pure_ok] at h
    obtain ⟨r1, a1, rfl⟩ := h
    have := processText_snug a1 hr
    exact this
  case text =>
    simp only [bind_ok] at h
    obtain ⟨o, _, h⟩ := h
    split at h
    · rw [pure_ok] at h; subst h; exact hr
    · rw [pure_ok] at h; subst h; exact hr
  case context =>
    simp only [bind_ok, pure_ok] at h
    obtain ⟨r1, a1, _, _, rfl⟩ := h
    have := processText_snug a1 hr
    exact this
  case contextControl =>
    simp only [bind_ok] at h
    obtain ⟨r1, a1, c, _, o, a2, a3⟩ := h
    have := processText_snug a1 hr
    exact deviceCommands_snug a3 (getDevice_wordy a2 h1 h2) this
  case control =>
    simp only [bind_ok] at h
    obtain ⟨r1, a1, o, a2, a3⟩ := h
    first
    | exact deviceCommands_snug a3 (getDevice_wordy a2 h1 h2) (processText_snug a1 hr)
    | exact deviceCommands_snug a3 (getDevice_wordy a1 h1 h2) (processText_snug a2 hr)
  case textStyle =>
    simp only [bind_ok] at h
    obtain ⟨c, _, o, a2, a3⟩ := h
    exact deviceCommands_snug a3 (getDevice_wordy a2 h1 h2) hr
  case subcommand => rw [pure_ok] at h; subst h; exact hr

theorem processCommands_snug {ext : Ext} {n : Bool} {D : Prop} {cmds : List Command} {r r' : Recording} (h : processCommands recorder ext cmds r = .ok r')
    (ht : ∀ c ∈ cmds, Tame n c) (hs : ∀ c ∈ cmds, ShapeOk c) (hst : ∀ c ∈ cmds, c.standard) (hd : D → ∀ c ∈ cmds, c.dotted) (hr : ∀ x ∈ r.child, Snug (Sized D) x) :
    ∀ x ∈ r'.child, Snug (Sized D) x := by
  induction cmds generalizing r with
  | nil => simp only [processCommands, ok_ok] at h; subst h; exact hr
  | cons c cmds ih =>
    simp only [processCommands, bind_ok] at h
    obtain ⟨r1, h1, h2⟩ := h
    exact ih h2 (fun x hx => ht x (by simp [hx])) (fun x hx => hs x (by simp [hx])) (fun x hx => hst x (by simp [hx])) (fun D x hx => hd D x (by simp [hx]))
      (processCommand_snug h1 (ht c (by simp)) (hs c (by simp)) (hst c (by simp)) (fun D => hd D c (by simp)) hr)

theorem render_snug {ext : Ext} {n : Bool} {D : Prop} {bytes : List Byte} {cmds : List Command} {units errs t}
    (h : render recorder ext (Renderer.new []) bytes = .ok (units, errs, t)) (hp : parseEscPos bytes = .ok cmds)
    (ht : ∀ c ∈ cmds, Tame n c) (hst : ∀ c ∈ cmds, c.standard) (hd : D → ∀ c ∈ cmds, c.dotted) : ∀ x ∈ t.child, Snug (Sized D) x := by
  simp only [render, bind_ok, pure_ok] at h
  obtain ⟨cs, b1, r1, b2, b3⟩ := h
  simp only [Prod.mk.injEq] at b3
  obtain ⟨rfl, rfl, rfl⟩ := b3
  rw [hp, ok_ok] at b1
  subst b1
  intro x hxm
  exact processCommands_snug b2 ht (parse_shape hp) hst hd (by simp [Renderer.new]) x hxm

/-- C65, images, by conditions on the print job alone: commands of standard mode, with parameters within what the program handles, that feed less
than about 6 million dots, are drawn to the end: text, styles, barcodes, 2D codes, bit images and raster images.  (With `n` false the bound `reach` for a 2D
code is so coarse that jobs with one are beyond it: jobs with 2D codes are those with `n` true, without characters wider than twice the normal.) -/
theorem C65_image_standard_partial (gs : Canvas.Glyphs) {ext : Ext} (hx : ExtOk ext) {n : Bool} {bytes : List Byte} {cmds : List Command}
    (hp : parseEscPos bytes = .ok cmds) (ht : ∀ c ∈ cmds, Tame n c) (hst : ∀ c ∈ cmds, c.standard)
    (hB : (cmds.map (reach n)).sum + 458752 ≤ 6600000) :
    ∃ outs errs r, render (imageRenderer gs) ext (Renderer.new (ImageRenderer.new {})) bytes = .ok (outs, errs, r) := by
  refine C65_image_short_partial gs hx hp ht (fun c hc => ⟨(hst c hc).1, (hst c hc).2.1⟩) hB ?_
  intro units errs t h x hxm
  have hw := render_snug (D := False) h hp ht hst (fun h => h.elim) x hxm
  exact ⟨fun i e => (hw.1 i e).1, fun k w h e => absurd e (hw.2 k w h)⟩

/-- C65_image_standard_partial, a receipt: centred bold text, a raster image, a bit image, an EAN 8 barcode, right-justified text, a QR code, cut. -/
example : ∃ cmds, parseEscPos ([27, 64, 27, 97, 1, 27, 69, 1, 72, 105, 10, 29, 118, 48, 0, 1, 0, 2, 0, 255, 129, 27, 42, 33, 1, 0, 255, 129, 255] ++
      [29, 107, 68, 8, 52, 57, 48, 49, 50, 51, 52, 55, 27, 97, 2, 72, 105, 10] ++
      [29, 40, 107, 5, 0, 49, 80, 48, 72, 105, 29, 40, 107, 3, 0, 49, 81, 48, 29, 86, 66, 0]) = .ok cmds ∧
    (∀ c ∈ cmds, Tame true c) ∧ (∀ c ∈ cmds, c.standard) ∧ (cmds.map (reach true)).sum + 458752 ≤ 6600000 ∧
    (∃ c ∈ cmds, c.handler = .subUnit .qrPrint) := by
  refine ⟨_, rfl, ?_, ?_, ?_, ?_⟩ <;> decide +kernel

/-- C65, HTML, by conditions on the print job alone: commands of standard mode, with parameters within what the program handles, without empty images,
that feed less than about 2^31 dots, become a web page: text, styles, barcodes, 2D codes, bit images and raster images. -/
theorem C65_html_standard_partial (gs : Canvas.Glyphs) (png : Html.Png) {ext : Ext} (hx : ExtOk ext) {n : Bool} {bytes : List Byte} {cmds : List Command}
    (hp : parseEscPos bytes = .ok cmds) (ht : ∀ c ∈ cmds, Tame n c) (hst : ∀ c ∈ cmds, c.standard) (hd : ∀ c ∈ cmds, c.dotted)
    (hB : (cmds.map (reach n)).sum + 360448 < 2147483648) :
    ∃ outs errs r, render (htmlRenderer gs png) ext (Renderer.new (HtmlRenderer.new {})) bytes = .ok (outs, errs, r) := by
  refine C65_html_partial gs png hx hp ht hB ?_
  intro units errs t h
  obtain ⟨c0, c1, c2, c3, calls, ec, hc⟩ := one_sheet hp (fun c hc => ⟨(hst c hc).1, (hst c hc).2.1⟩) h
  have hw := render_snug (D := True) h hp ht hst (fun _ => hd)
  have hcase : ∀ x ∈ t.child, x.2 = .beginRender ∨ (∃ d, x.2 = .device d) ∨ x.2 = .endRender ∨ Fair Standard Plain x := by
    intro x hxm
    rw [ec] at hxm
    simp only [List.cons_append, List.mem_cons, List.mem_append, List.not_mem_nil, or_false] at hxm
    rcases hxm with rfl | rfl | hxm | rfl | rfl
    · exact .inr (.inl ⟨_, rfl⟩)
    · exact .inl rfl
    · exact .inr (.inr (.inr (hc x hxm)))
    · exact .inr (.inl ⟨_, rfl⟩)
    · exact .inr (.inr (.inl rfl))
  constructor
  · intro x hxm
    have hwx := hw x hxm
    obtain ⟨c, k⟩ := x
    unfold WebRoomy
    cases k <;> dsimp only
    case text =>
      rcases hcase _ hxm with e | ⟨d, e⟩ | e | hf
      · cases e
      · cases e
      · cases e
      · intro e; rw [show c.pageMode.enabled = false from hf.context] at e; cases e
    case graphics =>
      rcases hcase _ hxm with e | ⟨d, e⟩ | e | hf
      · cases e
      · cases e
      · cases e
      · intro e; rw [show c.pageMode.enabled = false from hf.context] at e; cases e
    case image i =>
      rcases hcase _ hxm with e | ⟨d, e⟩ | e | hf
      · cases e
      · cases e
      · cases e
      · rw [show c.pageMode.enabled = false from hf.context]
        exact (hwx.1 i rfl).2 trivial
    case pageAreaChanged k w h => exact absurd rfl (hwx.2 k w h)
  · refine pagesSized_of ?_
    intro k hk e
    obtain ⟨x, hxm, rfl⟩ := List.mem_map.1 hk
    rcases hcase _ hxm with h1 | ⟨d, h1⟩ | h1 | hf
    · rw [e] at h1; cases h1
    · rw [e] at h1; cases h1
    · rw [e] at h1; cases h1
    · obtain ⟨c, k⟩ := x
      dsimp only at e; subst e
      exact absurd rfl (hf.pages rfl).2.2.2

/-- C65_html_standard_partial, a receipt: centred bold text, a raster image, a bit image, an EAN 8 barcode, a QR code, cut. -/
example : ∃ cmds, parseEscPos ([27, 64, 27, 97, 1, 27, 69, 1, 72, 105, 10, 29, 118, 48, 0, 1, 0, 2, 0, 255, 129, 27, 42, 33, 1, 0, 255, 129, 255] ++
      [29, 107, 68, 8, 52, 57, 48, 49, 50, 51, 52, 55, 29, 40, 107, 5, 0, 49, 80, 48, 72, 105, 29, 40, 107, 3, 0, 49, 81, 48, 29, 86, 66, 0]) = .ok cmds ∧
    (∀ c ∈ cmds, Tame false c) ∧ (∀ c ∈ cmds, c.standard) ∧ (∀ c ∈ cmds, c.dotted) ∧ (cmds.map (reach false)).sum + 360448 < 2147483648 := by
  refine ⟨_, rfl, ?_, ?_, ?_, ?_⟩ <;> decide +kernel
end Thermal
