import Verif.Proofs.Dressed
import Verif.Proofs.Touch
import Verif.Proofs.SubLookup
/-
Sizes and colours of the text that any stream prints.
-/
namespace Thermal
variable {ext : Ext}

/-- A printer's inks and paper. -/
def palette : List RGBA := [defaultColors.paperColor, defaultColors.color1, defaultColors.color2, defaultColors.color3]

/-- The sizes of characters. -/
def sizes : List Nat := [1, 2, 3, 4, 5, 6, 7, 8]

/-- The sizes of the character cells of the fonts. -/
def cells : List (Nat × Nat) := [(12, 24), (9, 17)]

/-- Not a barcode. -/
def NoBars : GraphicsCommand → Prop
  | .barcode _ => False
  | _ => True

theorem imageFromRaster_noBars {w h st col flow data b g} (e : imageFromRaster w h st col flow data b = .ok g) : NoBars g := by
  unfold imageFromRaster at e
  dsimp only at e
  generalize (if b = true then unpackBytes data w h else data) = u at e
  simp only [bind_ok] at e
  obtain ⟨size, _, e⟩ := e
  by_cases h1 : u.length ≠ size
  · rw [if_pos h1, pure_ok] at e; subst e; trivial
  · rw [if_neg h1] at e
    split at e
    · simp only [bind_ok, pure_ok] at e
      obtain ⟨x, _, rfl⟩ := e; trivial
    · simp only [bind_ok, pure_ok] at e
      obtain ⟨x, _, rfl⟩ := e; trivial

theorem imageFromColumn_noBars {w h st col flow data g} (e : imageFromColumn w h st col flow data = .ok g) : NoBars g := by
  simp only [imageFromColumn, bind_ok] at e
  obtain ⟨x, _, e⟩ := e
  exact imageFromRaster_noBars e

theorem imageFromRasterMulti_noBars {w h st n cs flow data b g} (e : imageFromRasterMulti w h st n cs flow data b = .ok g) : NoBars g := by
  unfold imageFromRasterMulti at e
  dsimp only at e
  generalize (if b = true then w / 8 * h + 1 else w * h + 1) = u at e
  by_cases h1 : data.length ≠ u * n.toNat
  · rw [if_pos h1, pure_ok] at e; subst e; trivial
  · rw [if_neg h1] at e
    simp only [bind_ok] at e
    obtain ⟨x, _, e⟩ := e
    split at e
    · rw [pure_ok] at e; subst e; trivial
    · simp only [bind_ok] at e
      obtain ⟨y, _, e⟩ := e
      split at e <;> (rw [pure_ok] at e; subst e; trivial)

/-- Text settings that occur. -/
structure Outfit (c : Context) : Prop where
  width : c.text.widthMult.toNat ∈ sizes
  height : c.text.heightMult.toNat ∈ sizes
  color : c.text.color ∈ palette
  background : c.text.backgroundColor ∈ palette
  colors : c.graphics.renderColors = defaultColors
  stored : ∀ p ∈ c.graphics.storedGraphics, NoBars p.2
  default : c.default = some defaultSettings
  cell : (c.text.characterWidth.toNat, c.text.characterHeight.toNat) ∈ cells

namespace Outfit

theorem start : Outfit Context.new :=
  ⟨by decide, by decide, by decide, by decide, rfl, (by intro p hp; exact absurd hp List.not_mem_nil), rfl, (by decide)⟩

theorem of_only {fs : List Setting} {c c' : Context} (h : OnlyChanges fs c c')
    (hf : ∀ f ∈ [Setting.widthMult, .heightMult, .color, .backgroundColor, .renderColors, .storedGraphics, .defaults, .characterWidth, .characterHeight], f ∉ fs) (hc : Outfit c) :
    Outfit c' := by
  have e1 : c'.text.widthMult = c.text.widthMult := h _ (hf .widthMult (by decide))
  have e2 : c'.text.heightMult = c.text.heightMult := h _ (hf .heightMult (by decide))
  have e3 : c'.text.color = c.text.color := h _ (hf .color (by decide))
  have e4 : c'.text.backgroundColor = c.text.backgroundColor := h _ (hf .backgroundColor (by decide))
  have e5 : c'.graphics.renderColors = c.graphics.renderColors := h _ (hf .renderColors (by decide))
  have e6 : c'.graphics.storedGraphics = c.graphics.storedGraphics := h _ (hf .storedGraphics (by decide))
  have e7 : c'.default = c.default := h _ (hf .defaults (by decide))
  have e8 : c'.text.characterWidth = c.text.characterWidth := h _ (hf .characterWidth (by decide))
  have e9 : c'.text.characterHeight = c.text.characterHeight := h _ (hf .characterHeight (by decide))
  exact ⟨e1 ▸ hc.width, e2 ▸ hc.height, e3 ▸ hc.color, e4 ▸ hc.background, e5.trans hc.colors, e6 ▸ hc.stored, e7.trans hc.default, by rw [e8, e9]; exact hc.cell⟩

theorem pen {c c' : Context} (h : PenDown c c') (hc : Outfit c) : Outfit c' := of_only h.only (by decide) hc

/-- The sizes device commands set. -/
def Sized : DeviceCommand → Prop
  | .setTextWidth w => w.toNat ∈ sizes
  | .setTextHeight w => w.toNat ∈ sizes
  | _ => True

theorem getDevice_sized {cmd : Command} {c : Context} {o} (h : getDevice cmd c = .ok o) : ∀ d ∈ o.getD [], Sized d := by
  have key : ∀ n : Byte, (parseStretch n).1.toNat ∈ sizes ∧ (parseStretch n).2.toNat ∈ sizes := byte_all (by decide +kernel)
  unfold getDevice at h
  split at h
  · rename_i id _
    cases id <;> simp only [getDeviceUnit, pure_ok] at h
    case feedAndCut =>
      repeat' split at h
      all_goals (rw [pure_ok] at h; subst h; simp [Sized])
    case formfeed => split at h <;> (rw [pure_ok] at h; subst h; simp [Sized])
    case pageModePrintData => split at h <;> (rw [pure_ok] at h; subst h; simp [Sized])
    case selectStandardMode => split at h <;> (rw [pure_ok] at h; subst h; simp [Sized])
    case setTabLen => simp only [bind_ok, pure_ok] at h; obtain ⟨_, _, rfl⟩ := h; simp [Sized]
    case setCharacterSize =>
      subst h
      intro d hd
      rcases List.mem_cons.1 hd with rfl | hd
      · exact (key _).1
      rcases List.mem_cons.1 hd with rfl | hd
      · exact (key _).2
      · cases hd
    all_goals (subst h; simp [Sized])
  · rw [pure_ok] at h; subst h; simp [Sized]
  · rw [pure_ok] at h; subst h; simp

theorem device {d : DeviceCommand} {c c' : Context} (hd : Sized d) (h : Renderer.deviceContext d c = .ok c') (hc : Outfit c) : Outfit c' := by
  by_cases h1 : ∃ w, d = .setTextWidth w
  · obtain ⟨w, rfl⟩ := h1
    simp only [Renderer.deviceContext, ok_ok] at h; subst h
    exact ⟨hd, hc.height, hc.color, hc.background, hc.colors, hc.stored, hc.default, hc.cell⟩
  by_cases h2 : ∃ w, d = .setTextHeight w
  · obtain ⟨w, rfl⟩ := h2
    simp only [Renderer.deviceContext, ok_ok] at h; subst h
    exact ⟨hc.width, hd, hc.color, hc.background, hc.colors, hc.stored, hc.default, hc.cell⟩
  refine of_only (deviceContext_only h) ?_ hc
  cases d
  case setTextWidth w => exact absurd ⟨w, rfl⟩ h1
  case setTextHeight w => exact absurd ⟨w, rfl⟩ h2
  all_goals (simp only [deviceWrites]; decide)

theorem colorFor {c : Context} (hc : Outfit c) (n : Byte) : c.graphics.renderColors.colorFor n ∈ palette := by
  rw [hc.colors]
  exact byte_all (P := fun n => defaultColors.colorFor n ∈ palette) (by decide +kernel) n

theorem put {c : Context} (hc : Outfit c) {k : ImageRef} {g : GraphicsCommand} (hg : NoBars g) :
    Outfit (c.modGraphics fun x => { x with storedGraphics := x.storedGraphics.insert k g }) := by
  refine ⟨hc.width, hc.height, hc.color, hc.background, hc.colors, ?_, hc.default, hc.cell⟩
  intro p hp
  rcases List.mem_cons.1 hp with rfl | hp
  · exact hg
  · exact hc.stored p (List.mem_filter.1 hp).1

theorem drop {c : Context} (hc : Outfit c) {f : ImageRef × GraphicsCommand → Bool} :
    Outfit (c.modGraphics fun x => { x with storedGraphics := x.storedGraphics.filter f }) :=
  ⟨hc.width, hc.height, hc.color, hc.background, hc.colors, fun p hp => hc.stored p (List.mem_filter.1 hp).1, hc.default, hc.cell⟩

theorem defineRaster {st data} {c c' : Context} (h : applyDefineRaster st data c = .ok c') (hc : Outfit c) : Outfit c' := by
  unfold applyDefineRaster at h
  split at h
  · rw [pure_ok] at h; subst h; exact hc
  · simp only [bind_ok, pure_ok] at h
    obtain ⟨g, h1, rfl⟩ := h
    exact hc.put (imageFromRasterMulti_noBars h1)

theorem defineColumn {st data} {c c' : Context} (h : applyDefineColumn st data c = .ok c') (hc : Outfit c) : Outfit c' := by
  simp only [applyDefineColumn, bind_ok, pure_ok] at h
  obtain ⟨_, _, _, _, _, _, _, _, _, _, g, h1, rfl⟩ := h
  exact hc.put (imageFromRasterMulti_noBars h1)

theorem sub {id : SubId} {data : List Byte} {c c' : Context} (h : applySub ext id data c = .ok c') (hc : Outfit c) : Outfit c' := by
  have key : ∀ id : SubId, (.storedGraphics ∉ subWrites id) →
      ∀ f ∈ [Setting.widthMult, .heightMult, .color, .backgroundColor, .renderColors, .storedGraphics, .defaults, .characterWidth, .characterHeight], f ∉ subWrites id := by
    intro id; cases id <;> decide
  by_cases hs : .storedGraphics ∉ subWrites id
  · exact of_only (applySub_only h) (key id hs) hc
  · cases id
    case clearAllDownload => simp only [applySub, pure_ok] at h; subst h; exact hc.drop
    case clearAllNv => simp only [applySub, pure_ok] at h; subst h; exact hc.drop
    case clearDownload =>
      simp only [applySub] at h
      split at h <;> (rw [pure_ok] at h; subst h)
      · exact hc.drop
      · exact hc
    case clearNv =>
      simp only [applySub] at h
      split at h <;> (rw [pure_ok] at h; subst h)
      · exact hc.drop
      · exact hc
    case defineDownloadColumn => simp only [applySub] at h; exact defineColumn h hc
    case defineDownloadRaster => simp only [applySub] at h; exact defineRaster h hc
    case defineNvColumn => simp only [applySub] at h; exact defineColumn h hc
    case defineNvRaster => simp only [applySub] at h; exact defineRaster h hc
    all_goals exact absurd (by decide) hs

theorem apply {cmd : Command} {c c' : Context} (h : applyContext ext cmd c = .ok c') (hc : Outfit c) : Outfit c' := by
  have pal : ∀ (p : Prop) [Decidable p] (a b : RGBA), a ∈ palette → b ∈ palette → (if p then a else b) ∈ palette := by
    intro p _ a b ha hb; split <;> assumption
  have fonts : ∀ f : Font, (f.toSize.1.toNat, f.toSize.2.toNat) ∈ cells := by intro f; cases f <;> decide
  have two : ∀ b : Bool, (if b = true then (2 : Byte) else 1).toNat ∈ sizes := by decide
  have c1 : c.graphics.renderColors.color1 ∈ palette := by rw [hc.colors]; decide
  have c2 : c.graphics.renderColors.color2 ∈ palette := by rw [hc.colors]; decide
  have c0 : c.graphics.renderColors.paperColor ∈ palette := by rw [hc.colors]; decide
  unfold applyContext at h
  split at h
  · rename_i id _
    have key : ∀ id : Hid, id ≠ .initialize → id ≠ .setAltColor → id ≠ .setBlackWhiteInvert → id ≠ .setPrintMode → id ≠ .setFont →
        ∀ f ∈ [Setting.widthMult, .heightMult, .color, .backgroundColor, .renderColors, .storedGraphics, .defaults, .characterWidth, .characterHeight], f ∉ applyWrites id := by
      intro id; cases id <;> decide
    by_cases h1 : id = .initialize
    · subst h1
      simp only [applyUnit, pure_ok] at h
      subst h
      simp only [Context.reset, hc.default]
      exact ⟨(by decide : defaultSettings.text.widthMult.toNat ∈ sizes), (by decide : defaultSettings.text.heightMult.toNat ∈ sizes),
        (by decide : defaultSettings.text.color ∈ palette), (by decide : defaultSettings.text.backgroundColor ∈ palette), rfl,
        (by intro p hp; exact absurd hp List.not_mem_nil), rfl,
        (by decide : (defaultSettings.text.characterWidth.toNat, defaultSettings.text.characterHeight.toNat) ∈ cells)⟩
    by_cases h2 : id = .setAltColor
    · subst h2
      simp only [applyUnit, pure_ok] at h
      subst h
      exact ⟨hc.width, hc.height, pal _ _ _ c2 c1, hc.background, hc.colors, hc.stored, hc.default, hc.cell⟩
    by_cases h3 : id = .setBlackWhiteInvert
    · subst h3
      simp only [applyUnit, pure_ok] at h
      subst h
      exact ⟨hc.width, hc.height, pal _ _ _ c0 c1, pal _ _ _ c1 c0, hc.colors, hc.stored, hc.default, hc.cell⟩
    by_cases h4 : id = .setPrintMode
    · subst h4
      simp only [applyUnit, pure_ok] at h
      subst h
      exact ⟨two _, two _, hc.color, hc.background, hc.colors, hc.stored, hc.default, fonts _⟩
    by_cases h5 : id = .setFont
    · subst h5
      simp only [applyUnit, pure_ok] at h
      subst h
      exact ⟨hc.width, hc.height, hc.color, hc.background, hc.colors, hc.stored, hc.default, fonts _⟩
    exact of_only (applyUnit_only h) (key id h1 h2 h3 h4 h5) hc
  · exact sub h hc
  · rw [pure_ok] at h; subst h
    unfold applyCharEffects
    dsimp only
    repeat' split
    · exact hc
    · exact ⟨hc.width, hc.height, hc.colorFor _, hc.background, hc.colors, hc.stored, hc.default, hc.cell⟩
    · exact ⟨hc.width, hc.height, hc.color, hc.colorFor _, hc.colors, hc.stored, hc.default, hc.cell⟩
    · exact ⟨hc.width, hc.height, hc.color, hc.background, hc.colors, hc.stored, hc.default, hc.cell⟩
    · exact hc
  · split at h
    · exact sub h hc
    · rw [pure_ok] at h; subst h; exact hc
  · rw [pure_ok] at h; subst h; exact hc

/-- The same of a piece of text. -/
structure Span (t : TextSpan) : Prop where
  width : t.stretchWidth ∈ sizes
  height : t.stretchHeight ∈ sizes
  color : t.textColor ∈ palette
  background : t.backgroundColor ∈ palette
  cell : (t.baseCharacterWidth, t.baseCharacterHeight) ∈ cells
  wide : t.characterWidth = t.baseCharacterWidth * t.stretchWidth
  high : t.characterHeight = t.baseCharacterHeight * t.stretchHeight

theorem ofLook : OfLook Span := fun _ _ _ h => ⟨h.1, h.2, h.3, h.4, h.5, h.6, h.7⟩

theorem new {c : Context} (hc : Outfit c) (s : Str) : Span (TextSpan.new s c) := ⟨hc.width, hc.height, hc.color, hc.background, hc.cell, rfl, rfl⟩

theorem stored_get {c : Context} (hc : Outfit c) {k : ImageRef} {b} (h : c.graphics.storedGraphics.get k = some (.barcode b)) : False := by
  unfold GraphicsMap.get at h
  rcases hf : c.graphics.storedGraphics.find? fun e => e.1 = k with _ | p
  · rw [hf] at h; cases h
  · rw [hf] at h
    have := hc.stored p (List.mem_of_find?_eq_some hf)
    rw [show p.2 = .barcode b from Option.some.inj h] at this
    exact this

theorem subGraphics_noBars {id data} {c : Context} (hc : Outfit c) {b} (h : subGraphics id data c = .ok (some (.barcode b))) : False := by
  cases id <;> simp only [subGraphics, pure_ok, reduceCtorEq, Option.map_eq_some_iff, and_false, exists_false] at h
  case printBuffer =>
    unfold printBufferGraphics at h
    split at h
    · rename_i g hb
      rw [pure_ok, Option.some.injEq] at h
      subst h
      generalize c.graphics.bufferGraphics = l at hb
      induction l with
      | nil => cases hb
      | cons x l ih =>
        cases x <;> simp only [bufferLayers, Except.error.injEq, reduceCtorEq] at hb
        all_goals first | exact ih hb | skip
        all_goals
          cases hl : bufferLayers l with
          | error e => rw [hl] at hb; cases hb; exact ih hl
          | ok e => rw [hl] at hb; cases hb
    · rw [pure_ok] at h; cases h
    · simp only [bind_ok] at h
      obtain ⟨y, _, h⟩ := h
      split at h <;> (rw [pure_ok] at h; cases h)
  case printDownload =>
    rcases hk : ImageRef.fromData data .ram with _ | k
    · rw [hk] at h; cases h
    · rw [hk] at h; exact stored_get hc h
  case printNv =>
    rcases hk : ImageRef.fromData data .disc with _ | k
    · rw [hk] at h; cases h
    · rw [hk] at h; exact stored_get hc h
  case qrPrint =>
    split at h <;> (rw [pure_ok] at h; cases h)

theorem caption {cmd : Command} {c : Context} {b} (hc : Outfit c) (h : getGraphics ext cmd c = .ok (some (.barcode b))) : Span b.text := by
  have res : ∀ {s data text} {r : Except Str (List Byte)}, barcodeResult s data c text r = .barcode b → Span b.text := by
    intro s data text r e
    unfold barcodeResult at e
    split at e
    · cases e; exact ⟨hc.width, hc.height, hc.color, hc.background, hc.cell, rfl, rfl⟩
    · cases e
  unfold getGraphics at h
  split at h
  · exact (subGraphics_noBars hc h).elim
  · unfold barcodeGraphics at h
    dsimp only at h
    split at h
    · rw [pure_ok] at h; cases h
    · split at h
      all_goals try (rw [pure_ok, Option.some.injEq] at h; exact res h)
      · simp only [bind_ok, pure_ok, Option.some.injEq] at h
        obtain ⟨_, _, h⟩ := h; exact res h
      · simp only [bind_ok] at h
        obtain ⟨u, _, h⟩ := h
        split at h
        · simp only [bind_ok, pure_ok, Option.some.injEq] at h
          obtain ⟨_, _, h⟩ := h; exact res h
        · rw [pure_ok] at h; cases h
      · rw [pure_ok] at h; cases h
  · unfold bitImageGraphics at h
    dsimp only at h
    split at h
    · simp only [bind_ok, pure_ok, Option.some.injEq] at h
      obtain ⟨g, h1, rfl⟩ := h
      exact (imageFromColumn_noBars h1).elim
    · simp only [bind_ok, pure_ok, Option.some.injEq] at h
      obtain ⟨g, h1, rfl⟩ := h
      exact (imageFromRaster_noBars h1).elim
  · simp only [rasterGraphics, bind_ok, pure_ok, Option.some.injEq] at h
    obtain ⟨g, h1, rfl⟩ := h
    exact (imageFromRaster_noBars h1).elim
  · split at h
    · exact (subGraphics_noBars hc h).elim
    · rw [pure_ok] at h; cases h
  · rw [pure_ok] at h; cases h

end Outfit

/-- Whatever is printed, characters are 1 to 8 times as wide and high as usual and have the colours of the inks and the paper. -/
theorem render_outfit {bytes : List Byte} {outs errs} {t : Renderer.Recording}
    (h : Renderer.render recorder ext (Renderer.new []) bytes = .ok (outs, errs, t)) : ∀ x ∈ t.child, x.2.Wears Outfit.Span := by
  simp only [Renderer.render, bind_ok, pure_ok] at h
  obtain ⟨cmds, h1, r1, h2, h3⟩ := h
  simp only [Prod.mk.injEq] at h3
  obtain ⟨rfl, rfl, rfl⟩ := h3
  exact (Renderer.processCommands_dressed Outfit.ofLook Outfit.pen Outfit.new Outfit.caption Outfit.device
    (fun _ _ _ _ => Outfit.getDevice_sized) Outfit.apply (r := Renderer.new []) ⟨Outfit.start, by simp [Renderer.new], by simp [Renderer.new]⟩ h2).calls

end Thermal
