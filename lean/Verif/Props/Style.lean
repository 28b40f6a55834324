import Verif.Proofs.Style
import Verif.Proofs.CallContexts
import Verif.Spec.Silent
/-
C70: the style commands do what the command reference says.
-/
namespace Thermal
open Renderer Spec
variable {σ Out : Type} {R : OutputRenderer σ Out} {ext : Ext}

/-- C70. Whatever is printed, after each command of the stream the printer has exactly the style that the reference documents
for the commands so far.  Missing: commands this program treats differently (`Style.deviates`, and see `C70_deviations`). -/
theorem C70_style_partial {bytes : List Byte} {done rest : List Command} (hp : parseEscPos bytes = .ok (done ++ rest))
    (hd : Style.initial.conforms done) {s : σ} {r : Renderer σ Out} (h : processCommands R ext done (Renderer.new s) = .ok r) :
    styleOf r.context = Style.initial.after done :=
  (styled_steps (fun c hc => parse_known hp c (by simp [hc])) (by exact Styled.start) hd h).style

/-- `ESC E 1`, `GS ! 0x21`, `ESC a 1`, `ESC r 1`, `GS w 4`, text, `ESC E 0`: the reference and the program agree. -/
example : ∃ cmds, parseEscPos [27, 69, 1, 29, 33, 33, 27, 97, 1, 27, 114, 1, 29, 119, 4, 72, 105, 27, 69, 0, 10] = .ok cmds ∧
    Style.initial.conforms cmds ∧ (Style.initial.after cmds).widthTimes = 3 ∧ (Style.initial.after cmds).heightTimes = 2 ∧
    (Style.initial.after cmds).justify = .center ∧ (Style.initial.after cmds).bold = false ∧
    (Style.initial.after cmds).barcodeWidth = 4 ∧ (Style.initial.after cmds).color = inkOf 2 := by
  refine ⟨_, rfl, ?_, ?_⟩
  · decide +kernel
  · decide +kernel

/-- The style after a stream, according to the program. -/
def styleAfter (bytes : List Byte) : Option Style :=
  match render recorder noExt (Renderer.new []) bytes with
  | .ok (_, _, r) => some (styleOf r.context)
  | .error _ => none

/-- C70 fails for: `ESC ! 0x80` does not underline and `ESC ! 0x40` does; `ESC G 1 ESC G 0` leaves the text struck through;
`GS B 3` does not reverse; `GS w 0` changes the module width; `GS ( N` with "no colour" selects colour 1. -/
theorem C70_deviations :
    (styleAfter [27, 33, 128]).map (·.underline) = some .off ∧ (styleAfter [27, 33, 64]).map (·.underline) = some .on ∧
    (styleAfter [27, 71, 1, 27, 71, 0]).map (·.doubleStrike) = some true ∧
    (styleAfter [29, 66, 3]).map (·.reversed) = some false ∧
    (styleAfter [29, 119, 0]).map (·.barcodeWidth) = some 2 ∧
    (styleAfter [29, 40, 78, 2, 0, 48, 48]).map (·.color) = some (inkOf 1) := by decide +kernel

/-- What holds of the module width and the resolution whatever is printed. -/
structure Limits (c : Context) : Prop where
  width : 2 ≤ c.barcode.width.toNat ∧ c.barcode.width.toNat ≤ 6
  dpi : c.graphics.dotsPerInch = 203 ∨ c.graphics.dotsPerInch = 180 ∨ c.graphics.dotsPerInch = 360
  default : c.default = some defaultSettings

namespace Limits

theorem start : Limits Context.new := ⟨by decide, by decide, rfl⟩

theorem of_only {fs : List Setting} {c c' : Context} (h : OnlyChanges fs c c') (h1 : Setting.barcodeWidth ∉ fs)
    (h2 : Setting.dotsPerInch ∉ fs) (h3 : Setting.defaults ∉ fs) (hc : Limits c) : Limits c' := by
  have e1 : c'.barcode.width = c.barcode.width := h _ h1
  have e2 : c'.graphics.dotsPerInch = c.graphics.dotsPerInch := h _ h2
  exact ⟨e1 ▸ hc.width, e2 ▸ hc.dpi, (h _ h3).trans hc.default⟩

theorem pen {c c' : Context} (h : PenDown c c') (hc : Limits c) : Limits c' :=
  of_only h.only (by decide) (by decide) (by decide) hc

theorem device {d : DeviceCommand} {c c' : Context} (h : deviceContext d c = .ok c') (hc : Limits c) : Limits c' := by
  have key : ∀ f ∈ [Setting.barcodeWidth, .dotsPerInch, .defaults], f ∉ deviceWrites d := by
    cases d <;> (simp only [deviceWrites]; decide)
  exact of_only (deviceContext_only h) (key _ (by decide)) (key _ (by decide)) (key _ (by decide)) hc

theorem density {data : List Byte} {c : Context} (hc : Limits c) : Limits (applyDotDensity data c) := by
  unfold applyDotDensity
  dsimp only
  split
  · exact ⟨hc.width, .inr (.inl rfl), hc.default⟩
  · split
    · exact ⟨hc.width, .inr (.inr rfl), hc.default⟩
    · exact hc

theorem applyWidth {data : List Byte} {c : Context} (hc : Limits c) : Limits (applyBarcodeWidth data c) := by
  have key : ∀ b : Byte, ¬ (if b < 2 then 2 else b) > 6 → 2 ≤ (if b < 2 then (2 : Byte) else b).toNat ∧
      (if b < 2 then (2 : Byte) else b).toNat ≤ 6 := byte_all (by decide +kernel)
  show Limits (if (if getOr data 0 2 < 2 then 2 else getOr data 0 2) > 6 then c
    else c.modBarcode fun b => { b with width := if getOr data 0 2 < 2 then 2 else getOr data 0 2 })
  by_cases h : (if getOr data 0 2 < 2 then 2 else getOr data 0 2) > 6
  · rw [if_pos h]; exact hc
  · rw [if_neg h]; exact ⟨key _ h, hc.dpi, hc.default⟩

theorem sub {id : SubId} {data : List Byte} {c c' : Context} (h : applySub ext id data c = .ok c') (hc : Limits c) : Limits c' := by
  by_cases hi : id = .setDotDensity
  · subst hi
    simp only [applySub, pure_ok] at h
    subst h
    exact density hc
  · have key : ∀ id : SubId, id ≠ .setDotDensity → ∀ f ∈ [Setting.barcodeWidth, .dotsPerInch, .defaults], f ∉ subWrites id := by
      intro id; cases id <;> decide
    exact of_only (applySub_only h) (key _ hi _ (by decide)) (key _ hi _ (by decide)) (key _ hi _ (by decide)) hc

theorem apply {cmd : Command} {c c' : Context} (h : applyContext ext cmd c = .ok c') (hc : Limits c) : Limits c' := by
  unfold applyContext at h
  split at h
  · rename_i id _
    by_cases h1 : id = .initialize
    · subst h1
      simp only [applyUnit, pure_ok] at h
      subst h
      simp only [Context.reset, hc.default]
      exact ⟨(by decide : 2 ≤ defaultSettings.barcode.width.toNat ∧ defaultSettings.barcode.width.toNat ≤ 6), .inl rfl, rfl⟩
    · by_cases h2 : id = .setBarcodeWidth
      · subst h2
        simp only [applyUnit, pure_ok] at h
        subst h
        exact applyWidth hc
      · have key : ∀ id : Hid, id ≠ .initialize → id ≠ .setBarcodeWidth →
            ∀ f ∈ [Setting.barcodeWidth, .dotsPerInch, .defaults], f ∉ applyWrites id := by
          intro id; cases id <;> decide
        exact of_only (applyUnit_only h) (key _ h1 h2 _ (by decide)) (key _ h1 h2 _ (by decide)) (key _ h1 h2 _ (by decide)) hc
  · exact sub h hc
  · rw [pure_ok] at h; subst h
    have := applyContext_only (ext := ext) (cmd := ⟨"", [], cmd.data, .textStyle, .custom, .charEffects 2⟩) (c := c) (c' := applyCharEffects cmd.data c) rfl
    have : OnlyChanges [.color, .backgroundColor, .shadowColor, .shadow] c (applyCharEffects cmd.data c) := this
    exact of_only this (by decide) (by decide) (by decide) hc
  · split at h
    · exact sub h hc
    · rw [pure_ok] at h; subst h; exact hc
  · rw [pure_ok] at h; subst h; exact hc

end Limits

/-- C70. Whatever is printed, at every call to the output renderer the modules of barcodes are 2 to 6 dots wide and the
resolution is one of 180, 203 and 360 dots per inch. -/
theorem C70_limits {bytes : List Byte} {units errs} {r : Renderer (List (Context × Call)) Unit}
    (h : render recorder ext (Renderer.new []) bytes = .ok (units, errs, r)) (x : Context × Call) (hx : x ∈ r.child) :
    2 ≤ x.1.barcode.width.toNat ∧ x.1.barcode.width.toNat ≤ 6 ∧
      (x.1.graphics.dotsPerInch = 203 ∨ x.1.graphics.dotsPerInch = 180 ∨ x.1.graphics.dotsPerInch = 360) := by
  simp only [render, bind_ok, pure_ok] at h
  obtain ⟨cmds, h1, r1, h2, h3⟩ := h
  simp only [Prod.mk.injEq] at h3
  obtain ⟨rfl, rfl, rfl⟩ := h3
  have ha := processCommands_always (J := Limits) Limits.pen Limits.device Limits.apply (r := Renderer.new [])
    ⟨Limits.start, by simp [Renderer.new]⟩ h2
  have := ha.2 x hx
  exact ⟨this.width.1, this.width.2, this.dpi⟩

end Thermal
