import Verif.Proofs.History
import Verif.Spec.Settings
/-
Which settings the handlers change.
-/
namespace Thermal

namespace OnlyChanges

theorem refl (fs) (c : Context) : OnlyChanges fs c c := by
  intro f _; cases f <;> rfl

theorem trans {fs : List Setting} {a b c : Context} (h1 : OnlyChanges fs a b) (h2 : OnlyChanges fs b c) : OnlyChanges fs a c := by
  intro f hf
  have x := h1 f hf
  have y := h2 f hf
  cases f <;> simp only [Setting.same] at x y ⊢ <;> exact y.trans x

theorem mono {fs gs : List Setting} (h : ∀ f ∈ fs, f ∈ gs) {c c' : Context} (h1 : OnlyChanges fs c c') : OnlyChanges gs c c' :=
  fun f hf => h1 f (fun hm => hf (h f hm))

end OnlyChanges

theorem PenDown.only {c c' : Context} (h : PenDown c c') : OnlyChanges penSettings c c' := by
  obtain ⟨_, _, _, _, rfl, _⟩ := h
  intro f hf
  cases f <;> first | rfl | exact absurd (by decide) hf

/-- The settings changed by `apply_context` of a handler. -/
def applyWrites : Hid → List Setting
  | .defaultLineSpacing => [.lineSpacing]
  | .initialize => resettable
  | .offsetVerticalPos => [.pageY]
  | .pageModePrintArea => [.logicalArea]
  | .pageModePrintDirection => [.direction, .previousDirection]
  | .selectStandardMode => [.pageEnabled]
  | .setAltColor => [.color]
  | .setBarcodeFont => [.barcodeFont]
  | .setBarcodeHeight => [.barcodeHeight]
  | .setBarcodeHri => [.barcodeHumanReadable]
  | .setBarcodeWidth => [.barcodeWidth]
  | .setBlackWhiteInvert => [.invert, .color, .backgroundColor]
  | .setCodeTable => [.codeTable, .decoder]
  | .setDoubleStrike => [.strikethrough]
  | .setEmphasis => [.bold]
  | .setFont => [.font, .characterWidth, .characterHeight]
  | .setHorizontalPos => [.paperX, .pageX, .pageY]
  | .setInternationalCharset => [.characterSet, .decoder]
  | .setItalic => [.italic]
  | .setLineSpacing => [.lineSpacing]
  | .setMotionUnits => [.hMotionUnit, .vMotionUnit]
  | .setPrintMode => [.font, .characterWidth, .characterHeight, .bold, .widthMult, .heightMult, .underline]
  | .setSmoothing => [.smoothing]
  | .setUnderline => [.underline]
  | .setUpsideDown => [.upsideDown]
  | .setVerticalPos => [.pageX, .pageY]
  | _ => []

macro "touch" : tactic => `(tactic| (intro f hf; cases f <;> first | rfl | exact absurd (by decide) hf))

theorem setXAbsolute_only {c c' : Context} {x} (h : c.setXAbsolute x = .ok c') : OnlyChanges [.paperX, .pageX, .pageY] c c' := by
  simp only [Context.setXAbsolute, bind_ok] at h
  obtain ⟨v, _, h⟩ := h
  split at h
  · simp only [bind_ok, pure_ok] at h
    obtain ⟨p, hp, rfl⟩ := h
    unfold PageModeContext.setXAbsolute at hp
    split at hp <;> simp only [bind_ok, pure_ok] at hp
    · obtain ⟨_, _, rfl⟩ := hp; touch
    · obtain ⟨_, _, rfl⟩ := hp; touch
    · subst hp; touch
    · obtain ⟨_, _, rfl⟩ := hp; touch
  · rename_i hc
    rw [pure_ok] at h; subst h
    unfold Context.putX
    rw [if_neg hc]
    touch

theorem setYAbsolute_only {c c' : Context} {x} (he : c.pageMode.enabled = true) (h : c.setYAbsolute x = .ok c') :
    OnlyChanges [.pageX, .pageY] c c' := by
  simp only [Context.setYAbsolute, bind_ok] at h
  obtain ⟨v, _, h⟩ := h
  rw [if_pos he] at h
  simp only [bind_ok, pure_ok] at h
  obtain ⟨p, hp, rfl⟩ := h
  unfold PageModeContext.setYAbsolute at hp
  split at hp <;> simp only [bind_ok, pure_ok] at hp <;> obtain ⟨_, _, rfl⟩ := hp <;> touch

theorem applyUnit_only {id data} {c c' : Context} (h : applyUnit id data c = .ok c') : OnlyChanges (applyWrites id) c c' := by
  cases id <;> simp only [applyUnit] at h <;> (try rw [pure_ok] at h) <;> try (subst h; touch)
  case defaultLineSpacing =>
    split at h <;> (rw [pure_ok] at h; subst h; touch)
  case «initialize» =>
    subst h; unfold Context.reset; split <;> touch
  case offsetVerticalPos =>
    split at h
    · rename_i hc
      simp only [bind_ok, pure_ok, Context.offsetYRelative] at h; obtain ⟨_, _, _, _, rfl⟩ := h; unfold Context.putY; rw [if_pos hc]; touch
    · rw [pure_ok] at h; subst h; touch
  case pageModePrintArea =>
    split at h
    · simp only [bind_ok, pure_ok, Context.setPageArea] at h; obtain ⟨_, _, _, _, _, _, _, _, rfl⟩ := h; touch
    · rw [pure_ok] at h; subst h; touch
  case pageModePrintDirection => split at h <;> (rw [pure_ok] at h; subst h; touch)
  case setBarcodeWidth =>
    subst h; unfold applyBarcodeWidth; dsimp only
    by_cases hn : (if getOr data 0 2 < 2 then 2 else getOr data 0 2) > 6
    · rw [if_pos hn]; exact OnlyChanges.refl _ _
    · rw [if_neg hn]; touch
  case setHorizontalPos => exact setXAbsolute_only h
  case setLineSpacing => simp only [bind_ok, pure_ok] at h; obtain ⟨_, _, rfl⟩ := h; touch
  case setMotionUnits => subst h; unfold applyMotionUnits; dsimp only; split <;> touch
  case setVerticalPos =>
    split at h
    · rename_i hc; exact setYAbsolute_only hc h
    · rw [pure_ok] at h; subst h; touch

/-- The settings changed by `apply_context` of a sub-command. -/
def subWrites : SubId → List Setting
  | .clearAllDownload | .clearAllNv | .clearDownload | .clearNv | .defineDownloadColumn | .defineDownloadRaster
  | .defineNvColumn | .defineNvRaster => [.storedGraphics]
  | .setDotDensity => [.dotsPerInch]
  | .storeBufferRaster | .storeBufferColumn => [.bufferGraphics]
  | .pdf417SetColumnCount => [.pdf417Columns]
  | .pdf417SetRowCount => [.pdf417Rows]
  | .pdf417SetWidth => [.pdf417Width]
  | .pdf417SetCorrectionLevel => [.pdf417ErrCorrection]
  | .pdf417SetOptions => [.pdf417IsTruncated]
  | .qrStore => [.symbolStorage]
  | .qrSetModel => [.qrModel]
  | .qrSetSize => [.qrSize]
  | .qrSetCorrectionLevel => [.qrErrorCorrection]
  | .maxiSetMode => [.maxicodeMode]
  | .gs1SetWidth => [.gs1DatabarWidth]
  | .gs1SetMaxWidth => [.gs1DatabarMaxWidth]
  | .compositeSetWidth => [.compositeWidth]
  | .compositeSetMaxWidth => [.gs1DatabarMaxWidth]
  | .compositeSetHri => [.compositeFont]
  | .aztecSetFunctionAndLayers => [.aztecMode, .aztecLayers]
  | .aztecSetSize => [.aztecSize]
  | .aztecSetCorrectionLevel => [.aztecErrorCorrection]
  | .datamatrixSetOptions => [.datamatrixType, .datamatrixColumns, .datamatrixRows]
  | .datamatrixSetWidth => [.datamatrixWidth]
  | _ => []

theorem applySub_only {ext id data} {c c' : Context} (h : applySub ext id data c = .ok c') : OnlyChanges (subWrites id) c c' := by
  cases id <;> simp only [applySub] at h <;> (try rw [pure_ok] at h) <;> try (subst h; touch)
  case clearDownload => split at h <;> (rw [pure_ok] at h; subst h; touch)
  case clearNv => split at h <;> (rw [pure_ok] at h; subst h; touch)
  case defineDownloadColumn =>
    simp only [applyDefineColumn, bind_ok, pure_ok] at h; obtain ⟨_, _, _, _, _, _, _, _, _, _, _, _, rfl⟩ := h; touch
  case defineNvColumn =>
    simp only [applyDefineColumn, bind_ok, pure_ok] at h; obtain ⟨_, _, _, _, _, _, _, _, _, _, _, _, rfl⟩ := h; touch
  case defineDownloadRaster =>
    unfold applyDefineRaster at h
    split at h
    · rw [pure_ok] at h; subst h; touch
    · simp only [bind_ok, pure_ok] at h; obtain ⟨_, _, rfl⟩ := h; touch
  case defineNvRaster =>
    unfold applyDefineRaster at h
    split at h
    · rw [pure_ok] at h; subst h; touch
    · simp only [bind_ok, pure_ok] at h; obtain ⟨_, _, rfl⟩ := h; touch
  case setDotDensity =>
    subst h; unfold applyDotDensity; dsimp only; split
    · touch
    · split <;> touch
  case storeBufferRaster =>
    unfold applyStoreBuffer at h
    split at h
    · rw [pure_ok] at h; subst h; touch
    · simp only [bind_ok] at h; obtain ⟨_, _, h⟩ := h
      split at h <;> (simp only [bind_ok, pure_ok] at h; obtain ⟨_, _, rfl⟩ := h; touch)
  case storeBufferColumn =>
    unfold applyStoreBuffer at h
    split at h
    · rw [pure_ok] at h; subst h; touch
    · simp only [bind_ok] at h; obtain ⟨_, _, h⟩ := h
      split at h <;> (simp only [bind_ok, pure_ok] at h; obtain ⟨_, _, rfl⟩ := h; touch)
  case pdf417SetCorrectionLevel =>
    simp only [applyPdf417Correction, bind_ok, pure_ok] at h; obtain ⟨_, _, _, _, rfl⟩ := h; touch
  case qrStore =>
    subst h; unfold applyQrStore; dsimp only; split <;> touch
  case maxiSetMode => simp only [bind_ok, pure_ok] at h; obtain ⟨_, _, rfl⟩ := h; touch
  case aztecSetSize => split at h <;> (rw [pure_ok] at h; subst h; touch)
  case datamatrixSetOptions =>
    unfold applyDatamatrixOptions at h
    dsimp only at h
    split at h
    · simp only [bind_ok, pure_ok] at h; obtain ⟨_, _, rfl⟩ := h; split <;> touch
    · split at h
      · rw [pure_ok] at h; subst h; split <;> touch
      · rw [pure_ok] at h; subst h; touch

/-- The settings changed by `apply_context` of a command with a handler. -/
def handlerWrites : Handler → List Setting
  | .unit id => applyWrites id
  | .subUnit id => subWrites id
  | .charEffects _ => [.color, .backgroundColor, .shadowColor, .shadow]
  | .sub s =>
    match s.subcommand with
    | some sc => subWrites sc.id
    | none => []
  | _ => []

theorem applyContext_only {ext cmd} {c c' : Context} (h : applyContext ext cmd c = .ok c') :
    OnlyChanges (handlerWrites cmd.handler) c c' := by
  unfold applyContext at h
  unfold handlerWrites
  split at h
  · rename_i hh; simp only [hh]; exact applyUnit_only h
  · rename_i hh; simp only [hh]; exact applySub_only h
  · rename_i hh; simp only [hh]
    rw [pure_ok] at h; subst h
    unfold applyCharEffects; dsimp only; repeat' split
    all_goals touch
  · rename_i hh; simp only [hh]
    split at h
    · rename_i hs; simp only [hs]; exact applySub_only h
    · rw [pure_ok] at h; subst h; exact OnlyChanges.refl _ _
  · rw [pure_ok] at h; subst h; exact OnlyChanges.refl _ _

/-- The settings changed by a device command. -/
def deviceWrites : DeviceCommand → List Setting
  | .setTextWidth _ => [.widthMult]
  | .setTextHeight _ => [.heightMult]
  | .justify _ => [.justify]
  | .beginPrint | .feedLine _ | .feed _ | .fullCut | .partialCut => penSettings
  | .beginPageMode | .endPageMode => [.pageEnabled]
  | .printPageMode => [.paperX, .paperY]
  | .changePageArea => [.previousDirection] ++ pageGeometry
  | .changePageModeDirection => pageGeometry
  | .changeTabs _ _ => [.tabs]
  | .clearBufferGraphics => [.bufferGraphics]
  | _ => []

theorem applyLogicalArea_fields {p p' : PageModeContext} {x} (h : p.applyLogicalArea = .ok (p', x)) :
    p'.enabled = p.enabled ∧ p'.logicalArea = p.logicalArea ∧ p'.direction = p.direction ∧
    p'.previousDirection = p.previousDirection := by
  simp only [PageModeContext.applyLogicalArea, bind_ok, pure_ok] at h
  obtain ⟨q, hq, _, _, _, _, h⟩ := h
  have hs : (swapPage p).enabled = p.enabled ∧ (swapPage p).logicalArea = p.logicalArea ∧ (swapPage p).direction = p.direction ∧
      (swapPage p).previousDirection = p.previousDirection := by
    unfold swapPage; dsimp only; split <;> simp
  have ht : q.enabled = (swapPage p).enabled ∧ q.logicalArea = (swapPage p).logicalArea ∧ q.direction = (swapPage p).direction ∧
      q.previousDirection = (swapPage p).previousDirection := by
    unfold translateArea at hq
    split at hq
    · rw [pure_ok] at hq; subst hq; simp [translateTopLeftToRight]
    · simp only [translateBottomRightToLeft, bind_ok, pure_ok] at hq; obtain ⟨_, _, rfl⟩ := hq; simp
    · simp only [translateTopRightToBottom, bind_ok, pure_ok] at hq; obtain ⟨_, _, _, _, rfl⟩ := hq; simp
    · simp only [translateBottomLeftToTop, bind_ok, pure_ok] at hq; obtain ⟨_, _, rfl⟩ := hq; simp
  simp only [Prod.mk.injEq] at h
  obtain ⟨rfl, _⟩ := h
  simp only [ht, hs, and_self]

theorem deviceContext_only {d} {c c' : Context} (h : Renderer.deviceContext d c = .ok c') : OnlyChanges (deviceWrites d) c c' := by
  cases d <;> simp only [Renderer.deviceContext, bind_ok, ok_ok] at h <;> simp only [deviceWrites]
  case setTextWidth => subst h; touch
  case setTextHeight => subst h; touch
  case justify => subst h; touch
  case beginPageMode => subst h; touch
  case endPageMode => subst h; touch
  case clearBufferGraphics => subst h; touch
  case beginPrint => exact (PenDown.newline h).only
  case feedLine => exact (PenDown.newline h).only
  case feed => exact (PenDown.feed h).only
  case fullCut => exact (PenDown.newline h).only
  case partialCut => exact (PenDown.newline h).only
  case printPageMode => obtain ⟨_, _, rfl⟩ := h; touch
  case changePageArea =>
    obtain ⟨⟨p, x⟩, h1, rfl⟩ := h
    obtain ⟨a, b, d, e⟩ := applyLogicalArea_fields h1
    intro f hf
    cases f <;> first | rfl | exact a | exact b | exact d | exact absurd (by decide) hf
  case changePageModeDirection =>
    obtain ⟨⟨p, x⟩, h1, rfl⟩ := h
    obtain ⟨a, b, d, e⟩ := applyLogicalArea_fields h1
    intro f hf
    cases f <;> first | rfl | exact a | exact b | exact d | exact e | exact absurd (by decide) hf
  case changeTabs => subst h; unfold Context.setTabLen; split <;> touch
  all_goals (subst h; exact OnlyChanges.refl _ _)

/-- The settings a command may change besides the pen. -/
def deviceHandlerWrites : Handler → List Setting
  | .unit .setCharacterSize => [.widthMult, .heightMult]
  | .unit .setJustification => [.justify]
  | .unit .formfeed => [.pageEnabled, .paperX, .paperY]
  | .unit .selectStandardMode => [.pageEnabled]
  | .unit .setPageMode => [.pageEnabled]
  | .unit .pageModePrintData => [.paperX, .paperY]
  | .unit .pageModePrintArea => [.previousDirection] ++ pageGeometry
  | .unit .pageModePrintDirection => pageGeometry
  | .unit .setTabLen => [.tabs]
  | .unit .beginPrint | .unit .feedAndCut | .unit .printAndFeed | .unit .printAndFeedLines
  | .unit .printAndReverseFeedLines => penSettings
  | .subUnit .printBuffer => [.bufferGraphics]
  | _ => []

theorem getDevice_only {cmd} {c : Context} {ds} (h : getDevice cmd c = .ok (some ds)) :
    ∀ d ∈ ds, ∀ f ∈ deviceWrites d, f ∈ deviceHandlerWrites cmd.handler := by
  unfold getDevice at h
  split at h
  · rename_i id hh
    rw [hh]
    cases id <;> simp only [getDeviceUnit, pure_ok, reduceCtorEq, Option.some.injEq] at h
    case setTabLen => simp only [bind_ok, pure_ok, Option.some.injEq] at h; obtain ⟨_, _, rfl⟩ := h; simp [deviceWrites, deviceHandlerWrites]
    case feedAndCut =>
      repeat' split at h
      all_goals simp only [pure_ok, Option.some.injEq, reduceCtorEq] at h
      all_goals (subst h; simp [deviceWrites, deviceHandlerWrites])
    case formfeed => split at h <;> (simp only [pure_ok, Option.some.injEq] at h; subst h; simp [deviceWrites, deviceHandlerWrites])
    case pageModePrintData =>
      split at h <;> simp only [pure_ok, Option.some.injEq, reduceCtorEq] at h
      subst h; simp [deviceWrites, deviceHandlerWrites]
    case selectStandardMode =>
      split at h <;> simp only [pure_ok, Option.some.injEq, reduceCtorEq] at h
      subst h; simp [deviceWrites, deviceHandlerWrites]
    all_goals (subst h; simp [deviceWrites, deviceHandlerWrites])
  · rename_i hh
    rw [hh]; rw [pure_ok] at h; simp only [Option.some.injEq] at h; subst h; simp [deviceWrites, deviceHandlerWrites]
  · rw [pure_ok] at h; cases h

/-- All settings a command may change. -/
def commandWrites (cmd : Command) : List Setting :=
  match cmd.kind with
  | .unknown => penSettings
  | .text => []
  | .graphics => penSettings ++ deviceHandlerWrites cmd.handler
  | .context => penSettings ++ handlerWrites cmd.handler
  | .contextControl => penSettings ++ handlerWrites cmd.handler ++ deviceHandlerWrites cmd.handler
  | .control => penSettings ++ deviceHandlerWrites cmd.handler
  | .textStyle => handlerWrites cmd.handler ++ deviceHandlerWrites cmd.handler
  | .subcommand => []

namespace Renderer
variable {σ Out : Type} {R : OutputRenderer σ Out} {ext : Ext}

theorem deviceCommands_only {fs : List Setting} {cmd : Command} {c : Context} {o} (h : getDevice cmd c = .ok o)
    (hsub : ∀ f ∈ deviceHandlerWrites cmd.handler, f ∈ fs) {r r' : Renderer σ Out}
    (h2 : deviceCommands R (o.getD []) r = .ok r') : OnlyChanges fs r.context r'.context := by
  cases o with
  | none => exact (deviceCommands_rel (OnlyChanges.refl fs) (OnlyChanges.trans) (by simp) h2).1
  | some ds =>
    refine (deviceCommands_rel (OnlyChanges.refl fs) (OnlyChanges.trans) ?_ h2).1
    intro d hd c c' hc
    exact (deviceContext_only hc).mono (fun f hf => hsub f (getDevice_only h d hd f hf))

theorem processCommand_only {cmd : Command} {r r' : Renderer σ Out} (h : processCommand R ext r cmd = .ok r') :
    OnlyChanges (commandWrites cmd) r.context r'.context := by
  unfold processCommand at h
  unfold commandWrites
  split at h <;> rename_i hk <;> simp only [hk]
  · simp only [bind_ok, pure_ok] at h
    obtain ⟨r1, h1, rfl⟩ := h
    exact (processText_quiet h1).4.only
  · simp only [bind_ok] at h
    obtain ⟨o, h1, h⟩ := h
    split at h <;> (rw [pure_ok] at h; subst h; exact OnlyChanges.refl _ _)
  · simp only [bind_ok] at h
    obtain ⟨r1, h1, g, h2, r2, h3, o, h4, h5⟩ := h
    have a : OnlyChanges (penSettings ++ deviceHandlerWrites cmd.handler) r.context r1.context :=
      (PenDown.only (processText_quiet h1).4).mono (by simp +contextual)
    refine a.trans (OnlyChanges.trans ?_ (deviceCommands_only h4 (by simp +contextual) h5))
    unfold processGraphicsOpt at h3
    split at h3
    · exact (processGraphics_context (processText_quiet h1).3 h3).1.only.mono (by simp +contextual)
    · rw [ok_ok] at h3; subst h3; exact OnlyChanges.refl _ _
  · simp only [bind_ok, pure_ok] at h
    obtain ⟨r1, h1, c, h2, rfl⟩ := h
    exact ((PenDown.only (processText_quiet h1).4).mono (by simp +contextual)).trans ((applyContext_only h2).mono (by simp +contextual))
  · simp only [bind_ok] at h
    obtain ⟨r1, h1, c, h2, o, h3, h4⟩ := h
    refine ((PenDown.only (processText_quiet h1).4).mono (by simp +contextual)).trans
      (((applyContext_only h2).mono (by simp +contextual)).trans ?_)
    exact deviceCommands_only (fs := penSettings ++ handlerWrites cmd.handler ++ deviceHandlerWrites cmd.handler) h3 (by simp +contextual) h4
  · simp only [bind_ok] at h
    obtain ⟨o, h3, r1, h1, h4⟩ := h
    exact ((PenDown.only (processText_quiet h1).4).mono (by simp +contextual)).trans (deviceCommands_only h3 (by simp +contextual) h4)
  · simp only [bind_ok] at h
    obtain ⟨c, h2, o, h3, h4⟩ := h
    refine ((applyContext_only h2).mono (by simp +contextual)).trans ?_
    exact deviceCommands_only (fs := handlerWrites cmd.handler ++ deviceHandlerWrites cmd.handler) h3 (by simp +contextual) h4
  · rw [pure_ok] at h; subst h; exact OnlyChanges.refl _ _

end Renderer
end Thermal
